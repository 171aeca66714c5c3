/- C99: signatures of a PSBT v2 survive what its flags allow to be added. -/
import Verif.Spec.Extend
import Verif.Props.V2Parallel
import Verif.Props.SighashOnly
namespace Psbt.V2
open Psbt

variable {L : Lib} {S : SigLib L}

/-- What calls of constructors leave of a PSBT: everything but the flags and counts stays, inputs and outputs are only
appended, and only if the flags said so at the start. -/
structure Grown (p q : Psbt L) (is : List (Input L)) : Prop where
  inputs : q.inputs = p.inputs ++ is
  outputs : ∃ os, q.outputs = p.outputs ++ os ∧ (Spec.flag p 1 = false → os = [])
  noInputs : Spec.flag p 0 = false → is = []
  count : p.global.inputCount.toNat ≤ q.global.inputCount.toNat
  version : q.global.txVersion = p.global.txVersion
  fallback : q.global.fallbackLockTime = p.global.fallbackLockTime
  flags : ∀ k, Spec.flag q k = true → Spec.flag p k = true

theorem Grown.refl (p : Psbt L) : Grown p p [] :=
  ⟨by simp, ⟨[], by simp, fun _ => rfl⟩, fun _ => rfl, Nat.le_refl _, rfl, rfl, fun _ h => h⟩

theorem Grown.of_flags {p q r : Psbt L} {is : List (Input L)} (h : Grown p q is) (hi : r.inputs = q.inputs) (ho : r.outputs = q.outputs)
    (hg : r.global = { q.global with txModifiableFlags := r.global.txModifiableFlags })
    (hf : ∀ k, Spec.flag r k = true → Spec.flag q k = true) : Grown p r is :=
  ⟨hi ▸ h.inputs, by rw [ho]; exact h.outputs, h.noInputs, by rw [hg]; exact h.count, by rw [hg]; exact h.version,
    by rw [hg]; exact h.fallback, fun k hk => h.flags k (hf k hk)⟩

theorem Grown.noMoreInputs {p q : Psbt L} {is : List (Input L)} (h : Grown p q is) : Grown p (Constructor.noMoreInputs q) is :=
  h.of_flags rfl rfl rfl fun k hk => by rw [(C20_no_more q k).1] at hk; simp at hk; exact hk.2

theorem Grown.noMoreOutputs {p q : Psbt L} {is : List (Input L)} (h : Grown p q is) : Grown p (Constructor.noMoreOutputs q) is :=
  h.of_flags rfl rfl rfl fun k hk => by rw [(C20_no_more q k).2.1] at hk; simp at hk; exact hk.2

theorem extended_grown {p q : Psbt L} {h : Spec.Holds} {is : List (Input L)} (he : Spec.Extended p h q is) :
    Grown p q is ∧ ∀ m, h = .constructor m → (m ≠ .outputsOnly → Spec.flag p 0 = true) ∧ (m ≠ .inputsOnly → Spec.flag p 1 = true) := by
  induction he with
  | start => exact ⟨.refl p, fun m hm => by cases hm⟩
  | @constructorNew m q r is _ e ih =>
    have hq := ctorNew_ok e
    subst hq
    refine ⟨ih.1, fun m' hm => ?_⟩
    cases hm
    obtain ⟨c1, c2, c3⟩ := C20_constructor_new_iff r r
    cases m with
    | modifiable => have := c1.mp e; exact ⟨fun _ => ih.1.flags 0 this.1, fun _ => ih.1.flags 1 this.2.1⟩
    | inputsOnly => have := c2.mp e; exact ⟨fun _ => ih.1.flags 0 this.1, fun h => absurd rfl h⟩
    | outputsOnly => have := c3.mp e; exact ⟨fun h => absurd rfl h, fun _ => ih.1.flags 1 this.1⟩
  | @input m q r is i hm _ e ih =>
    obtain ⟨h1, h2, h3, h4⟩ := input_ok e
    have g := ih.1
    refine ⟨⟨by rw [h1, g.inputs, List.append_assoc], by rw [h2]; exact g.outputs, fun hf => ?_, by have := g.count; omega,
      by rw [h4]; exact g.version, by rw [h4]; exact g.fallback, fun k hk => ?_⟩, ih.2⟩
    · rw [(ih.2 m rfl).1 hm] at hf; cases hf
    · refine g.flags k ?_
      unfold Spec.flag at hk ⊢
      rw [h4] at hk
      exact hk
  | @output m q r is o hm _ e ih =>
    obtain ⟨h1, h2, -, h4⟩ := output_ok e
    have g := ih.1
    obtain ⟨os, ho, -⟩ := g.outputs
    refine ⟨⟨by rw [h2]; exact g.inputs, ⟨os ++ [o], by rw [h1, ho, List.append_assoc], fun hf => ?_⟩, g.noInputs,
      by rw [h4]; exact g.count, by rw [h4]; exact g.version, by rw [h4]; exact g.fallback, fun k hk => ?_⟩, ih.2⟩
    · rw [(ih.2 m rfl).2 hm] at hf; cases hf
    · refine g.flags k ?_
      unfold Spec.flag at hk ⊢
      rw [h4] at hk
      exact hk
  | noMoreInputs _ ih => exact ⟨ih.1.noMoreInputs, ih.2⟩
  | noMoreOutputs _ ih => exact ⟨ih.1.noMoreOutputs, ih.2⟩
  | psbt _ e ih => rw [(ctorPsbt_ok e).1]; exact ⟨ih.1, fun m hm => by cases hm⟩
  | updater _ e ih =>
    unfold Constructor.updater at e
    rw [(ctorPsbt_ok e).1]
    exact ⟨ih.1.noMoreInputs.noMoreOutputs, fun m hm => by cases hm⟩

theorem message_congr {tx tx' : Tx} {n : Nat} {i : Input L} {u : TxOut} {ty : EcdsaTy} {m : Hash32}
    (hl : ∀ code, legacySighash L tx' n code ty = legacySighash L tx n code ty)
    (hs : ∀ code v, segwitSighash L tx' n code v ty = segwitSighash L tx n code v ty) (h : Spec.Message tx n i u ty m) :
    Spec.Message tx' n i u ty m := by
  cases h with
  | bare h1 h2 => exact .bare h1 (by rw [hl]; exact h2)
  | sh h1 h2 h3 => exact .sh h1 h2 (by rw [hl]; exact h3)
  | wpkh h1 h2 => exact .wpkh h1 (by rw [hs]; exact h2)
  | shWpkh h1 h2 h3 => exact .shWpkh h1 h2 (by rw [hs]; exact h3)
  | wsh h1 h2 h3 => exact .wsh h1 h2 (by rw [hs]; exact h3)
  | shWsh h1 h2 h3 h4 h5 => exact .shWsh h1 h2 h3 h4 (by rw [hs]; exact h5)

/-- C99, partially: if the flags are honest, whatever constructors accept to add leaves each signed input as it is, and with
it the message its signatures are for, provided that the lock time stays the same. -/
theorem C99_kept_partial {p q : Psbt L} {h : Spec.Holds} {is : List (Input L)} {n : Nat} {i : Input L} {pk : L.pubkey.T}
    {s : EcdsaSig L} {tx tx' : Tx} {m : Hash32} (hf : Spec.HonestFlags p) (he : Spec.Extended p h q is)
    (hs : i.partialSigs.get pk = some s) (hm : Spec.Signs tx p n i m s.ty) (hp : p.unsignedTx = .ok tx)
    (hq : q.unsignedTx = .ok tx') (hl : tx'.lockTime = tx.lockTime) : Spec.Signs tx' q n i m s.ty := by
  obtain ⟨g, -⟩ := extended_grown he
  obtain ⟨hi, u, hu, hd, hm⟩ := hm
  have hlt := (List.getElem?_eq_some_iff.mp hi.1).1
  have hqi : q.inputs[n]? = some i := by rw [g.inputs, List.getElem?_append_left hlt]; exact hi.1
  refine ⟨⟨hqi, Nat.lt_of_lt_of_le hi.2 g.count⟩, u, hu, hd, ?_⟩
  obtain ⟨l, hl1, rfl⟩ := unsignedTx_ok.mp hp
  obtain ⟨l', hl2, rfl⟩ := unsignedTx_ok.mp hq
  obtain ⟨os, ho, hno⟩ := g.outputs
  obtain ⟨f0, f1, -⟩ := hf i (List.mem_of_getElem? hi.1) pk s hs
  have hins : Spec.commitsInputs s.ty → q.inputs = p.inputs := by
    intro hc
    have : Spec.flag p 0 = false := by
      cases e : Spec.flag p 0 with
      | false => rfl
      | true =>
        rcases hc with hc | hc | hc <;> rcases f0 e with h | h | h <;> rw [hc] at h <;> revert h <;> decide
    rw [g.inputs, g.noInputs this, List.append_nil]
  have houts : s.ty.1 ≠ 0x02 → s.ty.1 ≠ 0x82 → q.outputs = p.outputs := by
    intro h1 h2
    have : Spec.flag p 1 = false := by
      cases e : Spec.flag p 1 with
      | false => rfl
      | true => rcases f1 e with h | h <;> contradiction
    rw [ho, hno this, List.append_nil]
  have a1 : (p.inputs.map Input.unsignedTxIn)[n]? = some i.unsignedTxIn := by rw [List.getElem?_map, hi.1]; rfl
  have a2 : (q.inputs.map Input.unsignedTxIn)[n]? = some i.unsignedTxIn := by rw [List.getElem?_map, hqi]; rfl
  have h3 : Spec.commitsOutputs s.ty → q.outputs = p.outputs := by
    rintro (h | h) <;> exact houts (by rw [h]; decide) (by rw [h]; decide)
  have h4 : Spec.commitsOutput s.ty → q.outputs = p.outputs := by
    rintro (h | h) <;> exact houts (by rw [h]; decide) (by rw [h]; decide)
  refine message_congr (fun code => ?_) (fun code v => ?_) hm
  · exact C37_legacy_covers_only code g.version hl a2 a1 rfl rfl (fun hc => by simp only [hins hc])
      (fun hc => by simp only [hins (.inl hc)]) (fun hc => by simp only [h3 hc]) (fun hc => by simp only [h4 hc])
  · exact C37_segwit_covers_only code v g.version hl a2 a1 rfl rfl (fun hc => by simp only [hins hc])
      (fun hc => by simp only [hins (.inl hc)]) (fun hc => by simp only [h3 hc]) (fun hc => by simp only [h4 hc])

/-- C99, partially: inputs that require no lock time do not change it; so if no other ones are added, the signatures stay good. -/
theorem C99_unconstrained_partial {p q : Psbt L} {h : Spec.Holds} {is : List (Input L)} {tx : Tx} (he : Spec.Extended p h q is)
    (hc : ∀ i ∈ is, ¬ Spec.Constrained i) (hp : p.unsignedTx = .ok tx) :
    ∃ tx', q.unsignedTx = .ok tx' ∧ tx'.lockTime = tx.lockTime := by
  obtain ⟨g, -⟩ := extended_grown he
  obtain ⟨l, hl, rfl⟩ := unsignedTx_ok.mp hp
  have hmem : ∀ j, j ∈ q.inputs → Spec.Constrained j → j ∈ p.inputs := by
    intro j hj hcj
    rw [g.inputs, List.mem_append] at hj
    exact hj.resolve_right fun h => hc j h hcj
  have hsub : ∀ j, j ∈ p.inputs → j ∈ q.inputs := fun j hj => by rw [g.inputs]; exact List.mem_append_left _ hj
  have : Spec.LockTime q l := by
    rcases (C17_lock_time_iff p l).mp hl with h | ⟨t, ⟨i, hi, ht⟩, all⟩ | ⟨t, ⟨j, hj, hjc⟩, ⟨i, hi, ht⟩, all⟩
    · rw [← g.fallback]; exact .fallback fun j hj hcj => h j (hmem j hj hcj) hcj
    · exact .height t ⟨i, hsub i hi, ht⟩ fun j hj hcj => all j (hmem j hj hcj) hcj
    · exact .time t ⟨j, hsub j hj, hjc⟩ ⟨i, hsub i hi, ht⟩ fun j hj hcj => all j (hmem j hj hcj) hcj
  exact ⟨_, unsignedTx_ok.mpr ⟨l, (C17_lock_time_iff q l).mpr this, rfl⟩, rfl⟩

/-- C99, partially: an unsigned PSBT signed by anyone and extended afterwards with inputs that require no lock time: what was
signed is still what has to be signed. -/
theorem C99_signed_partial {p q r : Psbt L} {h : Spec.Holds} {is : List (Input L)} {n : Nat} {i j : Input L} {pk : L.pubkey.T}
    {tx : Tx} {k : Provider S} {e m ty sk} (hf : Spec.HonestFlags p) (hp : p.unsignedTx = .ok tx) (hs : p.sign S tx k = .ok (q, e))
    (he : Spec.Extended q h r is) (hc : ∀ i ∈ is, ¬ Spec.Constrained i) (hm : Spec.Signs tx p n i m ty) (hj : q.inputs[n]? = some j)
    (hk : j.partialSigs.get pk = some ⟨S.signEcdsa m sk, ty⟩) :
    ∃ tx', r.unsignedTx = .ok tx' ∧ Spec.Signs tx' r n j m ty := by
  have hq : q.unsignedTx = .ok tx := by rw [(C33_same_transaction hs).1]; exact hp
  obtain ⟨tx', h1, h2⟩ := C99_unconstrained_partial he hc hq
  have hm' : Spec.Signs tx q n j m ty := by
    have e1 := (C37_sighash_iff p n tx m ty).mpr ⟨i, hm.2.choose, hm.1, hm.2.choose_spec⟩
    rw [← sighashEcdsa_erase, ← C33_frame hs, sighashEcdsa_erase] at e1
    obtain ⟨i', u, h1, h2⟩ := (C37_sighash_iff q n tx m ty).mp e1
    have : i' = j := Option.some.inj (h1.1.symm.trans hj)
    exact this ▸ ⟨h1, u, h2⟩
  exact ⟨tx', h1, C99_kept_partial (C78_sign hf hs) he hk hm' hq h1 h2⟩

/-! ### A signed input, extended -/

/-- The toy signatures, with a hash that depends on all of the message. -/
abbrev XL : Lib := Demo.mixLib
def XS : SigLib XL where
  SK := UInt8
  pub := (Demo.sigLib false).pub
  signEcdsa := (Demo.sigLib false).signEcdsa
  Keypair := Bool × UInt8
  keypair := (Demo.sigLib false).keypair
  tapTweak := (Demo.sigLib false).tapTweak
  signSchnorr := (Demo.sigLib false).signSchnorr
  xonly := (Demo.sigLib false).xonly
  ofSecp := (Demo.sigLib false).ofSecp
  Xpriv := UInt8 × UInt8
  fingerprint := (Demo.sigLib false).fingerprint
  parentFingerprint := (Demo.sigLib false).parentFingerprint
  derive := (Demo.sigLib false).derive
  toPriv := (Demo.sigLib false).toPriv
def xPk : XL.pubkey.T := sPk
def xKeys : Provider XS := getKeyXpriv XS (0, 1)
/-- An input spending output 0 of some transaction, which pays to the hash of a key. -/
def xIn0 : Input XL :=
  { Input.new XL ⟨Demo.rep 32 7, 0⟩ with
    witnessUtxo := some ⟨1000, spkWpkh⟩, bip32Derivations := sOrigin, sighashType := some 0x81 }
/-- The unsigned transaction. -/
def xTx (p : Psbt XL) : Tx := match p.unsignedTx with | .ok t => t | .error _ => ⟨0, 0, [], []⟩

/-- One input to be signed with ALL|ANYONECANPAY; inputs may be added. -/
def xP : Psbt XL :=
  ⟨{ Global.new XL with inputCount := 1, outputCount := 1, txModifiableFlags := 0x01 }, [xIn0], [Output.new XL ⟨500, [0x51]⟩]⟩
/-- It is signed. -/
def xQ : Psbt XL := match Signer.sign XS xP xKeys with | .ok (q, _) => q | _ => xP
/-- An input added later, which may require a lock time. -/
def xIn (h : Option Height) : Input XL := { Input.new XL ⟨Demo.rep 32 8, 0⟩ with minHeight := h }
/-- The signed PSBT with that input. -/
def xR (h : Option Height) : Psbt XL := match Constructor.input xQ (xIn h) with | .ok r => r | _ => xQ

/-- The message to sign for its first input. -/
def xMsg (p : Psbt XL) : Hash32 := match p.sighashEcdsa 0 (xTx p) with | .ok (m, _) => m | _ => zero32

theorem xP_honest : Spec.HonestFlags xP := by
  intro i hi pk s hs
  have : i.partialSigs = .empty := (by decide +kernel : ∀ i ∈ xP.inputs, i.partialSigs = .empty) i hi
  rw [this] at hs; cases hs

theorem xSigned : ∃ u, Signer.sign XS xP xKeys = .ok (xQ, u) := ⟨_, rfl⟩

theorem xExtended (h : Option Height) (hl : ∃ n, (xR h).determineLockTime = .ok n) : Spec.Extended xQ .psbt (xR h) [xIn h] := by
  obtain ⟨n, hl⟩ := hl
  refine .psbt (m := .inputsOnly) (q := xR h) (.input (is := []) (by decide) (.constructorNew .start (r := xQ) rfl) rfl) ?_
  unfold Constructor.psbt
  rw [hl]
  rfl

-- The hypotheses of the theorems above are met: the input added first requires nothing.
example : Spec.HonestFlags xQ ∧ Spec.Extended xQ .psbt (xR none) [xIn none] ∧ ¬ Spec.Constrained (xIn none) ∧
    (xR none).inputs.length = 2 ∧ (∃ i ∈ xQ.inputs, ∃ s, i.partialSigs.get xPk = some s ∧ s.ty.1 = 0x81) ∧
    xQ.unsignedTx = .ok (xTx xQ) ∧ (xR none).sighashEcdsa 0 (xTx (xR none)) = xQ.sighashEcdsa 0 (xTx xQ) := by
  refine ⟨?_, xExtended none ⟨0, by decide +kernel⟩, by unfold Spec.Constrained; decide, by decide +kernel, ?_, by decide +kernel,
    by decide +kernel⟩
  · obtain ⟨u, hs⟩ := xSigned
    obtain ⟨tx, -, h⟩ := signer_sign_iff.mp hs
    exact C78_sign xP_honest h
  · exact ⟨xQ.inputs.headD xIn0, by decide +kernel, _, rfl, by decide +kernel⟩

/-- C99 fails: BIP-370 tells constructors to refuse an input whose required lock time changes the lock time of a PSBT that has
signatures. They accept it: a signature of ALL|ANYONECANPAY, added with honest flags, is no longer one for the transaction. -/
theorem C99_lock_time_counterexample : ∃ (p q r : Psbt XL) (i : Input XL) (u : BMap Nat (List XL.pubkey.T)) (m m' : Hash32)
    (s : EcdsaSig XL), Spec.HonestFlags p ∧ Signer.sign XS p xKeys = .ok (q, u) ∧ Spec.Extended q .psbt r [i] ∧
    q.sighashEcdsa 0 (xTx q) = .ok (m, s.ty) ∧ r.sighashEcdsa 0 (xTx r) = .ok (m', s.ty) ∧ m ≠ m' ∧
    (∃ j, q.inputs[0]? = some j ∧ r.inputs[0]? = some j ∧ j.partialSigs.get xPk = some s) ∧
    (∃ sk, XS.pub sk = xPk ∧ s.der = XS.signEcdsa m sk) := by
  obtain ⟨u, hs⟩ := xSigned
  let h : Option Height := some ⟨100, by decide⟩
  let j := xQ.inputs.headD xIn0
  let s : EcdsaSig XL := (j.partialSigs.get xPk).getD ⟨Demo.val 8 (by decide) 0, ⟨1, by decide⟩⟩
  refine ⟨xP, xQ, xR h, xIn h, u, xMsg xQ, xMsg (xR h), s, xP_honest, hs, xExtended h ⟨100, by decide +kernel⟩,
    by decide +kernel, by decide +kernel, by decide +kernel, ⟨j, by decide +kernel, by decide +kernel, by decide +kernel⟩,
    (2 : UInt8), by decide +kernel, by decide +kernel⟩

end Psbt.V2
