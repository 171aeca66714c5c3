/- C108: combining, and two PSBTs that are the same. -/
import Verif.Props.BothVersionsRoles
import Verif.Model.V0.Combine
namespace Psbt.Both
open Psbt Psbt.Spec

variable {L : Lib}

theorem pointwise_nil' {α β : Type} {R : α → β → Prop} : Pointwise R ([] : List α) ([] : List β) :=
  ⟨rfl, fun n a b h => by simp at h⟩

theorem pointwise_cons' {α β : Type} {R : α → β → Prop} {a : α} {b : β} {as : List α} {bs : List β} (h : R a b) (hs : Pointwise R as bs) :
    Pointwise R (a :: as) (b :: bs) := by
  refine ⟨by simp [hs.1], fun n x y hx hy => ?_⟩
  cases n with
  | zero => cases hx; cases hy; exact h
  | succ n => exact hs.2 n x y (by simpa using hx) (by simpa using hy)

theorem mergeXpubs_same : ∀ (l : List (L.xpub.T × KeySource)) (m m' : BMap L.xpub.T KeySource),
    V0.mergeXpubs m l = (m', .ok ()) ↔ V2.mergeXpubs m l = .ok m'
  | [], m, m' => by simp [V0.mergeXpubs, V2.mergeXpubs]
  | (x, (fp1, d1)) :: l, m, m' => by
    unfold V0.mergeXpubs V2.mergeXpubs
    cases hx : m.get x with
    | none => exact mergeXpubs_same l _ m'
    | some ks =>
      obtain ⟨fp2, d2⟩ := ks
      simp only
      split
      · exact mergeXpubs_same l _ m'
      · split
        · simp
        · split
          · exact mergeXpubs_same l _ m'
          · simp

/-- One input of each. -/
theorem inputCombine_same {t : TxIn} {i i' : V0.Input L} {j j' : V2.Input L} (ht : SameTxIn t j) (ht' : SameTxIn t j')
    (hi : SameInputRecords i j) (hi' : SameInputRecords i' j') (hk : i.tapKeySig = j.tapKeySig) (hk' : i'.tapKeySig = j'.tapKeySig)
    (hs : i.tapScriptSigs = j.tapScriptSigs) (hs' : i'.tapScriptSigs = j'.tapScriptSigs)
    (hl : j.minTime = j'.minTime ∧ j.minHeight = j'.minHeight) :
    ∃ k, V2.Input.combine j j' = .ok k ∧ SameTxIn t k ∧ SameInputRecords (i.combine i') k ∧ (i.combine i').tapKeySig = k.tapKeySig ∧
      (i.combine i').tapScriptSigs = k.tapScriptSigs ∧ k.minTime = j.minTime ∧ k.minHeight = j.minHeight := by
  obtain ⟨a1, a2, a3, a4, a5, a6, a7, a8, a9, a10, a11, a12, a13, a14, a15, a16, a17, a18, a19⟩ := hi
  obtain ⟨b1, b2, b3, b4, b5, b6, b7, b8, b9, b10, b11, b12, b13, b14, b15, b16, b17, b18, b19⟩ := hi'
  have self : ∀ {α : Type} (x : Option α), V2.combOpt x x = x := by intro α x; cases x <;> rfl
  unfold V2.Input.combine
  rw [if_neg (by rw [← ht.txid, ← ht'.txid]; simp), if_neg (by rw [← ht.index, ← ht'.index]; simp)]
  refine ⟨_, rfl, ⟨ht.txid, ht.index, ?_, ht.unsigned⟩, ?_, ?_, ?_, ?_, ?_⟩
  · rcases ht.sequence with e | ⟨e, e2⟩
    · left; simp only [e]; cases j'.sequence <;> rfl
    · rcases ht'.sequence with e' | ⟨e', -⟩
      · left; simp only [e, e']; rfl
      · right; simp only [e, e']; exact ⟨rfl, e2⟩
  · constructor <;> simp only [V0.Input.combine, *]
  · simp only [V0.Input.combine, hk, hk']
  · simp only [V0.Input.combine, hs, hs']
  · simp only [← hl.1, self]
  · simp only [← hl.2, self]

theorem inputs_combine_same : ∀ {ts : List TxIn} {is is' : List (V0.Input L)} {js js' : List (V2.Input L)}, Pointwise SameTxIn ts js →
    Pointwise SameTxIn ts js' → Pointwise SameInputRecords is js → Pointwise SameInputRecords is' js' →
    is.map V0.Input.tapKeySig = js.map V2.Input.tapKeySig → is'.map V0.Input.tapKeySig = js'.map V2.Input.tapKeySig →
    is.map V0.Input.tapScriptSigs = js.map V2.Input.tapScriptSigs → is'.map V0.Input.tapScriptSigs = js'.map V2.Input.tapScriptSigs →
    (js.map fun j => (j.minTime, j.minHeight)) = js'.map (fun j => (j.minTime, j.minHeight)) →
    ∃ ks, V2.combineZip V2.Input.combine js js' = .ok ks ∧ Pointwise SameTxIn ts ks ∧
      Pointwise SameInputRecords (V0.combineZip V0.Input.combine is is') ks ∧
      (V0.combineZip V0.Input.combine is is').map V0.Input.tapKeySig = ks.map V2.Input.tapKeySig ∧
      (V0.combineZip V0.Input.combine is is').map V0.Input.tapScriptSigs = ks.map V2.Input.tapScriptSigs ∧
      (ks.map fun j => (j.minTime, j.minHeight)) = js.map (fun j => (j.minTime, j.minHeight))
  | [], is, is', js, js', h1, h2, h3, h4, _, _, _, _, _ => by
    cases pointwise_nil h1
    cases pointwise_nil h2
    cases List.length_eq_zero_iff.mp h3.1
    cases List.length_eq_zero_iff.mp h4.1
    exact ⟨[], rfl, h1, h3, rfl, rfl, rfl⟩
  | t :: ts, is, is', js, js', h1, h2, h3, h4, h5, h6, h7, h8, h9 => by
    obtain ⟨j, js, rfl, g1, h1⟩ := pointwise_cons h1
    obtain ⟨j', js', rfl, g2, h2⟩ := pointwise_cons h2
    cases is with
    | nil => exact absurd h3.1 (by simp)
    | cons i is =>
      cases is' with
      | nil => exact absurd h4.1 (by simp)
      | cons i' is' =>
        obtain ⟨_, _, e, g3, h3⟩ := pointwise_cons h3
        cases e
        obtain ⟨_, _, e, g4, h4⟩ := pointwise_cons h4
        cases e
        simp only [List.map_cons, List.cons.injEq, Prod.mk.injEq] at h5 h6 h7 h8 h9
        obtain ⟨k, e1, e2, e3, e4, e5, e6, e7⟩ := inputCombine_same g1 g2 g3 g4 h5.1 h6.1 h7.1 h8.1 h9.1
        obtain ⟨ks, f1, f2, f3, f4, f5, f6⟩ := inputs_combine_same h1 h2 h3 h4 h5.2 h6.2 h7.2 h8.2 h9.2
        refine ⟨k :: ks, ?_, pointwise_cons' e2 f2, pointwise_cons' e3 f3, ?_, ?_, ?_⟩
        · unfold V2.combineZip
          rw [e1, f1]
          rfl
        · simp only [V0.combineZip, List.map_cons, e4, f4]
        · simp only [V0.combineZip, List.map_cons, e5, f5]
        · simp only [List.map_cons, e6, e7, f6]

theorem outputs_combine_same : ∀ {os : List TxOut} {is is' : List (V0.Output L)} {js js' : List (V2.Output L)},
    Pointwise (fun (o : TxOut) (r : V2.Output L) => o.value = r.amount ∧ o.scriptPubkey = r.scriptPubkey) os js →
    Pointwise (fun (o : TxOut) (r : V2.Output L) => o.value = r.amount ∧ o.scriptPubkey = r.scriptPubkey) os js' →
    Pointwise SameOutputRecords is js → Pointwise SameOutputRecords is' js' →
    ∃ ks, V2.combineZip V2.Output.combine js js' = .ok ks ∧
      Pointwise (fun (o : TxOut) (r : V2.Output L) => o.value = r.amount ∧ o.scriptPubkey = r.scriptPubkey) os ks ∧
      Pointwise SameOutputRecords (V0.combineZip V0.Output.combine is is') ks
  | [], is, is', js, js', h1, h2, h3, h4 => by
    cases pointwise_nil h1
    cases pointwise_nil h2
    cases List.length_eq_zero_iff.mp h3.1
    cases List.length_eq_zero_iff.mp h4.1
    exact ⟨[], rfl, h1, h3⟩
  | t :: ts, is, is', js, js', h1, h2, h3, h4 => by
    obtain ⟨j, js, rfl, g1, h1⟩ := pointwise_cons h1
    obtain ⟨j', js', rfl, g2, h2⟩ := pointwise_cons h2
    cases is with
    | nil => exact absurd h3.1 (by simp)
    | cons i is =>
      cases is' with
      | nil => exact absurd h4.1 (by simp)
      | cons i' is' =>
        obtain ⟨_, _, e, g3, h3⟩ := pointwise_cons h3
        cases e
        obtain ⟨_, _, e, g4, h4⟩ := pointwise_cons h4
        cases e
        obtain ⟨ks, f1, f2, f3⟩ := outputs_combine_same h1 h2 h3 h4
        obtain ⟨a1, a2, a3, a4, a5, a6, a7, a8⟩ := g3
        obtain ⟨b1, b2, b3, b4, b5, b6, b7, b8⟩ := g4
        have e1 : ∃ k, V2.Output.combine j j' = .ok k ∧ (t.value = k.amount ∧ t.scriptPubkey = k.scriptPubkey) ∧
            SameOutputRecords (i.combine i') k := by
          unfold V2.Output.combine
          rw [if_neg (by rw [← g1.1, ← g2.1]; simp), if_neg (by rw [← g1.2, ← g2.2]; simp)]
          refine ⟨_, rfl, g1, ?_⟩
          constructor <;> simp only [V0.Output.combine, *]
        obtain ⟨k, e1, e2, e3⟩ := e1
        refine ⟨k :: ks, ?_, pointwise_cons' e2 f2, pointwise_cons' e3 f3⟩
        unfold V2.combineZip
        rw [e1, f1]
        rfl

/-- C108. Combining two PSBTs v0 and combining the same two as PSBT v2, with the same required lock times, have the same outcome: both
fail, or both succeed and the results are the same. -/
theorem C108_combine {p p' : V0.Psbt L} {q q' : V2.Psbt L} (h : SamePsbt p q) (h' : SamePsbt p' q') (ht : p.unsignedTx = p'.unsignedTx)
    (hl : ∀ (n : Nat) (j j' : V2.Input L), q.inputs[n]? = some j → q'.inputs[n]? = some j' → j.minTime = j'.minTime ∧ j.minHeight = j'.minHeight) :
    (∀ r, p.combine p' = (r, .ok ()) → ∃ s, q.combine q' = .ok s ∧ SamePsbt r s) ∧
    (∀ s, q.combine q' = .ok s → ∃ r, p.combine p' = (r, .ok ()) ∧ SamePsbt r s) := by
  have hlen : q.inputs.length = q'.inputs.length := by rw [← h.txIn.1, ← h'.txIn.1, ht]
  have hl' : (q.inputs.map fun j => (j.minTime, j.minHeight)) = q'.inputs.map fun j => (j.minTime, j.minHeight) :=
    pointwise_map (R := fun (a b : V2.Input L) => a.minTime = b.minTime ∧ a.minHeight = b.minHeight) (fun a b e => by rw [e.1, e.2]) ⟨hlen, hl⟩
  obtain ⟨ks, e1, e2, e3, e4, e5, e6⟩ := inputs_combine_same h.txIn (by rw [ht]; exact h'.txIn) h.inputs h'.inputs h.tapKeySig h'.tapKeySig
    h.tapScriptSigs h'.tapScriptSigs hl'
  obtain ⟨os, f1, f2, f3⟩ := outputs_combine_same h.txOut (by rw [ht]; exact h'.txOut) h.outputs h'.outputs
  have hks : ks.length = q.inputs.length := by rw [← h.txIn.1, ← e2.1]
  have main : ∀ m, V2.mergeXpubs q.global.xpubs q'.global.xpubs.l = .ok m →
      ∃ r s, p.combine p' = (r, .ok ()) ∧ q.combine q' = .ok s ∧ SamePsbt r s := by
    intro m hm
    have hm0 : V0.mergeXpubs p.xpub p'.xpub.l = (m, .ok ()) := by rw [mergeXpubs_same, h.xpubs, h'.xpubs]; exact hm
    refine ⟨{ p with
        version := if p.version ≤ p'.version then p'.version else p.version
        xpub := m
        proprietary := p.proprietary.extend p'.proprietary
        unknown := p.unknown.extend p'.unknown
        inputs := V0.combineZip V0.Input.combine p.inputs p'.inputs
        outputs := V0.combineZip V0.Output.combine p.outputs p'.outputs },
      ⟨{ q.global with
        xpubs := m
        spEcdhShares := q.global.spEcdhShares.extend q'.global.spEcdhShares
        spDleqProofs := q.global.spDleqProofs.extend q'.global.spDleqProofs
        proprietaries := q.global.proprietaries.extend q'.global.proprietaries
        unknowns := q.global.unknowns.extend q'.global.unknowns }, ks, os⟩, ?_, ?_, ?_⟩
    · unfold V0.Psbt.combine
      rw [if_neg (by rw [ht]; simp)]
      simp only [hm0]
    · unfold V2.Psbt.combine V2.Global.combine
      rw [if_neg (by rw [h.version, h'.version]; simp), if_neg (by rw [← h.txVersion, ← h'.txVersion, ht]; simp), hm, e1, f1]
      rfl
    · exact {
        version := h.version
        txVersion := h.txVersion
        lockTime := by
          rw [← V2.C17_lock_time_iff, ← (V2.C17_lock_time_iff q _).mpr h.lockTime]
          exact V2.lockTime_congr rfl e6
        count := by
          show q.global.inputCount.toNat = ks.length
          rw [hks]; exact h.count
        txIn := e2
        txOut := f2
        inputs := e3
        outputs := f3
        xpubs := rfl
        proprietary := by
          show p.proprietary.extend p'.proprietary = _
          rw [h.proprietary, h'.proprietary]
        unknown := by
          show p.unknown.extend p'.unknown = _
          rw [h.unknown, h'.unknown]
        tapKeySig := e4
        tapScriptSigs := e5 }
  constructor
  · intro r hr
    unfold V0.Psbt.combine at hr
    rw [if_neg (by rw [ht]; simp)] at hr
    simp only at hr
    cases hm : V0.mergeXpubs p.xpub p'.xpub.l with
    | mk m e =>
      cases e with
      | error e => rw [hm] at hr; simp at hr
      | ok u =>
        have hm2 : V2.mergeXpubs q.global.xpubs q'.global.xpubs.l = .ok m := by rw [← h.xpubs, ← h'.xpubs, ← mergeXpubs_same]; exact hm
        obtain ⟨r', s, g1, g2, g3⟩ := main m hm2
        have : r = r' := by
          have g1' := g1
          unfold V0.Psbt.combine at g1'
          rw [if_neg (by rw [ht]; simp)] at g1'
          exact (Prod.mk.inj (hr.symm.trans g1')).1
        subst this
        exact ⟨s, g2, g3⟩
  · intro s hs
    cases hm : V2.mergeXpubs q.global.xpubs q'.global.xpubs.l with
    | error e =>
      unfold V2.Psbt.combine V2.Global.combine at hs
      rw [if_neg (by rw [h.version, h'.version]; simp), if_neg (by rw [← h.txVersion, ← h'.txVersion, ht]; simp), hm] at hs
      cases e <;> cases hs
    | ok m =>
      obtain ⟨r, s', g1, g2, g3⟩ := main m hm
      rw [hs] at g2
      cases g2
      exact ⟨r, g1, g3⟩

/-! ### Every PSBT has a counterpart -/

/-- The v2 input map in PSBT v0. -/
def downInput (j : V2.Input L) : V0.Input L where
  nonWitnessUtxo := j.nonWitnessUtxo
  witnessUtxo := j.witnessUtxo
  partialSigs := j.partialSigs
  sighashType := j.sighashType
  redeemScript := j.redeemScript
  witnessScript := j.witnessScript
  bip32Derivation := j.bip32Derivations
  finalScriptSig := j.finalScriptSig
  finalScriptWitness := j.finalScriptWitness
  ripemd160Preimages := j.ripemd160Preimages
  sha256Preimages := j.sha256Preimages
  hash160Preimages := j.hash160Preimages
  hash256Preimages := j.hash256Preimages
  tapKeySig := j.tapKeySig
  tapScriptSigs := j.tapScriptSigs
  tapScripts := j.tapScripts
  tapKeyOrigins := j.tapKeyOrigins
  tapInternalKey := j.tapInternalKey
  tapMerkleRoot := j.tapMerkleRoot
  proprietary := j.proprietaries
  unknown := j.unknowns

/-- The v2 output map in PSBT v0. -/
def downOutput (j : V2.Output L) : V0.Output L where
  redeemScript := j.redeemScript
  witnessScript := j.witnessScript
  bip32Derivation := j.bip32Derivations
  tapInternalKey := j.tapInternalKey
  tapTree := j.tapTree
  tapKeyOrigins := j.tapKeyOrigins
  proprietary := j.proprietaries
  unknown := j.unknowns

/-- The v2 PSBT with lock time `n` in PSBT v0. -/
def down (q : V2.Psbt L) (n : UInt32) : V0.Psbt L where
  unsignedTx := ⟨q.global.txVersion, n, q.inputs.map fun j => ⟨⟨j.previousTxid, j.spentOutputIndex⟩, [], j.sequence.getD 0xFFFFFFFF, []⟩,
    q.outputs.map fun r => ⟨r.amount, r.scriptPubkey⟩⟩
  version := 0
  xpub := q.global.xpubs
  proprietary := q.global.proprietaries
  unknown := q.global.unknowns
  inputs := q.inputs.map downInput
  outputs := q.outputs.map downOutput

theorem pointwise_of_map {α β : Type} {R : α → β → Prop} {f : β → α} (h : ∀ b, R (f b) b) (bs : List β) : Pointwise R (bs.map f) bs := by
  refine ⟨by simp, fun n a b ha hb => ?_⟩
  rw [List.getElem?_map, hb] at ha
  cases ha
  exact h b

theorem down_same {q : V2.Psbt L} {n : UInt32} (hv : q.global.version = 2) (hc : q.global.inputCount.toNat = q.inputs.length)
    (hl : Spec.LockTime q n) : SamePsbt (down q n) q := by
  refine { version := hv, txVersion := rfl, lockTime := hl, count := hc, txIn := ?_, txOut := ?_, inputs := ?_, outputs := ?_, xpubs := rfl,
           proprietary := rfl, unknown := rfl, tapKeySig := ?_, tapScriptSigs := ?_ }
  · refine pointwise_of_map (fun j => ⟨rfl, rfl, ?_, rfl, rfl⟩) _
    cases j.sequence with
    | none => exact .inr ⟨rfl, rfl⟩
    | some s => exact .inl rfl
  · exact pointwise_of_map (fun j => ⟨rfl, rfl⟩) _
  · exact pointwise_of_map (fun j => by constructor <;> rfl) _
  · exact pointwise_of_map (fun j => by constructor <;> rfl) _
  · simp only [down, List.map_map]; rfl
  · simp only [down, List.map_map]; rfl

-- The relation is not empty: every PSBT v2 whose lock time can be determined has a counterpart.
example (q : V2.Psbt L) (n : UInt32) (hv : q.global.version = 2) (hc : q.global.inputCount.toNat = q.inputs.length)
    (hl : q.determineLockTime = .ok n) : ∃ p, SamePsbt p q := ⟨_, down_same hv hc ((V2.C17_lock_time_iff q n).mp hl)⟩

/-- A v2 PSBT to be signed, with a sequence number or without. -/
def vQ (s : Option UInt32) : V2.Psbt V2.XL := { V2.xP with inputs := [{ V2.xIn0 with sequence := s }] }

theorem vSame (s : Option UInt32) : SamePsbt (down (vQ s) 0) (vQ s) := by
  refine down_same rfl rfl ((V2.C17_lock_time_iff _ _).mp ?_)
  cases s <;> rfl

def vMsg0 (p : V0.Psbt V2.XL) : Hash32 := match p.sighashEcdsa 0 p.unsignedTx with | .ok (m, _) => m | _ => zero32
def vMsg2 (p : V2.Psbt V2.XL) : Hash32 := match p.sighashEcdsa 0 (V2.xTx p) with | .ok (m, _) => m | _ => zero32

/-- C108 fails: an absent sequence number is the final one by BIP-370, and so it is when the v2 PSBT is extracted; but the message to
sign is for sequence number 0. -/
theorem C108_message_counterexample : ∃ (p : V0.Psbt V2.XL) (q : V2.Psbt V2.XL) (tx : Tx) (m m' : Hash32) (ty : EcdsaTy), SamePsbt p q ∧
    q.unsignedTx = .ok tx ∧ p.sighashEcdsa 0 p.unsignedTx = .ok (m, ty) ∧ q.sighashEcdsa 0 tx = .ok (m', ty) ∧ m ≠ m' := by
  refine ⟨down (vQ none) 0, vQ none, V2.xTx (vQ none), vMsg0 (down (vQ none) 0), vMsg2 (vQ none), ⟨0x81, by decide⟩, vSame none,
    by decide +kernel, by decide +kernel, by decide +kernel, by decide +kernel⟩

-- The hypotheses of the theorems are met: with the sequence number the PSBTs are the same, and signing both works and adds a signature.
example : SamePsbt (down (vQ (some 5)) 0) (vQ (some 5)) ∧ (∀ j ∈ (vQ (some 5)).inputs, j.sequence ≠ none) ∧
    (∃ tx, (vQ (some 5)).unsignedTx = .ok tx ∧ ∃ p' u q' v, (down (vQ (some 5)) 0).sign V2.XS V2.xKeys = .ok (p', .ok u) ∧
      (vQ (some 5)).sign V2.XS tx V2.xKeys = .ok (q', .ok v) ∧ ∀ j ∈ q'.inputs, (j.partialSigs.get V2.xPk).isSome) := by
  refine ⟨vSame _, by decide +kernel, V2.xTx (vQ (some 5)), by decide +kernel, _, _, _, _, rfl, rfl, by decide +kernel⟩

end Psbt.Both
