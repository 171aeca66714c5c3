/-
C104: what one input is signed with depends on the transaction and on this input alone, and for taproot on the outputs that
all inputs spend.
-/
import Verif.Spec.Local
import Verif.Props.V0Sign
import Verif.Props.V2Sign
namespace Psbt

namespace V0
variable {L : Lib} {S : SigLib L} {p q : Psbt L} {n : Nat}

theorem checkedInput_local (ht : p.unsignedTx = q.unsignedTx) (hl : p.inputs.length = q.inputs.length)
    (hn : p.inputs[n]? = q.inputs[n]?) : p.checkedInput n = q.checkedInput n := by
  unfold Psbt.checkedInput; rw [ht, hl, hn]

theorem spendUtxo_local (ht : p.unsignedTx = q.unsignedTx) (hl : p.inputs.length = q.inputs.length)
    (hn : p.inputs[n]? = q.inputs[n]?) : p.spendUtxo n = q.spendUtxo n := by
  unfold Psbt.spendUtxo; rw [ht, checkedInput_local ht hl hn]

theorem outputType_local (ht : p.unsignedTx = q.unsignedTx) (hl : p.inputs.length = q.inputs.length)
    (hn : p.inputs[n]? = q.inputs[n]?) : p.outputType n = q.outputType n := by
  unfold Psbt.outputType; rw [checkedInput_local ht hl hn, spendUtxo_local ht hl hn]

theorem signingAlgorithm_local (ht : p.unsignedTx = q.unsignedTx) (hl : p.inputs.length = q.inputs.length)
    (hn : p.inputs[n]? = q.inputs[n]?) : p.signingAlgorithm n = q.signingAlgorithm n := by
  unfold Psbt.signingAlgorithm; rw [outputType_local ht hl hn]

theorem sighashEcdsa_local (ht : p.unsignedTx = q.unsignedTx) (hl : p.inputs.length = q.inputs.length)
    (hn : p.inputs[n]? = q.inputs[n]?) (tx : Tx) : p.sighashEcdsa n tx = q.sighashEcdsa n tx := by
  unfold Psbt.sighashEcdsa
  rw [signingAlgorithm_local ht hl hn, checkedInput_local ht hl hn, spendUtxo_local ht hl hn, outputType_local ht hl hn]

theorem spendUtxo_utxos (ht : p.unsignedTx = q.unsignedTx) (hu : Spec.V0.SameUtxos p q) (m : Nat) :
    p.spendUtxo m = q.spendUtxo m := by
  have hl : p.inputs.length = q.inputs.length := by simpa only [List.length_map] using congrArg List.length hu
  have hm := congrArg (fun l => l[m]?) hu
  simp only [List.getElem?_map] at hm
  unfold Psbt.spendUtxo Psbt.checkedInput
  rw [ht, hl]
  cases hp : p.inputs[m]? with
  | none =>
    rw [hp] at hm
    cases hq : q.inputs[m]? with
    | none => rfl
    | some j => rw [hq] at hm; cases hm
  | some i =>
    rw [hp] at hm
    cases hq : q.inputs[m]? with
    | none => rw [hq] at hm; cases hm
    | some j =>
      rw [hq] at hm
      obtain ⟨h1, h2⟩ := Prod.mk.inj (Option.some.inj hm)
      split
      · rfl
      · split
        · rfl
        · simp only [bind, Except.bind, h1, h2]

theorem spendUtxos_utxos (ht : p.unsignedTx = q.unsignedTx) (hu : Spec.V0.SameUtxos p q) (ns : List Nat) :
    p.spendUtxos ns = q.spendUtxos ns := by
  induction ns with
  | nil => rfl
  | cons m ns ih => simp only [Psbt.spendUtxos, spendUtxo_utxos ht hu m, ih]

theorem sighashTaproot_local (ht : p.unsignedTx = q.unsignedTx) (hu : Spec.V0.SameUtxos p q)
    (hn : p.inputs[n]? = q.inputs[n]?) (tx : Tx) : p.sighashTaproot n tx = q.sighashTaproot n tx := by
  have hl : p.inputs.length = q.inputs.length := by simpa only [List.length_map] using congrArg List.length hu
  funext leaf
  unfold Psbt.sighashTaproot
  rw [signingAlgorithm_local ht hl hn, checkedInput_local ht hl hn, outputType_local ht hl hn, spendUtxos_utxos ht hu, hl]

theorem utxo?_local (ht : p.unsignedTx = q.unsignedTx) (hl : p.inputs.length = q.inputs.length)
    (hn : p.inputs[n]? = q.inputs[n]?) : utxo? p n = utxo? q n := by
  unfold utxo?; rw [spendUtxo_local ht hl hn]

/-- With ANYONECANPAY the outputs spent by other inputs do not matter. -/
theorem sighashTaproot_anyone (ht : p.unsignedTx = q.unsignedTx) (hl : p.inputs.length = q.inputs.length)
    (hn : p.inputs[n]? = q.inputs[n]?) (hp : Spec.V0.IndicesInRange p) (hq : Spec.V0.IndicesInRange q)
    (ha : ∀ i, p.inputs[n]? = some i → i.sighashType = some 0x81 ∨ i.sighashType = some 0x82 ∨ i.sighashType = some 0x83)
    (tx : Tx) : p.sighashTaproot n tx = q.sighashTaproot n tx := by
  funext leaf
  unfold Psbt.sighashTaproot
  rw [signingAlgorithm_local ht hl hn, ← checkedInput_local ht hl hn, outputType_local ht hl hn, spendUtxos_eq hp, spendUtxos_eq hq]
  cases hc : p.checkedInput n with
  | error e => rfl
  | ok i =>
    have hi : p.inputs[n]? = some i := by
      unfold Psbt.checkedInput at hc
      split at hc
      · cases hc
      · split at hc
        · cases hc
        · cases h : p.inputs[n]? with
          | none => rw [h] at hc; cases hc
          | some j => rw [h] at hc; injection hc with hc; rw [hc]
    have hlt : n < p.inputs.length := (List.getElem?_eq_some_iff.mp hi).1
    have e : ∀ ty : TapTy, ty.1.toUInt32 &&& 0x80 ≠ 0 →
        prevouts n ty ((List.range p.inputs.length).map (utxo? p)) = prevouts n ty ((List.range q.inputs.length).map (utxo? q)) := by
      intro ty hty
      unfold prevouts
      rw [if_pos hty, if_pos hty, List.getElem?_map, List.getElem?_map, List.getElem?_range hlt, List.getElem?_range (hl ▸ hlt),
        Option.map_some, Option.map_some, utxo?_local ht hl hn]
    have e2 : ∀ ty : TapTy, i.taprootHashTy = some ty → ty.1.toUInt32 &&& 0x80 ≠ 0 := by
      intro ty hty
      unfold Input.taprootHashTy at hty
      rcases ha i hi with h | h | h <;> rw [h] at hty <;> cases hty <;> decide
    simp only [bind, Except.bind]
    split
    · rfl
    · split
      · rfl
      · split
        · rfl
        · split
          · split
            · rfl
            · rename_i ty hty
              rw [e ty (e2 ty hty)]
          · rfl

theorem outcome_local (ht : p.unsignedTx = q.unsignedTx) (hl : p.inputs.length = q.inputs.length)
    (hn : p.inputs[n]? = q.inputs[n]?) (tx : Tx)
    (hu : p.signingAlgorithm n ≠ .ok .schnorr ∨ p.sighashTaproot n tx = q.sighashTaproot n tx) (k : Provider S) : outcome S k tx p n = outcome S k tx q n := by
  unfold outcome
  have e := signingAlgorithm_local ht hl hn
  rw [e] at hu
  rw [e, hn, sighashEcdsa_local ht hl hn]
  rcases hu with hu | hu
  · rcases ha : q.signingAlgorithm n with (x | s) | (_ | _)
    · rfl
    · rfl
    · rfl
    · exact absurd ha hu
  · rw [hu]

/-- What both signed PSBTs have in common at input `n`. -/
theorem sign_local {p' q' : Psbt L} {k : Provider S} {r r'} (hp : p.sign S k = .ok (p', r)) (hq : q.sign S k = .ok (q', r'))
    (ht : p.unsignedTx = q.unsignedTx) (hl : p.inputs.length = q.inputs.length) (hn : p.inputs[n]? = q.inputs[n]?)
    (hu : p.signingAlgorithm n ≠ .ok .schnorr ∨ p.sighashTaproot n q.unsignedTx = q.sighashTaproot n q.unsignedTx) :
    p'.inputs[n]? = q'.inputs[n]? ∧ (Spec.V0.keysReported r).get n = (Spec.V0.keysReported r').get n ∧
    (Spec.V0.errorsReported r).get n = (Spec.V0.errorsReported r').get n := by
  obtain ⟨ep, -, -, h1⟩ := sign_spec hp
  obtain ⟨eq, -, -, h2⟩ := sign_spec hq
  have h1 := h1 n
  have h2 := h2 n
  have ho := outcome_local (S := S) ht hl hn q.unsignedTx hu k
  by_cases h : n < p.inputs.length
  · rw [if_pos h, ht, ho, hn] at h1
    rw [if_pos (hl ▸ h)] at h2
    exact ⟨h1.1.trans h2.1.symm, h1.2.1.trans h2.2.1.symm, h1.2.2.trans h2.2.2.symm⟩
  · rw [if_neg h] at h1
    rw [if_neg (hl ▸ h)] at h2
    have l1 : p'.inputs.length = p.inputs.length := by
      have := congrArg (fun p : Psbt L => p.inputs.length) ep
      simpa [Spec.V0.erase] using this
    have l2 : q'.inputs.length = q.inputs.length := by
      have := congrArg (fun p : Psbt L => p.inputs.length) eq
      simpa [Spec.V0.erase] using this
    rw [List.getElem?_eq_none (by omega), List.getElem?_eq_none (by omega)]
    exact ⟨rfl, h1.1.trans h2.1.symm, h1.2.trans h2.2.symm⟩

/-- C104 for ECDSA, v0. Two PSBTs for the same transaction with the same map for an input that ECDSA applies to: after signing,
the maps for this input are again the same, and the same keys or error are reported for it, whatever the maps of the other
inputs are. -/
theorem C104_v0_ecdsa {p' q' : Psbt L} {k : Provider S} {r r'} (hp : p.sign S k = .ok (p', r)) (hq : q.sign S k = .ok (q', r'))
    (ht : p.unsignedTx = q.unsignedTx) (hl : p.inputs.length = q.inputs.length) (hn : p.inputs[n]? = q.inputs[n]?)
    (he : Spec.V0.SpendsEcdsa p n) :
    p'.inputs[n]? = q'.inputs[n]? ∧ (Spec.V0.keysReported r).get n = (Spec.V0.keysReported r').get n ∧
    (Spec.V0.errorsReported r).get n = (Spec.V0.errorsReported r').get n :=
  sign_local hp hq ht hl hn (.inl fun e => by
    obtain ⟨t, i, u, ty, h1, h2, h3, h4⟩ := he
    rw [signingAlgorithm_of h1 h2 h3] at e
    cases ty <;> first | exact h4 rfl | cases e)

/-- C104 for taproot, v0: the same if in addition the UTXO fields of all inputs are the same. -/
theorem C104_v0_taproot {p' q' : Psbt L} {k : Provider S} {r r'} (hp : p.sign S k = .ok (p', r)) (hq : q.sign S k = .ok (q', r'))
    (ht : p.unsignedTx = q.unsignedTx) (hu : Spec.V0.SameUtxos p q) (hn : p.inputs[n]? = q.inputs[n]?) :
    p'.inputs[n]? = q'.inputs[n]? ∧ (Spec.V0.keysReported r).get n = (Spec.V0.keysReported r').get n ∧
    (Spec.V0.errorsReported r).get n = (Spec.V0.errorsReported r').get n :=
  sign_local hp hq ht (by simpa only [List.length_map] using congrArg List.length hu) hn (.inr (sighashTaproot_local ht hu hn _))

/-- C104 with ANYONECANPAY, v0: the same without this condition, if the input declares such a sighash type. -/
theorem C104_v0_anyone_can_pay {p' q' : Psbt L} {k : Provider S} {r r'} (hp : p.sign S k = .ok (p', r))
    (hq : q.sign S k = .ok (q', r')) (ht : p.unsignedTx = q.unsignedTx) (hl : p.inputs.length = q.inputs.length)
    (hn : p.inputs[n]? = q.inputs[n]?)
    (ha : ∀ i, p.inputs[n]? = some i → i.sighashType = some 0x81 ∨ i.sighashType = some 0x82 ∨ i.sighashType = some 0x83) :
    p'.inputs[n]? = q'.inputs[n]? ∧ (Spec.V0.keysReported r).get n = (Spec.V0.keysReported r').get n ∧
    (Spec.V0.errorsReported r).get n = (Spec.V0.errorsReported r').get n :=
  sign_local hp hq ht hl hn (.inr (sighashTaproot_anyone ht hl hn (sign_inRange hp) (sign_inRange hq) ha _))

-- The hypotheses are met: the maps of the other inputs differ, also in whether they can be signed.
def lP (i : Input gL) : Psbt gL := gP [gEcdsa (gIn V2.spkWpkh), gTap, i]
example : (lP cI).sign gS gKeys = .ok (gQ (lP cI), gR (lP cI)) ∧ (lP (gIn V2.spkWsh)).sign gS gKeys = .ok (gQ (lP (gIn V2.spkWsh)), gR (lP (gIn V2.spkWsh))) ∧
    gQ (lP (gIn V2.spkWsh)) ≠ lP (gIn V2.spkWsh) := ⟨rfl, rfl, by decide +kernel⟩
example : Spec.V0.SpendsEcdsa (lP cI) 0 ∧ (lP cI).inputs[0]? = (lP (gIn V2.spkWsh)).inputs[0]? ∧ ¬ Spec.V0.SameUtxos (lP cI) (lP (gIn V2.spkWsh)) :=
  ⟨⟨_, _, _, .wpkh, ⟨rfl, rfl⟩, .witness rfl, outputTypeOf_iff.mp (by decide +kernel), by decide⟩, rfl, by unfold Spec.V0.SameUtxos; decide +kernel⟩
example : Spec.V0.SameUtxos (lP (gIn V2.spkWsh)) (lP (gEcdsa (gIn V2.spkWsh))) ∧
    (lP (gIn V2.spkWsh)).inputs[1]? = (lP (gEcdsa (gIn V2.spkWsh))).inputs[1]? ∧ lP (gIn V2.spkWsh) ≠ lP (gEcdsa (gIn V2.spkWsh)) ∧
    (gQ (lP (gIn V2.spkWsh))).inputs[1]? ≠ (lP (gIn V2.spkWsh)).inputs[1]? := by unfold Spec.V0.SameUtxos; decide +kernel
-- Without the same UTXO fields the taproot input is not signed alike: its message is about the outputs all inputs spend.
example : (gQ (lP cI)).inputs[1]? ≠ (gQ (lP (gIn V2.spkWsh))).inputs[1]? := by decide +kernel
-- With ANYONECANPAY it is.
def lA (i : Input gL) : Psbt gL := gP [{ gTap with sighashType := some 0x81 }, i]
example : gQ (lA cI) ≠ lA cI ∧ (gQ (lA cI)).inputs[0]? = (gQ (lA (gIn V2.spkWsh))).inputs[0]? := by decide +kernel
end V0

namespace V2
variable {L : Lib} {S : SigLib L} {p q : Psbt L} {n : Nat}

theorem outcome_local (hg : p.global.inputCount = q.global.inputCount) (hl : p.inputs.length = q.inputs.length)
    (hn : p.inputs[n]? = q.inputs[n]?) (k : Provider S) (tx : Tx) : outcome S k tx p n = outcome S k tx q n := by
  have e1 : p.checkedInput n = q.checkedInput n := by
    unfold Psbt.checkedInput Psbt.checkInputIndex; rw [hg, hl, hn]
  have e2 : p.outputType n = q.outputType n := by unfold Psbt.outputType; rw [e1]
  have e3 : p.signingAlgorithm n = q.signingAlgorithm n := by unfold Psbt.signingAlgorithm; rw [e2]
  have e4 : p.sighashEcdsa n tx = q.sighashEcdsa n tx := by unfold Psbt.sighashEcdsa; rw [e1, e2, e3]
  unfold outcome
  rw [e3, e4, hn]

/-- C104, v2. Two PSBTs with the same map for an input, signed for the same transaction: after signing, the maps for this
input are again the same, and the same keys or error are reported for it, whatever the maps of the other inputs are. -/
theorem C104_v2 {p' q' : Psbt L} {tx : Tx} {k : Provider S} {r r'} (hp : p.sign S tx k = .ok (p', r))
    (hq : q.sign S tx k = .ok (q', r')) (hg : p.global.inputCount = q.global.inputCount)
    (hl : p.inputs.length = q.inputs.length) (hn : p.inputs[n]? = q.inputs[n]?) :
    p'.inputs[n]? = q'.inputs[n]? ∧ (Psbt.Spec.V0.keysReported r).get n = (Psbt.Spec.V0.keysReported r').get n ∧
    (Psbt.Spec.V0.errorsReported r).get n = (Psbt.Spec.V0.errorsReported r').get n := by
  obtain ⟨e1, f1⟩ := sign_ok hp
  obtain ⟨e2, f2⟩ := sign_ok hq
  have ho := outcome_local (S := S) hg hl hn k tx
  have hk : ∀ (x : Psbt L) (y), y = (if (final S k tx x).errors.isEmpty then .ok (final S k tx x).used
      else .error ((final S k tx x).used, (final S k tx x).errors)) →
      Psbt.Spec.V0.keysReported y = (final S k tx x).used ∧ ∀ n, (Psbt.Spec.V0.errorsReported y).get n = (final S k tx x).errors.get n := by
    intro x y e
    rw [e]
    split
    · rename_i he
      refine ⟨rfl, fun n => ?_⟩
      have : (final S k tx x).errors = .empty := BMap.ext' (List.isEmpty_iff.mp he)
      rw [this]; rfl
    · exact ⟨rfl, fun _ => rfl⟩
  refine ⟨?_, ?_, ?_⟩
  · rw [e1, e2]
    refine (fold_inputs (outcome S k tx p) _ List.nodup_range ⟨p, .empty, .empty⟩ n).trans
      (Eq.trans ?_ (fold_inputs (outcome S k tx q) _ List.nodup_range ⟨q, .empty, .empty⟩ n).symm)
    simp only [hn, ho, hg]
  · rw [(hk p r f1).1, (hk q r' f2).1]
    refine (fold_used (outcome S k tx p) _ _ n).trans (Eq.trans ?_ (fold_used (outcome S k tx q) _ _ n).symm)
    simp only [ho, hg]
  · rw [(hk p r f1).2, (hk q r' f2).2]
    refine (fold_err (outcome S k tx p) _ _ n).trans (Eq.trans ?_ (fold_err (outcome S k tx q) _ _ n).symm)
    simp only [ho, hg]

-- The hypotheses are met: another input can be signed in one PSBT and fails in the other.
def lP (i : Input SL) : Psbt SL := sP [{ sIn spkWpkh with bip32Derivations := sOrigin }, i]
def lQ (i : Input SL) : Psbt SL := match (lP i).sign SS (sTx (lP i)) sKeys with | .ok (q, _) => q | _ => lP i
def lBad : Input SL := { sIn spkWsh with bip32Derivations := sOrigin }
def lGood : Input SL := { sIn spkWpkh with bip32Derivations := sOrigin }
example : (∃ r, (lP lBad).sign SS (sTx (lP lBad)) sKeys = .ok (lQ lBad, .error r)) ∧
    (∃ r, (lP lGood).sign SS (sTx (lP lGood)) sKeys = .ok (lQ lGood, .ok r)) ∧ sTx (lP lBad) = sTx (lP lGood) ∧
    lQ lBad ≠ lP lBad := ⟨⟨_, rfl⟩, ⟨_, rfl⟩, rfl, by decide +kernel⟩
end V2
end Psbt
