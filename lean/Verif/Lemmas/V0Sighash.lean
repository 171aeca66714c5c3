/- Looking up inputs and signature messages of a PSBT v0. -/
import Verif.Spec.V0Sign
import Verif.Props.V0Extract
import Verif.Props.V2Sighash
namespace Psbt.V0
open Psbt

variable {L : Lib}

theorem checkedInput_ok {p : Psbt L} {n : Nat} {i : Input L} : p.checkedInput n = .ok i ↔ ∃ t, Spec.V0.HasInput p n t i := by
  unfold Psbt.checkedInput Spec.V0.HasInput
  constructor
  · intro h
    split at h
    · cases h
    · split at h
      · cases h
      · rename_i h2
        split at h
        · rename_i e; cases h; exact ⟨_, List.getElem?_eq_getElem (by omega), e⟩
        · cases h
  · rintro ⟨t, h1, h2⟩
    have l1 := (List.getElem?_eq_some_iff.mp h1).1
    have l2 := (List.getElem?_eq_some_iff.mp h2).1
    rw [if_neg (by omega), if_neg (by omega), h2]

theorem checkedInput_no_panic (p : Psbt L) (n : Nat) (s : String) : p.checkedInput n ≠ .error (.panic s) := by
  unfold Psbt.checkedInput
  intro h
  split at h
  · cases h
  · split at h
    · cases h
    · split at h
      · cases h
      · rename_i h1 h2 _ e
        rw [List.getElem?_eq_none_iff] at e
        omega

theorem checkedInput_err {p : Psbt L} {n : Nat} (h : ∀ t i, ¬ Spec.V0.HasInput p n t i) :
    ∃ e, p.checkedInput n = .error (.err (.index e)) := by
  unfold Psbt.checkedInput
  split
  · exact ⟨_, rfl⟩
  · split
    · exact ⟨_, rfl⟩
    · rename_i h1 h2
      exact absurd ⟨List.getElem?_eq_getElem (by omega), List.getElem?_eq_getElem (by omega)⟩ (h p.unsignedTx.input[n] p.inputs[n])

theorem hasInput_unique {p : Psbt L} {n : Nat} {t t' : TxIn} {i i' : Input L} (h : Spec.V0.HasInput p n t i)
    (h' : Spec.V0.HasInput p n t' i') : t = t' ∧ i = i' :=
  ⟨Option.some.inj (h.1.symm.trans h'.1), Option.some.inj (h.2.symm.trans h'.2)⟩

theorem fundedBy_unique {t : TxIn} {i : Input L} {u u' : TxOut} (h : Spec.V0.FundedBy t i u) (h' : Spec.V0.FundedBy t i u') : u = u' := by
  rw [← fundingUtxo_ok] at h h'
  rw [h] at h'; exact Except.ok.inj h'

/-- Looking up the output spent, once the input is there. -/
theorem spendUtxo_eq {p : Psbt L} {n : Nat} {t : TxIn} {i : Input L} (h : Spec.V0.HasInput p n t i) :
    p.spendUtxo n = match fundingUtxo t i with
      | .ok u => .ok u
      | .error .psbtUtxoOutOfbounds => .error (.panic "index out of bounds")
      | .error _ => .error (.err .missingSpendUtxo) := by
  unfold Psbt.spendUtxo fundingUtxo
  rw [checkedInput_ok.mpr ⟨t, h⟩]
  simp only [ok_bind]
  cases i.witnessUtxo with
  | some u => rfl
  | none =>
    cases i.nonWitnessUtxo with
    | none => rfl
    | some tx =>
      simp only [h.1]
      cases tx.output[t.previousOutput.vout.toNat]? <;> rfl

theorem spendUtxo_ok {p : Psbt L} {n : Nat} {t : TxIn} {i : Input L} {u : TxOut} (h : Spec.V0.HasInput p n t i) :
    p.spendUtxo n = .ok u ↔ Spec.V0.FundedBy t i u := by
  rw [spendUtxo_eq h, ← fundingUtxo_ok]
  cases fundingUtxo t i with
  | ok v => simp only [Except.ok.injEq]
  | error e => cases e <;> simp

/-- A non-witness UTXO without the output spent. -/
def Dangling (t : TxIn) (i : Input L) : Prop :=
  ∃ tx, i.witnessUtxo = none ∧ i.nonWitnessUtxo = some tx ∧ tx.output[t.previousOutput.vout.toNat]? = none

theorem spendUtxo_panic {p : Psbt L} {n : Nat} {s : String} :
    p.spendUtxo n = .error (.panic s) ↔ s = "index out of bounds" ∧ ∃ t i, Spec.V0.HasInput p n t i ∧ Dangling t i := by
  constructor
  · intro h
    by_cases hi : ∃ t i, Spec.V0.HasInput p n t i
    · obtain ⟨t, i, hi⟩ := hi
      rw [spendUtxo_eq hi] at h
      unfold fundingUtxo at h
      cases h1 : i.witnessUtxo with
      | some u => simp only [h1] at h; cases h
      | none =>
        cases h2 : i.nonWitnessUtxo with
        | none => simp only [h1, h2] at h; cases h
        | some tx =>
          cases h3 : tx.output[t.previousOutput.vout.toNat]? with
          | some u => simp only [h1, h2, h3] at h; cases h
          | none => simp only [h1, h2, h3] at h; cases h; exact ⟨rfl, t, i, hi, tx, h1, h2, h3⟩
    · obtain ⟨e, he⟩ := checkedInput_err (p := p) (n := n) (fun t i h => hi ⟨t, i, h⟩)
      unfold Psbt.spendUtxo at h
      rw [he] at h
      cases h
  · rintro ⟨rfl, t, i, hi, tx, h1, h2, h3⟩
    rw [spendUtxo_eq hi]
    unfold fundingUtxo
    simp only [h1, h2, h3]

/-- The type of spend is the one determined by the funding script and redeem script. -/
theorem outputType_iff (p : Psbt L) (n : Nat) (ty : OutputType) :
    p.outputType n = .ok ty ↔
      ∃ t i u, Spec.V0.HasInput p n t i ∧ Spec.V0.FundedBy t i u ∧ Spec.SpendType u.scriptPubkey i.redeemScript ty := by
  unfold Psbt.outputType
  constructor
  · intro h
    rw [bind_ok] at h
    obtain ⟨i, h1, h⟩ := h
    rw [bind_ok] at h
    obtain ⟨u, h2, h⟩ := h
    obtain ⟨t, h1⟩ := checkedInput_ok.mp h1
    refine ⟨t, i, u, h1, (spendUtxo_ok h1).mp h2, outputTypeOf_iff.mp ?_⟩
    split at h
    · rename_i t' e; cases h; exact e
    · cases h
  · rintro ⟨t, i, u, h1, h2, h3⟩
    rw [checkedInput_ok.mpr ⟨t, h1⟩]
    simp only [ok_bind, (spendUtxo_ok h1).mpr h2, outputTypeOf_iff.mpr h3]

theorem outputType_panic {p : Psbt L} {n : Nat} {s : String} :
    p.outputType n = .error (.panic s) ↔ s = "index out of bounds" ∧ ∃ t i, Spec.V0.HasInput p n t i ∧ Dangling t i := by
  rw [← spendUtxo_panic]
  unfold Psbt.outputType
  cases e : p.checkedInput n with
  | error f =>
    cases f with
    | panic s' => exact absurd e (checkedInput_no_panic p n s')
    | err f =>
      unfold Psbt.spendUtxo
      rw [e]
      exact ⟨fun h => (by cases h), fun h => (by cases h)⟩
  | ok i =>
    simp only [ok_bind]
    cases p.spendUtxo n with
    | error f => exact ⟨fun h => (by cases h; rfl), fun h => (by cases h; rfl)⟩
    | ok u =>
      simp only [ok_bind]
      constructor
      · intro h
        split at h <;> cases h
      · intro h; cases h

theorem signingAlgorithm_panic {p : Psbt L} {n : Nat} {s : String} :
    p.signingAlgorithm n = .error (.panic s) ↔ s = "index out of bounds" ∧ ∃ t i, Spec.V0.HasInput p n t i ∧ Dangling t i := by
  rw [← outputType_panic]
  unfold Psbt.signingAlgorithm
  cases p.outputType n with
  | error f => exact ⟨fun h => (by cases h; rfl), fun h => (by cases h; rfl)⟩
  | ok t => exact ⟨fun h => (by cases h), fun h => (by cases h)⟩

theorem inputHashTy_iff {i : Input L} {t : EcdsaTy} : i.ecdsaHashTy = some t ↔ Spec.V0.DeclaredType i t := by
  unfold Input.ecdsaHashTy Spec.V0.DeclaredType
  cases i.sighashType with
  | none =>
    simp only [Option.some.injEq, true_and, reduceCtorEq, or_false]
    exact ⟨fun h => h ▸ rfl, fun h => Subtype.ext h.symm⟩
  | some n =>
    simp only [V2.ecdsaHashTy_iff, reduceCtorEq, false_and, false_or, Option.some.injEq]

/-- The last part of `sighash_ecdsa`, once everything is looked up. -/
theorem sighashEcdsa_eq {p : Psbt L} {n : Nat} {tx : Tx} {ti : TxIn} {i : Input L} {u : TxOut} {t : OutputType}
    (hi : Spec.V0.HasInput p n ti i) (hu : Spec.V0.FundedBy ti i u) (ht : Spec.SpendType u.scriptPubkey i.redeemScript t) :
    p.sighashEcdsa n tx =
      if t = .tr then .error (.err .wrongSigningAlgorithm)
      else match i.ecdsaHashTy with
      | none => .error (.err .invalidSighashType)
      | some ty =>
        match (generalizing := false) t with
        | .bare =>
          match legacySighash L tx n u.scriptPubkey ty with
          | some h => .ok (h, ty)
          | none => .error (.panic "input checked above")
        | .sh =>
          match i.redeemScript with
          | none => .error (.err .missingRedeemScript)
          | some code =>
            match legacySighash L tx n code ty with
            | some h => .ok (h, ty)
            | none => .error (.panic "input checked above")
        | .wpkh =>
          match p2wpkhSighash L tx n u.scriptPubkey u.value ty with
          | .ok h => .ok (h, ty)
          | .error e => .error (.err (.p2wpkhSighash e))
        | .shWpkh =>
          match i.redeemScript with
          | none => .error (.panic "checked above")
          | some r =>
            match p2wpkhSighash L tx n r u.value ty with
            | .ok h => .ok (h, ty)
            | .error e => .error (.err (.p2wpkhSighash e))
        | .wsh | .shWsh =>
          match i.witnessScript with
          | none => .error (.err .missingWitnessScript)
          | some code =>
            match segwitSighash L tx n code u.value ty with
            | some h => .ok (h, ty)
            | none => .error (.err .segwitV0Sighash)
        | .tr => .error (.err .unsupported) := by
  have ho := (outputType_iff p n t).mpr ⟨ti, i, u, hi, hu, ht⟩
  unfold Psbt.sighashEcdsa Psbt.signingAlgorithm
  rw [ho, checkedInput_ok.mpr ⟨ti, hi⟩]
  simp only [ok_bind, (spendUtxo_ok hi).mpr hu]
  cases t <;> simp only [OutputType.signingAlgorithm, ne_eq, not_true, if_false, reduceCtorEq, not_false_eq_true, if_true] <;> rfl

theorem sighashEcdsa_pre {p : Psbt L} {n : Nat} {tx : Tx} {r : Hash32 × EcdsaTy} (h : p.sighashEcdsa n tx = .ok r) :
    ∃ ti i u t, Spec.V0.HasInput p n ti i ∧ Spec.V0.FundedBy ti i u ∧ Spec.SpendType u.scriptPubkey i.redeemScript t := by
  unfold Psbt.sighashEcdsa Psbt.signingAlgorithm at h
  cases e : p.outputType n with
  | error e' => rw [e] at h; cases h
  | ok t =>
    obtain ⟨ti, i, u, h1, h2, h3⟩ := (outputType_iff p n t).mp e
    exact ⟨ti, i, u, t, h1, h2, h3⟩

theorem sighashEcdsa_iff (p : Psbt L) (n : Nat) (tx : Tx) (m : Hash32) (ty : EcdsaTy) :
    p.sighashEcdsa n tx = .ok (m, ty) ↔
      ∃ ti i u, Spec.V0.HasInput p n ti i ∧ Spec.V0.FundedBy ti i u ∧ Spec.V0.DeclaredType i ty ∧ Spec.V0.Message tx n i u ty m := by
  constructor
  · intro h
    obtain ⟨ti, i, u, t, h1, h2, h3⟩ := sighashEcdsa_pre h
    rw [sighashEcdsa_eq h1 h2 h3] at h
    split at h
    · cases h
    · split at h
      · cases h
      · rename_i ty' hty
        refine ⟨ti, i, u, h1, h2, ?_⟩
        cases t with
        | bare =>
          simp only at h
          split at h
          · rename_i e; cases h; exact ⟨inputHashTy_iff.mp hty, .bare h3 e⟩
          · cases h
        | sh =>
          simp only at h
          split at h
          · cases h
          · rename_i code hr
            split at h
            · rename_i e; cases h; exact ⟨inputHashTy_iff.mp hty, .sh h3 hr e⟩
            · cases h
        | wpkh =>
          simp only at h
          split at h
          · rename_i e; cases h
            obtain ⟨k, e1, e2⟩ := V2.p2wpkhSighash_ok.mp e
            exact ⟨inputHashTy_iff.mp hty, .wpkh e1 e2⟩
          · cases h
        | shWpkh =>
          simp only at h
          split at h
          · cases h
          · rename_i r hr
            split at h
            · rename_i e; cases h
              obtain ⟨k, e1, e2⟩ := V2.p2wpkhSighash_ok.mp e
              subst e1
              cases h3 with
              | shWpkh hs _ _ => exact ⟨inputHashTy_iff.mp hty, .shWpkh hs hr e2⟩
            · cases h
        | wsh =>
          simp only at h
          split at h
          · cases h
          · rename_i w hw
            split at h
            · rename_i e; cases h
              cases h3 with
              | wsh hs => exact ⟨inputHashTy_iff.mp hty, .wsh hs hw e⟩
            · cases h
        | shWsh =>
          simp only at h
          split at h
          · cases h
          · rename_i w hw
            split at h
            · rename_i e; cases h
              cases h3 with
              | shWsh hs hr hp => exact ⟨inputHashTy_iff.mp hty, .shWsh hs hr hp hw e⟩
            · cases h
        | tr => cases h
  · rintro ⟨ti, i, u, h1, h2, h3, h4⟩
    have hty := inputHashTy_iff.mpr h3
    cases h4 with
    | bare ht e => rw [sighashEcdsa_eq h1 h2 ht]; simp [hty, e]
    | sh ht hr e => rw [sighashEcdsa_eq h1 h2 ht]; simp [hty, hr, e]
    | wpkh hs e =>
      rw [sighashEcdsa_eq h1 h2 (.wpkh ⟨_, hs⟩)]
      simp [hty, V2.p2wpkhSighash_ok.mpr ⟨_, hs, e⟩]
    | shWpkh hs hr e =>
      rw [sighashEcdsa_eq h1 h2 (.shWpkh hs hr ⟨_, rfl⟩)]
      have := V2.p2wpkhSighash_ok.mpr ⟨_, rfl, e⟩
      simp only [hty, hr, this]
      simp
    | wsh hs hw e => rw [sighashEcdsa_eq h1 h2 (.wsh hs)]; simp [hty, hw, e]
    | shWsh hs hr hp hw e => rw [sighashEcdsa_eq h1 h2 (.shWsh hs hr hp)]; simp [hty, hw, e]

theorem sighashEcdsa_no_panic (p : Psbt L) (n : Nat) (tx : Tx) (h : n < tx.input.length)
    (hd : ∀ t i, Spec.V0.HasInput p n t i → ¬ Dangling t i) (s : String) :
    p.sighashEcdsa n tx ≠ .error (.panic s) := by
  intro hp
  cases e : p.outputType n with
  | error e' =>
    unfold Psbt.sighashEcdsa Psbt.signingAlgorithm at hp
    rw [e] at hp
    cases e' with
    | err e' => cases hp
    | panic s' =>
      obtain ⟨-, t, i, h1, h2⟩ := outputType_panic.mp e
      exact hd t i h1 h2
  | ok t =>
    obtain ⟨ti, i, u, h1, h2, h3⟩ := (outputType_iff p n t).mp e
    rw [sighashEcdsa_eq h1 h2 h3] at hp
    split at hp
    · cases hp
    · split at hp
      · cases hp
      · rename_i ty hty
        cases t with
        | bare =>
          obtain ⟨m, hm⟩ := V2.legacySighash_some (L := L) h u.scriptPubkey ty
          simp only [hm] at hp; cases hp
        | sh =>
          simp only at hp
          split at hp
          · cases hp
          · rename_i code _
            obtain ⟨m, hm⟩ := V2.legacySighash_some (L := L) h code ty
            simp only [hm] at hp; cases hp
        | wpkh => simp only at hp; split at hp <;> cases hp
        | shWpkh =>
          cases h3 with
          | shWpkh hs hr hq =>
            simp only [hr] at hp
            split at hp <;> cases hp
        | wsh =>
          simp only at hp
          split at hp
          · cases hp
          · split at hp <;> cases hp
        | shWsh =>
          simp only at hp
          split at hp
          · cases hp
          · split at hp <;> cases hp
        | tr => cases hp

end Psbt.V0
