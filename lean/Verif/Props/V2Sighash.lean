/- C36, C37: which kind of spend an input is, and the message to sign for it. -/
import Verif.Lemmas.Encoding
import Verif.Spec.Sign
import Verif.Lemmas.Script
import Verif.Lemmas.Sighash
import Verif.Props.V2Extract
namespace Psbt.V2
open Psbt

variable {L : Lib}

/-! ### C36 -/

theorem checkedInput_ok {p : Psbt L} {n : Nat} {i : Input L} : p.checkedInput n = .ok i ↔ Spec.HasInput p n i := by
  unfold Psbt.checkedInput Psbt.checkInputIndex Spec.HasInput
  by_cases h1 : n ≥ p.inputs.length
  · rw [if_pos h1]
    constructor
    · intro h; cases h
    · rintro ⟨h, -⟩
      rw [List.getElem?_eq_none h1] at h; cases h
  · rw [if_neg h1]
    by_cases h2 : n ≥ p.global.inputCount.toNat
    · rw [if_pos h2]
      constructor
      · intro h; cases h
      · rintro ⟨-, h⟩; omega
    · rw [if_neg h2]
      have h3 : n < p.inputs.length := by omega
      rw [List.getElem?_eq_getElem h3]
      show Except.ok p.inputs[n] = Except.ok i ↔ some p.inputs[n] = some i ∧ _
      constructor
      · intro h; cases h; exact ⟨rfl, by omega⟩
      · rintro ⟨h, -⟩; cases h; rfl

theorem checkedInput_err {p : Psbt L} {n : Nat} (h : n ≥ p.inputs.length ∨ n ≥ p.global.inputCount.toNat) :
    ∃ e, p.checkedInput n = .error (.err e) := by
  unfold Psbt.checkedInput Psbt.checkInputIndex
  by_cases h1 : n ≥ p.inputs.length
  · rw [if_pos h1]; exact ⟨_, rfl⟩
  · rw [if_neg h1, if_pos (by omega)]; exact ⟨_, rfl⟩

theorem checkedInput_total (p : Psbt L) (n : Nat) :
    (∃ i, Spec.HasInput p n i) ∨ (¬ ∃ i, Spec.HasInput p n i) ∧ ∃ e, p.checkedInput n = .error (.err e) := by
  by_cases h : n ≥ p.inputs.length ∨ n ≥ p.global.inputCount.toNat
  · refine .inr ⟨?_, checkedInput_err h⟩
    rintro ⟨i, hi, hc⟩
    have := (List.getElem?_eq_some_iff.mp hi).1
    omega
  · refine .inl ⟨p.inputs[n]'(by omega), ?_, by omega⟩
    exact List.getElem?_eq_getElem (by omega)

/-- C36. The type of spend is the one determined by the funding script and redeem script. -/
theorem C36_output_type_iff (p : Psbt L) (n : Nat) (t : OutputType) :
    p.outputType n = .ok t ↔
      ∃ i u, Spec.HasInput p n i ∧ Spec.FundedBy i u ∧ Spec.SpendType u.scriptPubkey i.redeemScript t := by
  unfold Psbt.outputType
  constructor
  · intro h
    rw [bind_ok] at h
    obtain ⟨i, h1, h⟩ := h
    rw [bind_ok] at h
    obtain ⟨u, h2, h⟩ := h
    have h1 : p.checkedInput n = .ok i := by
      cases e : p.checkedInput n with
      | ok j => rw [e] at h1; cases h1; rfl
      | error e' => rw [e] at h1; cases e' <;> cases h1
    have h2 : i.fundingUtxo = .ok u := mapErr_ok.mp h2
    refine ⟨i, u, checkedInput_ok.mp h1, fundingUtxo_ok.mp h2, outputTypeOf_iff.mp ?_⟩
    split at h
    · rename_i t' e; cases h; exact e
    · cases h
  · rintro ⟨i, u, h1, h2, h3⟩
    rw [checkedInput_ok.mpr h1]
    simp only [mapFail, ok_bind, orFail, fundingUtxo_ok.mpr h2, mapErr_of_ok, outputTypeOf_iff.mpr h3]

/-- C36. A funding script that is a witness program of unknown version or length is refused. -/
theorem C36_unknown_iff (p : Psbt L) (n : Nat) :
    p.outputType n = .error (.err .unknownOutputType) ↔
      ∃ i u, Spec.HasInput p n i ∧ Spec.FundedBy i u ∧ Spec.WitnessProgram u.scriptPubkey ∧
        ¬ Spec.P2wpkh u.scriptPubkey ∧ ¬ Spec.P2wsh u.scriptPubkey ∧ ¬ Spec.P2tr u.scriptPubkey := by
  unfold Psbt.outputType
  constructor
  · intro h
    cases e : p.checkedInput n with
    | error e' => rw [e] at h; cases e' <;> cases h
    | ok i =>
      rw [e] at h
      simp only [mapFail, ok_bind, orFail] at h
      cases e2 : i.fundingUtxo with
      | error e' => rw [e2] at h; cases h
      | ok u =>
        simp only [e2, mapErr_of_ok, ok_bind] at h
        refine ⟨i, u, checkedInput_ok.mp e, fundingUtxo_ok.mp e2, ?_⟩
        split at h
        · cases h
        · rename_i h3; exact outputTypeOf_none.mp h3
  · rintro ⟨i, u, h1, h2, h3⟩
    rw [checkedInput_ok.mpr h1]
    simp only [mapFail, ok_bind, orFail, fundingUtxo_ok.mpr h2, mapErr_of_ok, outputTypeOf_none.mpr h3]

/-- C36. The type of spend is unique; determining it never panics, and fails only if the input does not exist, is not
funded, or has an unknown witness program. -/
theorem C36_total (p : Psbt L) (n : Nat) :
    (∀ s, p.outputType n ≠ .error (.panic s)) ∧
    (∀ i u, Spec.HasInput p n i → Spec.FundedBy i u →
      (∃ t, p.outputType n = .ok t) ∨ p.outputType n = .error (.err .unknownOutputType)) ∧
    ((¬ ∃ i, Spec.HasInput p n i) → ∃ e, p.outputType n = .error (.err (.index e))) ∧
    (∀ i, Spec.HasInput p n i → (¬ ∃ u, Spec.FundedBy i u) → ∃ e, p.outputType n = .error (.err (.fundingUtxo e))) := by
  have key : ∀ i u, Spec.HasInput p n i → Spec.FundedBy i u →
      (∃ t, p.outputType n = .ok t) ∨ p.outputType n = .error (.err .unknownOutputType) := by
    intro i u h1 h2
    unfold Psbt.outputType
    rw [checkedInput_ok.mpr h1]
    simp only [mapFail, ok_bind, orFail, fundingUtxo_ok.mpr h2, mapErr_of_ok]
    cases outputTypeOf u.scriptPubkey i.redeemScript with
    | some t => exact .inl ⟨t, rfl⟩
    | none => exact .inr rfl
  have k2 : (¬ ∃ i, Spec.HasInput p n i) → ∃ e, p.outputType n = .error (.err (.index e)) := by
    intro h
    rcases checkedInput_total p n with h' | ⟨-, e, he⟩
    · exact absurd h' h
    · exact ⟨e, by unfold Psbt.outputType; rw [he]; rfl⟩
  have k3 : ∀ i, Spec.HasInput p n i → (¬ ∃ u, Spec.FundedBy i u) →
      ∃ e, p.outputType n = .error (.err (.fundingUtxo e)) := by
    intro i h1 h2
    cases e : i.fundingUtxo with
    | ok u => exact absurd ⟨u, fundingUtxo_ok.mp e⟩ h2
    | error e' =>
      refine ⟨e', ?_⟩
      unfold Psbt.outputType
      rw [checkedInput_ok.mpr h1]
      simp only [mapFail, ok_bind, orFail, e]
      rfl
  refine ⟨?_, key, k2, k3⟩
  intro s h
  by_cases hi : ∃ i, Spec.HasInput p n i
  · obtain ⟨i, hi⟩ := hi
    by_cases hu : ∃ u, Spec.FundedBy i u
    · obtain ⟨u, hu⟩ := hu
      rcases key i u hi hu with ⟨t, ht⟩ | ht <;> rw [ht] at h <;> cases h
    · obtain ⟨e, he⟩ := k3 i hi hu
      rw [he] at h; cases h
  · obtain ⟨e, he⟩ := k2 hi
    rw [he] at h; cases h

/-! ### C37 -/

theorem ecdsaHashTy_iff {n : UInt32} {t : EcdsaTy} : Psbt.ecdsaHashTy n = some t ↔ n = t.1.toUInt32 := by
  unfold Psbt.ecdsaHashTy ecdsaTyOf
  constructor
  · intro h
    split at h
    · split at h
      · rename_i hs hn
        cases h
        simp only
        apply UInt32.toNat_inj.mp
        have : n.toNat ≤ 255 := UInt32.le_iff_toNat_le.mp hn
        simp only [UInt8.toNat_toUInt32, UInt32.toNat_toUInt8]
        omega
      · cases h
    · cases h
  · rintro rfl
    obtain ⟨t, ht⟩ := t
    have e : t.toUInt32.toUInt8 = t := by simp
    have hn : t.toUInt32 ≤ 0xff := by
      rw [UInt32.le_iff_toNat_le]
      have := t.toNat_lt
      simp only [UInt8.toNat_toUInt32]
      show t.toNat ≤ 255
      omega
    simp only [e, ht, dite_true, hn, if_true]

theorem ecdsaHashTy_none {n : UInt32} : Psbt.ecdsaHashTy n = none ↔ n ∉ [0x01, 0x02, 0x03, 0x81, 0x82, (0x83 : UInt32)] := by
  constructor
  · intro h hm
    have : ∀ t : EcdsaTy, n ≠ t.1.toUInt32 := fun t ht => by rw [ecdsaHashTy_iff.mpr ht] at h; cases h
    simp only [List.mem_cons, List.not_mem_nil, or_false] at hm
    rcases hm with h | h | h | h | h | h
    · exact this ⟨0x01, by decide⟩ h
    · exact this ⟨0x02, by decide⟩ h
    · exact this ⟨0x03, by decide⟩ h
    · exact this ⟨0x81, by decide⟩ h
    · exact this ⟨0x82, by decide⟩ h
    · exact this ⟨0x83, by decide⟩ h
  · intro hm
    cases e : Psbt.ecdsaHashTy n with
    | none => rfl
    | some t =>
      have := ecdsaHashTy_iff.mp e
      subst this
      obtain ⟨t, ht⟩ := t
      simp only [ecdsaStandard, Bool.or_eq_true, decide_eq_true_eq] at ht
      simp only [List.mem_cons, List.not_mem_nil, or_false] at hm
      exact absurd (by simpa only [or_assoc] using ht) hm

theorem inputHashTy_iff {i : Input L} {t : EcdsaTy} : i.ecdsaHashTy = some t ↔ Spec.DeclaredType i t := by
  unfold Input.ecdsaHashTy Spec.DeclaredType
  cases e : i.sighashType with
  | none =>
    simp only [Option.some.injEq, true_and, reduceCtorEq, or_false]
    constructor
    · rintro rfl; rfl
    · intro h; exact Subtype.ext h.symm
  | some n =>
    simp only [reduceCtorEq, false_and, false_or, Option.some.injEq]
    exact ecdsaHashTy_iff

theorem declared_unique {i : Input L} {t t' : EcdsaTy} (h : Spec.DeclaredType i t) (h' : Spec.DeclaredType i t') : t = t' := by
  rw [← inputHashTy_iff] at h h'
  rw [h] at h'; exact Option.some.inj h'

theorem fundedBy_unique {i : Input L} {u u' : TxOut} (h : Spec.FundedBy i u) (h' : Spec.FundedBy i u') : u = u' := by
  rw [← fundingUtxo_ok] at h h'
  rw [h] at h'; exact Except.ok.inj h'

theorem hasInput_unique {p : Psbt L} {n : Nat} {i i' : Input L} (h : Spec.HasInput p n i) (h' : Spec.HasInput p n i') : i = i' := by
  have := h.1.symm.trans h'.1; exact Option.some.inj this

theorem spendType_unique {s : Bytes} {r : Option Bytes} {t t' : OutputType} (h : Spec.SpendType s r t) (h' : Spec.SpendType s r t') :
    t = t' := by
  rw [← outputTypeOf_iff] at h h'
  rw [h] at h'; exact Option.some.inj h'

/-- The last part of `sighash_ecdsa`, once everything is looked up. -/
theorem sighashEcdsa_eq {p : Psbt L} {n : Nat} {tx : Tx} {i : Input L} {u : TxOut} {t : OutputType}
    (hi : Spec.HasInput p n i) (hu : Spec.FundedBy i u) (ht : Spec.SpendType u.scriptPubkey i.redeemScript t) :
    p.sighashEcdsa n tx =
      if t = .tr then .error (.err .wrongSigningAlgorithm)
      else match i.ecdsaHashTy with
      | none => .error (.err .invalidSighashType)
      | some ty =>
        match (generalizing := false) t with
        | .bare =>
          match legacySighash L tx n u.scriptPubkey ty with
          | some h => .ok (h, ty)
          | none => .error (.panic "input checked above")
        | .sh =>
          match i.redeemScript with
          | none => .error (.err .missingRedeemScript)
          | some code =>
            match legacySighash L tx n code ty with
            | some h => .ok (h, ty)
            | none => .error (.panic "input checked above")
        | .wpkh =>
          match p2wpkhSighash L tx n u.scriptPubkey u.value ty with
          | .ok h => .ok (h, ty)
          | .error e => .error (.err (.p2wpkhSighash e))
        | .shWpkh =>
          match i.redeemScript with
          | none => .error (.panic "checked above")
          | some r =>
            match p2wpkhSighash L tx n r u.value ty with
            | .ok h => .ok (h, ty)
            | .error e => .error (.err (.p2wpkhSighash e))
        | .wsh | .shWsh =>
          match i.witnessScript with
          | none => .error (.err .missingWitnessScript)
          | some code =>
            match segwitSighash L tx n code u.value ty with
            | some h => .ok (h, ty)
            | none => .error (.err .segwitV0Sighash)
        | .tr => .error (.err .unsupported) := by
  have ho := (C36_output_type_iff p n t).mpr ⟨i, u, hi, hu, ht⟩
  unfold Psbt.sighashEcdsa Psbt.signingAlgorithm
  rw [ho, checkedInput_ok.mpr hi]
  simp only [ok_bind, mapFail, orFail, fundingUtxo_ok.mpr hu, mapErr_of_ok]
  cases t <;> simp only [OutputType.signingAlgorithm, ne_eq, not_true, if_false, reduceCtorEq, not_false_eq_true, if_true] <;> rfl

/-- What `sighash_ecdsa` needs before it looks at scripts. -/
theorem sighashEcdsa_pre {p : Psbt L} {n : Nat} {tx : Tx} {r : Hash32 × EcdsaTy} (h : p.sighashEcdsa n tx = .ok r) :
    ∃ i u t, Spec.HasInput p n i ∧ Spec.FundedBy i u ∧ Spec.SpendType u.scriptPubkey i.redeemScript t := by
  unfold Psbt.sighashEcdsa Psbt.signingAlgorithm at h
  cases e : p.outputType n with
  | error e' => rw [e] at h; cases h
  | ok t =>
    obtain ⟨i, u, h1, h2, h3⟩ := (C36_output_type_iff p n t).mp e
    exact ⟨i, u, t, h1, h2, h3⟩

theorem p2wpkhSighash_ok {tx : Tx} {n : Nat} {s : Bytes} {v : UInt64} {ty : EcdsaTy} {m : Hash32} :
    p2wpkhSighash L tx n s v ty = .ok m ↔ ∃ h : FixedBytes 20, s = [0x00, 0x14] ++ h.1 ∧
      segwitSighash L tx n ([0x76, 0xa9, 0x14] ++ h.1 ++ [0x88, 0xac]) v ty = some m := by
  unfold p2wpkhSighash
  constructor
  · intro h
    split at h
    · cases h
    · rename_i code e
      obtain ⟨k, e1, rfl⟩ := p2wpkhScriptCode_iff.mp e
      split at h
      · cases h
      · rename_i m' e2; cases h; exact ⟨k, e1, e2⟩
  · rintro ⟨k, e1, e2⟩
    rw [p2wpkhScriptCode_iff.mpr ⟨k, e1, rfl⟩]
    simp only [e2]

/-- C37. Computing the message to sign succeeds exactly if the input exists, is funded and declares a standard type, and
gives the message prescribed for its type of spend, for exactly that index and transaction, with the declared type. -/
theorem C37_sighash_iff (p : Psbt L) (n : Nat) (tx : Tx) (m : Hash32) (ty : EcdsaTy) :
    p.sighashEcdsa n tx = .ok (m, ty) ↔
      ∃ i u, Spec.HasInput p n i ∧ Spec.FundedBy i u ∧ Spec.DeclaredType i ty ∧ Spec.Message tx n i u ty m := by
  constructor
  · intro h
    obtain ⟨i, u, t, h1, h2, h3⟩ := sighashEcdsa_pre h
    rw [sighashEcdsa_eq h1 h2 h3] at h
    split at h
    · cases h
    · split at h
      · cases h
      · rename_i ty' hty
        refine ⟨i, u, h1, h2, ?_⟩
        cases t with
        | bare =>
          simp only at h
          split at h
          · rename_i e; cases h; exact ⟨inputHashTy_iff.mp hty, .bare h3 e⟩
          · cases h
        | sh =>
          simp only at h
          split at h
          · cases h
          · rename_i code hr
            split at h
            · rename_i e; cases h; exact ⟨inputHashTy_iff.mp hty, .sh h3 hr e⟩
            · cases h
        | wpkh =>
          simp only at h
          split at h
          · rename_i e; cases h
            obtain ⟨k, e1, e2⟩ := p2wpkhSighash_ok.mp e
            exact ⟨inputHashTy_iff.mp hty, .wpkh e1 e2⟩
          · cases h
        | shWpkh =>
          simp only at h
          split at h
          · cases h
          · rename_i r hr
            split at h
            · rename_i e; cases h
              obtain ⟨k, e1, e2⟩ := p2wpkhSighash_ok.mp e
              subst e1
              cases h3 with
              | shWpkh hs _ _ => exact ⟨inputHashTy_iff.mp hty, .shWpkh hs hr e2⟩
            · cases h
        | wsh =>
          simp only at h
          split at h
          · cases h
          · rename_i w hw
            split at h
            · rename_i e; cases h
              cases h3 with
              | wsh hs => exact ⟨inputHashTy_iff.mp hty, .wsh hs hw e⟩
            · cases h
        | shWsh =>
          simp only at h
          split at h
          · cases h
          · rename_i w hw
            split at h
            · rename_i e; cases h
              cases h3 with
              | shWsh hs hr hp => exact ⟨inputHashTy_iff.mp hty, .shWsh hs hr hp hw e⟩
            · cases h
        | tr => cases h
  · rintro ⟨i, u, h1, h2, h3, h4⟩
    have hty := inputHashTy_iff.mpr h3
    cases h4 with
    | bare ht e => rw [sighashEcdsa_eq h1 h2 ht]; simp [hty, e]
    | sh ht hr e => rw [sighashEcdsa_eq h1 h2 ht]; simp [hty, hr, e]
    | wpkh hs e =>
      rw [sighashEcdsa_eq h1 h2 (.wpkh ⟨_, hs⟩)]
      simp [hty, p2wpkhSighash_ok.mpr ⟨_, hs, e⟩]
    | shWpkh hs hr e =>
      rw [sighashEcdsa_eq h1 h2 (.shWpkh hs hr ⟨_, rfl⟩)]
      have := p2wpkhSighash_ok.mpr ⟨_, rfl, e⟩
      simp only [hty, hr, this]
      simp
    | wsh hs hw e => rw [sighashEcdsa_eq h1 h2 (.wsh hs)]; simp [hty, hw, e]
    | shWsh hs hr hp hw e => rw [sighashEcdsa_eq h1 h2 (.shWsh hs hr hp)]; simp [hty, hw, e]

/-- C37. An index out of range - of the inputs or of the declared count - is an error. -/
theorem C37_index_error (p : Psbt L) (n : Nat) (tx : Tx) (h : ¬ ∃ i, Spec.HasInput p n i) :
    ∃ e, p.sighashEcdsa n tx = .error (.err (.index e)) := by
  obtain ⟨e, he⟩ := (C36_total p n).2.2.1 h
  refine ⟨e, ?_⟩
  unfold Psbt.sighashEcdsa Psbt.signingAlgorithm
  rw [he]; rfl

/-- C37. A non-standard sighash type of an ECDSA input is an error. -/
theorem C37_sighash_type_error {p : Psbt L} {n : Nat} {i : Input L} {u : TxOut} {t : OutputType} {s : UInt32} (tx : Tx)
    (hi : Spec.HasInput p n i) (hu : Spec.FundedBy i u) (ht : Spec.SpendType u.scriptPubkey i.redeemScript t) (htr : t ≠ .tr)
    (hs : i.sighashType = some s) (hn : s ∉ [0x01, 0x02, 0x03, 0x81, 0x82, (0x83 : UInt32)]) :
    p.sighashEcdsa n tx = .error (.err .invalidSighashType) := by
  rw [sighashEcdsa_eq hi hu ht, if_neg htr]
  have : i.ecdsaHashTy = none := by
    unfold Input.ecdsaHashTy
    rw [hs]
    exact ecdsaHashTy_none.mpr hn
  rw [this]

/-- C37. Taproot inputs are refused. -/
theorem C37_taproot_error {p : Psbt L} {n : Nat} {i : Input L} {u : TxOut} (tx : Tx)
    (hi : Spec.HasInput p n i) (hu : Spec.FundedBy i u) (ht : Spec.P2tr u.scriptPubkey) :
    p.sighashEcdsa n tx = .error (.err .wrongSigningAlgorithm) := by
  rw [sighashEcdsa_eq hi hu (.tr ht), if_pos rfl]

theorem legacySighash_some {tx : Tx} {n : Nat} (h : n < tx.input.length) (s : Bytes) (ty : EcdsaTy) :
    ∃ m, legacySighash L tx n s ty = some m := by
  unfold legacySighash
  rw [List.getElem?_eq_getElem h]
  simp only
  split
  · exact ⟨_, rfl⟩
  · exact ⟨_, rfl⟩

theorem segwitSighash_some {tx : Tx} {n : Nat} (h : n < tx.input.length) (s : Bytes) (v : UInt64) (ty : EcdsaTy) :
    ∃ m, segwitSighash L tx n s v ty = some m := by
  unfold segwitSighash
  rw [List.getElem?_eq_getElem h]
  exact ⟨_, rfl⟩

/-- C37. Computing the message never panics if the transaction of the cache has the input (as the PSBT's own unsigned
transaction has). Missing from "never panics": see `C37_panic_counterexample`. -/
theorem C37_never_panics_partial (p : Psbt L) (n : Nat) (tx : Tx) (h : n < tx.input.length) (s : String) :
    p.sighashEcdsa n tx ≠ .error (.panic s) := by
  intro hp
  cases e : p.outputType n with
  | error e' =>
    unfold Psbt.sighashEcdsa Psbt.signingAlgorithm at hp
    rw [e] at hp
    cases e' with
    | err e' => cases hp
    | panic s' => exact (C36_total p n).1 s' e
  | ok t =>
    obtain ⟨i, u, h1, h2, h3⟩ := (C36_output_type_iff p n t).mp e
    rw [sighashEcdsa_eq h1 h2 h3] at hp
    split at hp
    · cases hp
    · split at hp
      · cases hp
      · rename_i ty hty
        cases t with
        | bare =>
          obtain ⟨m, hm⟩ := legacySighash_some (L := L) h u.scriptPubkey ty
          simp only [hm] at hp; cases hp
        | sh =>
          simp only at hp
          split at hp
          · cases hp
          · rename_i code _
            obtain ⟨m, hm⟩ := legacySighash_some (L := L) h code ty
            simp only [hm] at hp; cases hp
        | wpkh => simp only at hp; split at hp <;> cases hp
        | shWpkh =>
          cases h3 with
          | shWpkh hs hr hq =>
            simp only [hr] at hp
            split at hp <;> cases hp
        | wsh =>
          simp only at hp
          split at hp
          · cases hp
          · split at hp <;> cases hp
        | shWsh =>
          simp only at hp
          split at hp
          · cases hp
          · split at hp <;> cases hp
        | tr => cases hp

theorem legacySighash_none {tx : Tx} {n : Nat} (h : tx.input.length ≤ n) (s : Bytes) (ty : EcdsaTy) :
    legacySighash L tx n s ty = none := by
  unfold legacySighash
  rw [List.getElem?_eq_none h]

/-- C37. Exactly when computing the message panics: the transaction of the cache lacks the input, and the input is a legacy
one of which everything else the message needs is known. Inputs of the other types are reported as errors then. -/
theorem C37_panics_iff (p : Psbt L) (n : Nat) (tx : Tx) :
    (∃ s, p.sighashEcdsa n tx = .error (.panic s)) ↔
      tx.input.length ≤ n ∧ ∃ i u ty, Spec.HasInput p n i ∧ Spec.FundedBy i u ∧ Spec.DeclaredType i ty ∧
        (Spec.SpendType u.scriptPubkey i.redeemScript .bare ∨
          Spec.SpendType u.scriptPubkey i.redeemScript .sh ∧ i.redeemScript ≠ none) := by
  constructor
  · rintro ⟨s, hp⟩
    have hn : tx.input.length ≤ n := Nat.not_lt.mp fun h => C37_never_panics_partial p n tx h s hp
    refine ⟨hn, ?_⟩
    cases e : p.outputType n with
    | error e' =>
      unfold Psbt.sighashEcdsa Psbt.signingAlgorithm at hp
      rw [e] at hp
      cases e' with
      | err e' => cases hp
      | panic s' => exact absurd e ((C36_total p n).1 s')
    | ok t =>
      obtain ⟨i, u, h1, h2, h3⟩ := (C36_output_type_iff p n t).mp e
      rw [sighashEcdsa_eq h1 h2 h3] at hp
      split at hp
      · cases hp
      · split at hp
        · cases hp
        · rename_i ty hty
          have hd : Spec.DeclaredType i ty := inputHashTy_iff.mp hty
          cases t with
          | bare => exact ⟨i, u, ty, h1, h2, hd, .inl h3⟩
          | sh =>
            simp only at hp
            split at hp
            · cases hp
            · rename_i code hc
              exact ⟨i, u, ty, h1, h2, hd, .inr ⟨h3, by rw [hc]; exact Option.some_ne_none _⟩⟩
          | wpkh => simp only at hp; split at hp <;> cases hp
          | shWpkh =>
            cases h3 with
            | shWpkh hs hr hq =>
              simp only [hr] at hp
              split at hp <;> cases hp
          | wsh =>
            simp only at hp
            split at hp
            · cases hp
            · split at hp <;> cases hp
          | shWsh =>
            simp only at hp
            split at hp
            · cases hp
            · split at hp <;> cases hp
          | tr => cases hp
  · rintro ⟨hn, i, u, ty, h1, h2, hd, h3 | ⟨h3, hr⟩⟩
    · rw [sighashEcdsa_eq h1 h2 h3, if_neg (by decide), inputHashTy_iff.mpr hd]
      simp only [legacySighash_none hn]
      exact ⟨_, rfl⟩
    · rw [sighashEcdsa_eq h1 h2 h3, if_neg (by decide), inputHashTy_iff.mpr hd]
      obtain ⟨r, hr⟩ := Option.ne_none_iff_exists'.mp hr
      simp only [hr, legacySighash_none hn]
      exact ⟨_, rfl⟩

/-- C37. With the PSBT's own unsigned transaction the message is computed for every existing, funded ECDSA input that
declares a standard type and carries the scripts its type of spend needs. -/
theorem C37_succeeds {p : Psbt L} {n : Nat} {tx : Tx} {i : Input L} {u : TxOut} {t : OutputType} {ty : EcdsaTy}
    (htx : p.unsignedTx = .ok tx) (hi : Spec.HasInput p n i) (hu : Spec.FundedBy i u)
    (ht : Spec.SpendType u.scriptPubkey i.redeemScript t) (htr : t ≠ .tr) (hty : Spec.DeclaredType i ty)
    (hr : t = .sh → i.redeemScript ≠ none) (hw : t = .wsh ∨ t = .shWsh → i.witnessScript ≠ none) :
    ∃ m, p.sighashEcdsa n tx = .ok (m, ty) := by
  obtain ⟨lt, -, rfl⟩ := unsignedTx_ok.mp htx
  have hn : n < p.inputs.length := (List.getElem?_eq_some_iff.mp hi.1).1
  have hlen : n < (⟨p.global.txVersion, lt, p.inputs.map Input.unsignedTxIn, p.outputs.map Output.txOut⟩ : Tx).input.length := by
    simpa using hn
  have hty' := inputHashTy_iff.mpr hty
  rw [sighashEcdsa_eq hi hu ht, if_neg htr]
  simp only [hty']
  cases ht with
  | bare h1 h2 =>
    obtain ⟨m, hm⟩ := legacySighash_some (L := L) hlen u.scriptPubkey ty
    exact ⟨m, by simp only [hm]⟩
  | sh h1 h2 =>
    cases e : i.redeemScript with
    | none => exact absurd e (hr rfl)
    | some code =>
      obtain ⟨m, hm⟩ := legacySighash_some (L := L) hlen code ty
      exact ⟨m, by simp only [hm]⟩
  | wpkh h =>
    obtain ⟨k, hk⟩ := h
    obtain ⟨m, hm⟩ := segwitSighash_some (L := L) hlen ([0x76, 0xa9, 0x14] ++ k.1 ++ [0x88, 0xac]) u.value ty
    exact ⟨m, by simp only [p2wpkhSighash_ok.mpr ⟨k, hk, hm⟩]⟩
  | shWpkh hs hr hp =>
    obtain ⟨k, rfl⟩ := hp
    obtain ⟨m, hm⟩ := segwitSighash_some (L := L) hlen ([0x76, 0xa9, 0x14] ++ k.1 ++ [0x88, 0xac]) u.value ty
    exact ⟨m, by simp only [hr, p2wpkhSighash_ok.mpr ⟨k, rfl, hm⟩]⟩
  | wsh h =>
    cases e : i.witnessScript with
    | none => exact absurd e (hw (.inl rfl))
    | some code =>
      obtain ⟨m, hm⟩ := segwitSighash_some (L := L) hlen code u.value ty
      exact ⟨m, by simp only [hm]⟩
  | shWsh _ _ _ =>
    cases e : i.witnessScript with
    | none => exact absurd e (hw (.inr rfl))
    | some code =>
      obtain ⟨m, hm⟩ := segwitSighash_some (L := L) hlen code u.value ty
      exact ⟨m, by simp only [hm]⟩
  | tr _ => exact absurd rfl htr

theorem ecdsaTy_cases (ty : EcdsaTy) : ty.1 = 0x01 ∨ ty.1 = 0x02 ∨ ty.1 = 0x03 ∨ ty.1 = 0x81 ∨ ty.1 = 0x82 ∨ ty.1 = 0x83 := by
  obtain ⟨t, ht⟩ := ty
  simp only [ecdsaStandard, Bool.or_eq_true, decide_eq_true_eq, or_assoc] at ht
  rcases ht with h | h | h | h | h | h
  · exact .inl (toUInt32_inj h)
  · exact .inr (.inl (toUInt32_inj h))
  · exact .inr (.inr (.inl (toUInt32_inj h)))
  · exact .inr (.inr (.inr (.inl (toUInt32_inj h))))
  · exact .inr (.inr (.inr (.inr (.inl (toUInt32_inj h)))))
  · exact .inr (.inr (.inr (.inr (.inr (toUInt32_inj h)))))

/-- The ten items of BIP-143 are the bytes hashed. -/
theorem bip143_eq (tx : Tx) (n : Nat) (inp : TxIn) (code : Bytes) (v : UInt64) (ty : EcdsaTy) :
    (Spec.bip143 L tx n inp code v ty.1).flatten = segwitPreimage L tx n inp code v ty := by
  unfold segwitPreimage Spec.bip143 singleOutputHash
  rw [le32_fun, le64_fun, blob_fun, outPointBytes_fun, txOutBytes_fun]
  rcases ecdsaTy_cases ty with h | h | h | h | h | h <;>
    simp only [EcdsaTy.split, h, List.flatten_cons, List.flatten_nil, List.append_nil, List.append_assoc] <;>
    (cases tx.output[n]? <;> rfl)

theorem segwitHashed_eq (tx : Tx) (n : Nat) (code : Bytes) (v : UInt64) (ty : EcdsaTy) :
    Spec.segwitHashed L tx n code v ty =
      [tx.input.flatMap fun i => encOutPoint i.previousOutput, tx.input.flatMap fun i => encU32 i.sequence, tx.output.flatMap encTxOut]
        ++ tx.output[n]?.toList.map encTxOut ++ tx.input[n]?.toList.map fun inp => segwitPreimage L tx n inp code v ty := by
  unfold Spec.segwitHashed
  rw [le32_fun, outPointBytes_fun, txOutBytes_fun]
  simp only [bip143_eq]

/-- C37. What a segwit message commits to: if the messages for two inputs - of any two transactions, at any indexes, with
any script codes, amounts and types - are equal, then these agree on everything the type covers, or two of the strings
hashed on the way collide, or one of them hashes to zero. -/
theorem C37_segwit_commits {tx tx' : Tx} {n n' : Nat} {code code' : Bytes} {v v' : UInt64} {ty ty' : EcdsaTy} {m : Hash32}
    (hs : tx.Small) (hs' : tx'.Small) (hc : code.length < 2 ^ 64) (hc' : code'.length < 2 ^ 64)
    (h : segwitSighash L tx n code v ty = some m) (h' : segwitSighash L tx' n' code' v' ty' = some m) :
    Spec.Collides L.sha256d (Spec.segwitHashed L tx n code v ty) (Spec.segwitHashed L tx' n' code' v' ty') ∨
    Spec.HitsZero L.sha256d (Spec.segwitHashed L tx n code v ty ++ Spec.segwitHashed L tx' n' code' v' ty') ∨
    (ty = ty' ∧ tx.version = tx'.version ∧ tx.lockTime = tx'.lockTime ∧ code = code' ∧ v = v' ∧
     (∃ a b, tx.input[n]? = some a ∧ tx'.input[n']? = some b ∧ a.previousOutput = b.previousOutput ∧ a.sequence = b.sequence) ∧
     (Spec.commitsInputs ty → tx.input.map TxIn.previousOutput = tx'.input.map TxIn.previousOutput) ∧
     (Spec.commitsSequences ty → tx.input.map TxIn.sequence = tx'.input.map TxIn.sequence) ∧
     (Spec.commitsOutputs ty → tx.output = tx'.output) ∧
     (Spec.commitsOutput ty → tx.output[n]? = tx'.output[n']?)) := by
  unfold segwitSighash at h h'
  cases ea : tx.input[n]? with
  | none => rw [ea] at h; cases h
  | some a =>
  cases eb : tx'.input[n']? with
  | none => rw [eb] at h'; cases h'
  | some b =>
  rw [ea] at h; rw [eb] at h'
  simp only [Option.some.injEq] at h h'
  by_cases hb : Spec.Collides L.sha256d (Spec.segwitHashed L tx n code v ty) (Spec.segwitHashed L tx' n' code' v' ty')
  · exact .inl hb
  by_cases hz : Spec.HitsZero L.sha256d (Spec.segwitHashed L tx n code v ty ++ Spec.segwitHashed L tx' n' code' v' ty')
  · exact .inr (.inl hz)
  refine .inr (.inr ?_)
  have e := Spec.Collides.free hb (by simp [segwitHashed_eq, ea]) (by simp [segwitHashed_eq, eb]) (h.trans h'.symm)
  unfold segwitPreimage at e
  simp only [List.append_assoc] at e
  obtain ⟨e1, e⟩ := (decU32_rt _).inj (decU32_rt _) e
  obtain ⟨e2, e⟩ := (decHash32_rt _).inj (decHash32_rt _) e
  obtain ⟨e3, e⟩ := (decHash32_rt _).inj (decHash32_rt _) e
  obtain ⟨e4, e⟩ := RT.inj (decOutPoint_enc _) (decOutPoint_enc _) e
  obtain ⟨e5, e⟩ := (decVecFin_rt hc).inj (decVecFin_rt hc') e
  obtain ⟨e6, e⟩ := (decU64_rt _).inj (decU64_rt _) e
  obtain ⟨e7, e⟩ := (decU32_rt _).inj (decU32_rt _) e
  obtain ⟨e8, e⟩ := (decHash32_rt _).inj (decHash32_rt _) e
  obtain ⟨e9, e⟩ := (decU32_rt _).inj (decU32_rt _) e
  have e10 : ty.1.toUInt32 = ty'.1.toUInt32 :=
    ((decU32_rt _).inj (decU32_rt _) (r := []) (s := []) (by simpa using e)).1
  have ety : ty = ty' := Subtype.ext (toUInt32_inj e10)
  subst ety
  have outs : L.sha256d (tx.output.flatMap encTxOut) = L.sha256d (tx'.output.flatMap encTxOut) → tx.output = tx'.output := fun e =>
    flatMap_inj (fun o ho => decTxOut_enc (hs.2.2.2 o ho)) (fun o ho => decTxOut_enc (hs'.2.2.2 o ho)) encTxOut_ne
      (Spec.Collides.free hb (by simp [segwitHashed_eq]) (by simp [segwitHashed_eq]) e)
  have ins : L.sha256d (tx.input.flatMap fun i => encOutPoint i.previousOutput) =
      L.sha256d (tx'.input.flatMap fun i => encOutPoint i.previousOutput) →
      tx.input.map TxIn.previousOutput = tx'.input.map TxIn.previousOutput := fun e => by
    have e := Spec.Collides.free hb (by simp [segwitHashed_eq]) (by simp [segwitHashed_eq]) e
    have f : ∀ l : List TxIn, (l.flatMap fun i => encOutPoint i.previousOutput) = (l.map TxIn.previousOutput).flatMap encOutPoint :=
      fun l => by simp [List.flatMap_map]
    rw [f, f] at e
    exact flatMap_inj (fun _ _ => decOutPoint_enc _) (fun _ _ => decOutPoint_enc _) encOutPoint_ne e
  have seqs : L.sha256d (tx.input.flatMap fun i => encU32 i.sequence) = L.sha256d (tx'.input.flatMap fun i => encU32 i.sequence) →
      tx.input.map TxIn.sequence = tx'.input.map TxIn.sequence := fun e => by
    have e := Spec.Collides.free hb (by simp [segwitHashed_eq]) (by simp [segwitHashed_eq]) e
    have f : ∀ l : List TxIn, (l.flatMap fun i => encU32 i.sequence) = (l.map TxIn.sequence).flatMap encU32 :=
      fun l => by simp [List.flatMap_map]
    rw [f, f] at e
    exact flatMap_inj (fun _ _ => decU32_rt _) (fun _ _ => decU32_rt _) encU32_ne e
  have one : singleOutputHash L tx n = singleOutputHash L tx' n' → tx.output[n]? = tx'.output[n']? := fun e => by
    unfold singleOutputHash at e
    cases eo : tx.output[n]? with
    | none =>
      cases eo' : tx'.output[n']? with
      | none => rfl
      | some o' => simp only [eo, eo'] at e; exact absurd ⟨_, by simp [segwitHashed_eq, eo'], congrArg Subtype.val e.symm⟩ hz
    | some o =>
      cases eo' : tx'.output[n']? with
      | none => simp only [eo, eo'] at e; exact absurd ⟨_, by simp [segwitHashed_eq, eo], congrArg Subtype.val e⟩ hz
      | some o' =>
        simp only [eo, eo'] at e
        have e := Spec.Collides.free hb (by simp [segwitHashed_eq, eo]) (by simp [segwitHashed_eq, eo']) e
        have ho : o.scriptPubkey.length < 2 ^ 64 := hs.2.2.2 o (List.mem_of_getElem? eo)
        have ho' : o'.scriptPubkey.length < 2 ^ 64 := hs'.2.2.2 o' (List.mem_of_getElem? eo')
        rw [(RT.inj (decTxOut_enc ho) (decTxOut_enc ho') (r := []) (s := []) (by simpa using e)).1]
  refine ⟨rfl, e1, e9, e5, e6, ⟨a, b, rfl, rfl, e4, e7⟩, ?_, ?_, ?_, ?_⟩
  · intro hc
    refine ins ?_
    rcases hc with hc | hc | hc <;> simpa [EcdsaTy.split, hc] using e2
  · intro hc
    refine seqs ?_
    simpa [EcdsaTy.split, show ty.1 = 0x01 from hc] using e3
  · intro hc
    refine outs ?_
    rcases hc with hc | hc <;> simpa [EcdsaTy.split, hc] using e8
  · intro hc
    refine one ?_
    rcases hc with hc | hc <;> simpa [EcdsaTy.split, hc] using e8

theorem encTx_of_unsigned {t : Tx} (hi : t.input ≠ []) (hw : ∀ i ∈ t.input, i.witness = []) : encTx t = encTxLegacy t := by
  unfold encTx
  rw [if_neg]
  unfold Tx.usesSegwit
  simp only [Bool.or_eq_true, List.any_eq_true, Bool.not_eq_true', List.isEmpty_eq_false_iff, List.isEmpty_iff, not_or, hi,
    not_false_eq_true, and_true]
  rintro ⟨i, h1, h2⟩
  exact h2 (hw i h1)

/-- The transaction the legacy algorithm hashes. -/
def legacyTx (tx : Tx) (n : Nat) (inp : TxIn) (code : Bytes) (ty : EcdsaTy) : Tx :=
  ⟨tx.version, tx.lockTime, legacyInputs tx.input n inp code (EcdsaTy.split ty).1 (EcdsaTy.split ty).2,
    legacyOutputs tx.output n (EcdsaTy.split ty).1⟩

theorem legacyTx_small {tx : Tx} {n : Nat} {inp : TxIn} {code : Bytes} {ty : EcdsaTy} (hs : tx.Small) (hc : code.length < 2 ^ 64)
    (hi : tx.input[n]? = some inp) :
    (legacyTx tx n inp code ty).Small ∧ (∀ i ∈ (legacyTx tx n inp code ty).input, i.witness = []) ∧
      (legacyTx tx n inp code ty).input ≠ [] := by
  obtain ⟨h1, h2, h3, h4⟩ := hs
  unfold legacyTx
  have hlen : n < tx.input.length := (List.getElem?_eq_some_iff.mp hi).1
  have hins : ∀ b a, (legacyInputs tx.input n inp code b a).length < 2 ^ 64 ∧
      (∀ i ∈ legacyInputs tx.input n inp code b a, i.Small ∧ i.witness = []) ∧ legacyInputs tx.input n inp code b a ≠ [] := by
    intro b a
    unfold legacyInputs
    split
    · refine ⟨by simp, ?_, by simp⟩
      intro i hi
      simp only [List.mem_cons, List.not_mem_nil, or_false] at hi
      subst hi
      exact ⟨⟨hc, by simp, by simp⟩, rfl⟩
    · refine ⟨by simpa using h1, ?_, ?_⟩
      · intro i hi
        obtain ⟨k, hk, rfl⟩ := List.mem_mapIdx.mp hi
        refine ⟨⟨?_, by simp, by simp⟩, rfl⟩
        simp only
        split
        · exact hc
        · simp
      · intro e
        have := congrArg List.length e
        simp at this
        rw [this] at hlen; simp at hlen
  have houts : ∀ b, (legacyOutputs tx.output n b).length < 2 ^ 64 ∧
      ∀ o ∈ legacyOutputs tx.output n b, o.scriptPubkey.length < 2 ^ 64 := by
    intro b
    cases b with
    | all => exact ⟨h2, h4⟩
    | none => exact ⟨by simp [legacyOutputs], by simp [legacyOutputs]⟩
    | single =>
      refine ⟨by simp [legacyOutputs]; omega, ?_⟩
      intro o ho
      obtain ⟨k, hk, rfl⟩ := List.mem_mapIdx.mp ho
      split
      · exact h4 _ (List.mem_of_mem_take (List.getElem_mem _))
      · simp [TxOut.null]
  exact ⟨⟨(hins _ _).1, (houts _).1, fun i hi => ((hins _ _).2.1 i hi).1, (houts _).2⟩,
    fun i hi => ((hins _ _).2.1 i hi).2, (hins _ _).2.2⟩

theorem legacySighash_eq {tx : Tx} {n : Nat} {code : Bytes} {ty : EcdsaTy} {m : Hash32}
    (hb : Spec.commitsOutput ty → n < tx.output.length) (h : legacySighash L tx n code ty = some m) :
    ∃ inp, tx.input[n]? = some inp ∧ m = L.sha256d (encTx (legacyTx tx n inp code ty) ++ encU32 ty.1.toUInt32) := by
  unfold legacySighash at h
  cases e : tx.input[n]? with
  | none => rw [e] at h; cases h
  | some inp =>
    rw [e] at h
    refine ⟨inp, rfl, ?_⟩
    simp only at h
    rw [if_neg] at h
    · exact (Option.some.inj h).symm
    · simp only [Bool.and_eq_true, decide_eq_true_eq, not_and]
      intro hs
      have : Spec.commitsOutput ty := by
        rcases ecdsaTy_cases ty with h | h | h | h | h | h <;> simp [EcdsaTy.split, h, Spec.commitsOutput] at hs ⊢
      have := hb this
      omega

theorem mapIdx_split {α β : Type} {l : List α} {n : Nat} {x : α} {f : Nat → α → β} {g : α → β} {y : β} (hx : l[n]? = some x)
    (h1 : f n x = y) (h2 : ∀ k a, k ≠ n → f k a = g a) : l.mapIdx f = (l.take n).map g ++ y :: (l.drop (n + 1)).map g := by
  have hlt := (List.getElem?_eq_some_iff.mp hx).1
  apply List.ext_getElem?
  intro k
  rw [List.getElem?_mapIdx]
  rcases Nat.lt_trichotomy k n with hk | hk | hk
  · rw [List.getElem?_append_left (by simp; omega), List.getElem?_map, List.getElem?_take, if_pos hk]
    cases l[k]? with
    | none => rfl
    | some a => simp [h2 k a (by omega)]
  · subst hk
    rw [List.getElem?_append_right (by simp; omega), hx]
    have : k - (List.map g (List.take k l)).length = 0 := by simp; omega
    rw [this]
    simp [h1]
  · rw [List.getElem?_append_right (by simp; omega)]
    have : k - (List.map g (List.take n l)).length = (k - n - 1) + 1 := by simp; omega
    rw [this, List.getElem?_cons_succ, List.getElem?_map, List.getElem?_drop]
    have : n + 1 + (k - n - 1) = k := by omega
    rw [this]
    cases l[k]? with
    | none => rfl
    | some a => simp [h2 k a (by omega)]

theorem legacyTx_copy {tx : Tx} {n : Nat} {inp : TxIn} {o : TxOut} (h : tx.input[n]? = some inp) (code : Bytes) (ty : EcdsaTy)
    (ho : Spec.commitsOutput ty → tx.output[n]? = some o) :
    legacyTx tx n inp code ty = Spec.legacyCopy tx n inp code o ty.1 := by
  have hlt : Spec.commitsOutput ty → n < tx.output.length := fun hc => (List.getElem?_eq_some_iff.mp (ho hc)).1
  have hins : ∀ base, legacyInputs tx.input n inp code base false =
      (tx.input.take n).map (fun i => { i with scriptSig := [], witness := [], sequence := if base = .all then i.sequence else 0 }) ++
        { inp with scriptSig := code, witness := [] } ::
        (tx.input.drop (n + 1)).map (fun i => { i with scriptSig := [], witness := [], sequence := if base = .all then i.sequence else 0 }) := by
    intro base
    unfold legacyInputs
    simp only [Bool.false_eq_true, if_false]
    apply mapIdx_split h
    · simp
    · intro k a hk
      cases base <;> simp [hk]
  have hout : Spec.commitsOutput ty → legacyOutputs tx.output n .single = List.replicate n ⟨0xFFFFFFFFFFFFFFFF, []⟩ ++ [o] := by
    intro hc
    have ho := ho hc
    have hl := hlt hc
    unfold legacyOutputs
    simp only
    have ho' : (tx.output.take (n + 1))[n]? = some o := by rw [List.getElem?_take, if_pos (by omega), ho]
    rw [mapIdx_split (g := fun _ => TxOut.null) ho' (y := o) (by simp) (fun k a hk => by simp [hk])]
    have e1 : (tx.output.take (n + 1)).drop (n + 1) = [] := by simp
    have e2 : (tx.output.take (n + 1)).take n = tx.output.take n := by rw [List.take_take]; congr 1; omega
    rw [e1, e2]
    have e3 : (tx.output.take n).map (fun _ => TxOut.null) = List.replicate n ⟨0xFFFFFFFFFFFFFFFF, []⟩ := by
      rw [List.map_const', List.length_take, Nat.min_eq_left (by omega)]; rfl
    rw [e3]; rfl
  unfold legacyTx Spec.legacyCopy
  rcases ecdsaTy_cases ty with h | h | h | h | h | h
  · rw [show EcdsaTy.split ty = (.all, false) by simp [EcdsaTy.split, h], hins, h]; rfl
  · rw [show EcdsaTy.split ty = (.none, false) by simp [EcdsaTy.split, h], hins, h]; rfl
  · rw [show EcdsaTy.split ty = (.single, false) by simp [EcdsaTy.split, h], hins, hout (.inl h), h]; rfl
  · rw [show EcdsaTy.split ty = (.all, true) by simp [EcdsaTy.split, h], h]; rfl
  · rw [show EcdsaTy.split ty = (.none, true) by simp [EcdsaTy.split, h], h]; rfl
  · rw [show EcdsaTy.split ty = (.single, true) by simp [EcdsaTy.split, h], hout (.inr h), h]; rfl

theorem typeBytes (ty : EcdsaTy) : encU32 ty.1.toUInt32 = [ty.1, 0, 0, 0] := by
  rcases ecdsaTy_cases ty with h | h | h | h | h | h <;> rw [h] <;> rfl

theorem legacyTx_bytes {tx : Tx} {n : Nat} {inp : TxIn} (h : tx.input[n]? = some inp) (code : Bytes) (ty : EcdsaTy) :
    encTx (legacyTx tx n inp code ty) = encTxLegacy (legacyTx tx n inp code ty) := by
  have hw : ∀ i ∈ (legacyTx tx n inp code ty).input, i.witness = [] := by
    unfold legacyTx legacyInputs
    intro i hi
    simp only at hi
    split at hi
    · simp at hi; subst hi; rfl
    · obtain ⟨k, hk, rfl⟩ := List.mem_mapIdx.mp hi; rfl
  have hne : (legacyTx tx n inp code ty).input ≠ [] := by
    unfold legacyTx legacyInputs
    simp only
    split
    · simp
    · intro e
      have hl := congrArg List.length e
      have := (List.getElem?_eq_some_iff.mp h).1
      simp at hl
      rw [hl] at this
      simp at this
  exact encTx_of_unsigned hne hw

theorem legacyHashed_mem {tx : Tx} {n : Nat} {inp : TxIn} {code : Bytes} {ty : EcdsaTy} (h : tx.input[n]? = some inp)
    (hb : Spec.commitsOutput ty → n < tx.output.length) :
    encTx (legacyTx tx n inp code ty) ++ encU32 ty.1.toUInt32 ∈ Spec.legacyHashed tx n code ty := by
  rw [legacyTx_bytes h, typeBytes, legacyTx_copy (o := tx.output[n]?.getD ⟨0, []⟩) h code ty (fun hc => by
    rw [List.getElem?_eq_getElem (hb hc)]; rfl), ← unsignedTxBytes_fun]
  simp [Spec.legacyHashed, h]

/-- C37. What a legacy message commits to, apart from the case of SINGLE without an output of the same index (where the
algorithm returns a constant): equal messages mean agreement on everything the type covers, or the two strings hashed
collide. -/
theorem C37_legacy_commits {tx tx' : Tx} {n n' : Nat} {code code' : Bytes} {ty ty' : EcdsaTy} {m : Hash32}
    (hs : tx.Small) (hs' : tx'.Small) (hc : code.length < 2 ^ 64) (hc' : code'.length < 2 ^ 64) (hne : code ≠ [])
    (hb : Spec.commitsOutput ty → n < tx.output.length) (hb' : Spec.commitsOutput ty' → n' < tx'.output.length)
    (h : legacySighash L tx n code ty = some m) (h' : legacySighash L tx' n' code' ty' = some m) :
    Spec.Collides L.sha256d (Spec.legacyHashed tx n code ty) (Spec.legacyHashed tx' n' code' ty') ∨
    (ty = ty' ∧ tx.version = tx'.version ∧ tx.lockTime = tx'.lockTime ∧ code = code' ∧
     (∃ a b, tx.input[n]? = some a ∧ tx'.input[n']? = some b ∧ a.previousOutput = b.previousOutput ∧ a.sequence = b.sequence) ∧
     (Spec.commitsInputs ty → n = n' ∧ tx.input.map TxIn.previousOutput = tx'.input.map TxIn.previousOutput) ∧
     (Spec.commitsSequences ty → tx.input.map TxIn.sequence = tx'.input.map TxIn.sequence) ∧
     (Spec.commitsOutputs ty → tx.output = tx'.output) ∧
     (Spec.commitsOutput ty → n = n' ∧ tx.output[n]? = tx'.output[n']?)) := by
  obtain ⟨a, ea, rfl⟩ := legacySighash_eq hb h
  obtain ⟨b, eb, e⟩ := legacySighash_eq hb' h'
  by_cases hbk : Spec.Collides L.sha256d (Spec.legacyHashed tx n code ty) (Spec.legacyHashed tx' n' code' ty')
  · exact .inl hbk
  right
  have e : encTx (legacyTx tx n a code ty) ++ encU32 ty.1.toUInt32 = encTx (legacyTx tx' n' b code' ty') ++ encU32 ty'.1.toUInt32 :=
    Spec.Collides.free hbk (legacyHashed_mem ea hb) (legacyHashed_mem eb hb') e
  obtain ⟨s1, s2, s3⟩ := legacyTx_small (ty := ty) hs hc ea
  obtain ⟨t1, t2, t3⟩ := legacyTx_small (ty := ty') hs' hc' eb
  rw [encTx_of_unsigned s3 s2, encTx_of_unsigned t3 t2] at e
  obtain ⟨etx, e⟩ := RT.inj (decTxLegacy_enc s1 s2) (decTxLegacy_enc t1 t2) e
  have e10 : ty.1.toUInt32 = ty'.1.toUInt32 :=
    ((decU32_rt _).inj (decU32_rt _) (r := []) (s := []) (by simpa using e)).1
  have ety : ty = ty' := Subtype.ext (toUInt32_inj e10)
  subst ety
  injection etx with e1 e2 e3 e4
  have ln : n < tx.input.length := (List.getElem?_eq_some_iff.mp ea).1
  have ln' : n' < tx'.input.length := (List.getElem?_eq_some_iff.mp eb).1
  -- the case without ANYONECANPAY
  have plain : ∀ base, legacyInputs tx.input n a code base false = legacyInputs tx'.input n' b code' base false →
      n = n' ∧ code = code' ∧ tx.input.map TxIn.previousOutput = tx'.input.map TxIn.previousOutput ∧
      a.previousOutput = b.previousOutput ∧ a.sequence = b.sequence ∧
      (base = .all → tx.input.map TxIn.sequence = tx'.input.map TxIn.sequence) := by
    intro base e
    simp only [legacyInputs, Bool.false_eq_true, if_false] at e
    have hk : ∀ k : Nat, _ := fun k => congrArg (fun l : List TxIn => l[k]?) e
    simp only [List.getElem?_mapIdx] at hk
    have hn := hk n
    rw [ea] at hn
    cases en : tx'.input[n]? with
    | none => rw [en] at hn; cases hn
    | some c =>
      rw [en] at hn
      simp only [Option.map_some, Option.some.injEq, TxIn.mk.injEq, if_true] at hn
      have enn : n = n' := by
        by_cases h : n = n'
        · exact h
        · rw [if_neg h] at hn; exact absurd hn.2.1 hne
      subst enn
      rw [eb] at en; cases en
      simp only [if_true, ne_eq, not_true, decide_false, Bool.false_and, Bool.false_eq_true, if_false] at hn
      refine ⟨rfl, hn.2.1, ?_, hn.1, hn.2.2.1, ?_⟩
      · apply List.ext_getElem?
        intro k
        have := hk k
        simp only [List.getElem?_map]
        cases h1 : tx.input[k]? <;> cases h2 : tx'.input[k]? <;> rw [h1, h2] at this <;> simp at this ⊢
        exact this.1
      · rintro rfl
        apply List.ext_getElem?
        intro k
        have := hk k
        simp only [List.getElem?_map]
        cases h1 : tx.input[k]? <;> cases h2 : tx'.input[k]? <;> rw [h1, h2] at this <;> simp at this ⊢
        exact this.2.2
  have acp : ∀ base, legacyInputs tx.input n a code base true = legacyInputs tx'.input n' b code' base true →
      code = code' ∧ a.previousOutput = b.previousOutput ∧ a.sequence = b.sequence := by
    intro base e
    simp only [legacyInputs, if_true, List.cons.injEq, TxIn.mk.injEq, and_true] at e
    exact ⟨e.2.1, e.1, e.2.2⟩
  have single : n < tx.output.length → n' < tx'.output.length →
      legacyOutputs tx.output n .single = legacyOutputs tx'.output n' .single → n = n' ∧ tx.output[n]? = tx'.output[n']? := by
    intro h1 h2 e
    simp only [legacyOutputs] at e
    have el := congrArg List.length e
    simp only [List.length_mapIdx, List.length_take] at el
    have : n = n' := by omega
    subst this
    refine ⟨rfl, ?_⟩
    have := congrArg (fun l : List TxOut => l[n]?) e
    simp only [List.getElem?_mapIdx, List.getElem?_take, Nat.lt_succ_self, if_true] at this
    rw [List.getElem?_eq_getElem h1, List.getElem?_eq_getElem h2] at this ⊢
    simpa using this
  rcases ecdsaTy_cases ty with ht | ht | ht | ht | ht | ht
  · simp only [EcdsaTy.split, ht, if_true] at e3 e4
    obtain ⟨p1, p2, p3, p4, p5, p6⟩ := plain _ e3
    refine ⟨rfl, e1, e2, p2, ⟨a, b, ea, eb, p4, p5⟩, fun _ => ⟨p1, p3⟩, fun _ => p6 rfl, fun _ => e4, ?_⟩
    rintro (h | h) <;> rw [ht] at h <;> cases h
  · have hx : EcdsaTy.split ty = (.none, false) := by simp [EcdsaTy.split, ht]
    rw [hx] at e3 e4
    obtain ⟨p1, p2, p3, p4, p5, p6⟩ := plain _ e3
    refine ⟨rfl, e1, e2, p2, ⟨a, b, ea, eb, p4, p5⟩, fun _ => ⟨p1, p3⟩, ?_, ?_, ?_⟩
    · intro h; rw [show ty.1 = 0x01 from h] at ht; cases ht
    · rintro (h | h) <;> rw [ht] at h <;> cases h
    · rintro (h | h) <;> rw [ht] at h <;> cases h
  · have hx : EcdsaTy.split ty = (.single, false) := by simp [EcdsaTy.split, ht]
    rw [hx] at e3 e4
    obtain ⟨p1, p2, p3, p4, p5, p6⟩ := plain _ e3
    refine ⟨rfl, e1, e2, p2, ⟨a, b, ea, eb, p4, p5⟩, fun _ => ⟨p1, p3⟩, ?_, ?_, ?_⟩
    · intro h; rw [show ty.1 = 0x01 from h] at ht; cases ht
    · rintro (h | h) <;> rw [ht] at h <;> cases h
    · intro h; exact single (hb h) (hb' h) e4
  · have hx : EcdsaTy.split ty = (.all, true) := by simp [EcdsaTy.split, ht]
    rw [hx] at e3 e4
    obtain ⟨p1, p2, p3⟩ := acp _ e3
    refine ⟨rfl, e1, e2, p1, ⟨a, b, ea, eb, p2, p3⟩, ?_, ?_, fun _ => e4, ?_⟩
    · rintro (h | h | h) <;> rw [ht] at h <;> cases h
    · intro h; rw [show ty.1 = 0x01 from h] at ht; cases ht
    · rintro (h | h) <;> rw [ht] at h <;> cases h
  · have hx : EcdsaTy.split ty = (.none, true) := by simp [EcdsaTy.split, ht]
    rw [hx] at e3 e4
    obtain ⟨p1, p2, p3⟩ := acp _ e3
    refine ⟨rfl, e1, e2, p1, ⟨a, b, ea, eb, p2, p3⟩, ?_, ?_, ?_, ?_⟩
    · rintro (h | h | h) <;> rw [ht] at h <;> cases h
    · intro h; rw [show ty.1 = 0x01 from h] at ht; cases ht
    · rintro (h | h) <;> rw [ht] at h <;> cases h
    · rintro (h | h) <;> rw [ht] at h <;> cases h
  · have hx : EcdsaTy.split ty = (.single, true) := by simp [EcdsaTy.split, ht]
    rw [hx] at e3 e4
    obtain ⟨p1, p2, p3⟩ := acp _ e3
    refine ⟨rfl, e1, e2, p1, ⟨a, b, ea, eb, p2, p3⟩, ?_, ?_, ?_, ?_⟩
    · rintro (h | h | h) <;> rw [ht] at h <;> cases h
    · intro h; rw [show ty.1 = 0x01 from h] at ht; cases ht
    · rintro (h | h) <;> rw [ht] at h <;> cases h
    · intro h; exact single (hb h) (hb' h) e4

/-! ### Concrete cases -/

/-- The dependencies of the examples. -/
abbrev SL : Lib := Demo.lib false
/-- An input spending output 0 of some transaction, with the given funding script. -/
def sIn (spk : Bytes) : Input SL := { Input.new SL ⟨Demo.rep 32 7, 0⟩ with witnessUtxo := some ⟨1000, spk⟩ }
/-- A PSBT with these inputs and one output. -/
def sP (is : List (Input SL)) : Psbt SL :=
  ⟨{ Global.new SL with inputCount := UInt64.ofNat is.length, outputCount := 1 }, is,
    [Output.new SL ⟨500, [0x51]⟩]⟩
def spkWpkh : Bytes := [0x00, 0x14] ++ List.replicate 20 9
def spkWsh : Bytes := [0x00, 0x20] ++ List.replicate 32 9
def spkSh : Bytes := [0xa9, 0x14] ++ List.replicate 20 9 ++ [0x87]
def spkTr : Bytes := [0x51, 0x20] ++ List.replicate 32 9
def spkBare : Bytes := [0x76, 0xa9, 0x14] ++ List.replicate 20 9 ++ [0x88, 0xac]
def spkUnknown : Bytes := [0x52, 0x20] ++ List.replicate 32 9
def sTx (p : Psbt SL) : Tx := match p.unsignedTx with | .ok t => t | .error _ => ⟨0, 0, [], []⟩

-- Every type of spend occurs.
example : (sP [sIn spkWpkh]).outputType 0 = .ok .wpkh := by decide +kernel
example : (sP [sIn spkWsh]).outputType 0 = .ok .wsh := by decide +kernel
example : (sP [sIn spkTr]).outputType 0 = .ok .tr := by decide +kernel
example : (sP [sIn spkBare]).outputType 0 = .ok .bare := by decide +kernel
example : (sP [sIn spkSh]).outputType 0 = .ok .sh := by decide +kernel
example : (sP [{ sIn spkSh with redeemScript := some spkWpkh }]).outputType 0 = .ok .shWpkh := by decide +kernel
example : (sP [{ sIn spkSh with redeemScript := some spkWsh }]).outputType 0 = .ok .shWsh := by decide +kernel
example : (sP [sIn spkUnknown]).outputType 0 = .error (.err .unknownOutputType) := by decide +kernel
-- The hypotheses of the C36 and C37 theorems are met.
example : Spec.HasInput (sP [sIn spkWpkh, sIn spkSh]) 1 (sIn spkSh) ∧ Spec.FundedBy (sIn spkSh) ⟨1000, spkSh⟩ ∧
    Spec.SpendType spkSh none .sh ∧ Spec.DeclaredType (sIn spkSh) ⟨0x01, by decide⟩ :=
  ⟨⟨rfl, by decide⟩, .witness rfl, .sh (isP2sh_iff.mp (by decide)) (fun _ h => by cases h), .inl ⟨rfl, rfl⟩⟩
example : ∃ m, (sP [sIn spkWpkh]).sighashEcdsa 0 (sTx (sP [sIn spkWpkh])) = .ok (m, ⟨0x01, by decide⟩) :=
  ⟨_, rfl⟩
example : ∃ m, (sP [{ sIn spkSh with redeemScript := some [0x51], sighashType := some 0x83 }]).sighashEcdsa 0
    (sTx (sP [sIn spkSh])) = .ok (m, ⟨0x83, by decide⟩) := ⟨_, rfl⟩
example : (sP [{ sIn spkWpkh with sighashType := some 0x04 }]).sighashEcdsa 0 (sTx (sP [sIn spkWpkh])) =
    .error (.err .invalidSighashType) := by decide +kernel
example : ∃ e, (sP [sIn spkWpkh]).sighashEcdsa 1 (sTx (sP [sIn spkWpkh])) = .error (.err (.index e)) := ⟨_, rfl⟩
-- The hypotheses of the commitment theorems are met by equal messages for different transactions.
example : (sTx (sP [sIn spkWpkh])).Small ∧
    ∃ m, segwitSighash SL (sTx (sP [sIn spkWpkh])) 0 [0x51] 5 ⟨0x82, by decide⟩ = some m ∧
      segwitSighash SL { sTx (sP [sIn spkWpkh]) with output := [] } 0 [0x51] 5 ⟨0x82, by decide⟩ = some m ∧
      { sTx (sP [sIn spkWpkh]) with output := [] } ≠ sTx (sP [sIn spkWpkh]) := by
  refine ⟨?_, _, rfl, by decide +kernel, by decide +kernel⟩
  unfold Tx.Small TxIn.Small; decide +kernel
example : (sTx (sP [sIn spkWpkh])).Small ∧
    ∃ m, legacySighash SL (sTx (sP [sIn spkWpkh])) 0 [0x51] ⟨0x02, by decide⟩ = some m ∧
      legacySighash SL { sTx (sP [sIn spkWpkh]) with output := [] } 0 [0x51] ⟨0x02, by decide⟩ = some m ∧
      { sTx (sP [sIn spkWpkh]) with output := [] } ≠ sTx (sP [sIn spkWpkh]) := by
  refine ⟨?_, _, rfl, by decide +kernel, by decide +kernel⟩
  unfold Tx.Small TxIn.Small; decide +kernel

/-- C37 fails in one respect: with a cache over a transaction that has fewer inputs than the PSBT, `sighash_ecdsa` panics
for a legacy input instead of returning an error. -/
theorem C37_panic_counterexample :
    ∃ (p : Psbt SL) (tx : Tx) (s : String), p.sighashEcdsa 0 tx = .error (.panic s) :=
  ⟨sP [sIn spkBare], ⟨2, 0, [], []⟩, "input checked above", by decide +kernel⟩
-- The other inputs give errors.
example : ¬ ∃ s, (sP [sIn spkWpkh]).sighashEcdsa 0 ⟨2, 0, [], []⟩ = .error (.panic s) := by
  rw [C37_panics_iff]
  rintro ⟨-, i, u, ty, ⟨h1, -⟩, h2, -, h3⟩
  cases h1
  cases h2 with
  | nonWitness h => cases h
  | witness h =>
    cases h
    rcases h3 with h3 | ⟨-, h⟩
    · cases h3 with | bare _ h => exact h ⟨0, List.replicate 20 9, .inl rfl, by decide, by decide, rfl⟩
    · exact h rfl

/-- C37 fails in another respect: for a legacy input with SINGLE and no output of the same index, the message is the
constant 1, not bound to the input, the transaction or the script at all. -/
theorem C37_single_counterexample (p : Psbt L) (n : Nat) (tx : Tx) (i : Input L) (u : TxOut) (hi : Spec.HasInput p n i)
    (hu : Spec.FundedBy i u) (hb : Spec.SpendType u.scriptPubkey i.redeemScript .bare) (hs : i.sighashType = some 0x03)
    (hn : n < tx.input.length) (ho : tx.output.length ≤ n) :
    p.sighashEcdsa n tx = .ok (uint256One, ⟨0x03, by decide⟩) := by
  refine (C37_sighash_iff p n tx _ _).mpr ⟨i, u, hi, hu, .inr hs, .bare hb ?_⟩
  unfold legacySighash
  rw [List.getElem?_eq_getElem hn]
  simp [EcdsaTy.split, ho]

example : (sP [sIn spkWpkh, { sIn spkBare with sighashType := some 0x03 }]).sighashEcdsa 1
    (sTx (sP [sIn spkWpkh, { sIn spkBare with sighashType := some 0x03 }])) = .ok (uint256One, ⟨0x03, by decide⟩) := by
  decide +kernel

end Psbt.V2
