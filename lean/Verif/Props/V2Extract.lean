/- C30-C32, C59: fees and extraction from PSBT v2. -/
import Verif.Model.V2.Extract
import Verif.Lemmas.Fee
import Verif.Props.V2LockTime
import Verif.Props.V2Roles
import Verif.Spec.Demo
namespace Psbt.V2
open Psbt

variable {L : Lib}

theorem fundingUtxo_ok {i : Input L} {u : TxOut} : i.fundingUtxo = .ok u ↔ Spec.FundedBy i u := by
  unfold Input.fundingUtxo
  constructor
  · intro h
    split at h
    · rename_i h1; cases h; exact .witness h1
    · rename_i h1
      split at h
      · rename_i h2
        split at h
        · rename_i h3; cases h; exact .nonWitness h1 h2 h3
        · cases h
      · cases h
  · intro h
    cases h with
    | witness h => rw [h]
    | nonWitness h1 h2 h3 => rw [h1, h2]; simp only [h3]

theorem fundingUtxo_err {i : Input L} {e : FundingErr} (h : i.fundingUtxo = .error e) : ∀ u, ¬ Spec.FundedBy i u := by
  intro u hu
  rw [fundingUtxo_ok.mpr hu] at h
  cases h

/-- C30. The output an input spends is reported exactly if it is known, and otherwise why it is not. -/
theorem C30_funding_utxo (i : Input L) : (∀ u, i.fundingUtxo = .ok u ↔ Spec.FundedBy i u) ∧
    ∀ e, i.fundingUtxo = .error e ↔ Spec.FundingFails i e := by
  refine ⟨fun u => fundingUtxo_ok, fun e => ?_⟩
  unfold Input.fundingUtxo
  cases h1 : i.witnessUtxo with
  | some u => constructor
              · intro h; cases h
              · intro h; cases e <;> (have := h.1; rw [h1] at this; cases this)
  | none =>
    cases h2 : i.nonWitnessUtxo with
    | none =>
      constructor
      · intro h; cases h; exact ⟨h1, h2⟩
      · intro h
        cases e with
        | missing => rfl
        | outOfBounds n len => obtain ⟨-, -, -, tx, h, -⟩ := h; rw [h2] at h; cases h
    | some tx =>
      simp only
      cases h3 : tx.output[i.spentOutputIndex.toNat]? with
      | some o =>
        constructor
        · intro h; cases h
        · intro h
          cases e with
          | missing => have := h.2; rw [h2] at this; cases this
          | outOfBounds n len =>
            obtain ⟨-, rfl, hl, tx', h, rfl⟩ := h
            rw [h2] at h; cases h
            have := (List.getElem?_eq_some_iff.mp h3).1
            omega
      | none =>
        constructor
        · intro h; cases h
          exact ⟨h1, rfl, List.getElem?_eq_none_iff.mp h3, tx, h2, rfl⟩
        · intro h
          cases e with
          | missing => have := h.2; rw [h2] at this; cases this
          | outOfBounds n len =>
            obtain ⟨-, rfl, hl, tx', h, rfl⟩ := h
            rw [h2] at h; cases h; rfl

theorem funding_iff {is : List (Input L)} {us : List TxOut} :
    is.map Input.fundingUtxo = us.map .ok ↔ Spec.Funding is us := by
  induction is generalizing us with
  | nil =>
    constructor
    · intro h
      have : us = [] := by simpa using h.symm
      subst this; exact .nil
    · intro h; cases h; rfl
  | cons i is ih =>
    constructor
    · intro h
      cases us with
      | nil => simp at h
      | cons u us =>
        simp only [List.map_cons, List.cons.injEq] at h
        exact .cons (fundingUtxo_ok.mp h.1) (ih.mp h.2)
    · intro h
      cases h with
      | cons h1 h2 => simp only [List.map_cons, fundingUtxo_ok.mpr h1, ih.mpr h2]

/-- C30. The fee is `f` exactly if every input is funded, both sums fit 64 bits, and the inputs' sum is the outputs'
plus `f` - in unbounded arithmetic. -/
theorem C30_fee_iff (p : Psbt L) (f : UInt64) : p.fee = .ok f ↔
    ∃ us, Spec.Funding p.inputs us ∧ Spec.total (us.map TxOut.value) < 2 ^ 64 ∧ Spec.totalOut p < 2 ^ 64 ∧
      Spec.total (us.map TxOut.value) = Spec.totalOut p + f.toNat := by
  unfold Psbt.fee Psbt.fundingUtxos
  simp only [bind_ok]
  constructor
  · rintro ⟨i, h1, o, h2, h3⟩
    obtain ⟨us, h4, h5⟩ := sumInputs_ok.mp h1
    rw [sumOutputs_ok] at h2
    split at h3
    · rename_i g hg
      cases h3
      rw [checkedSub_some] at hg
      refine ⟨us, funding_iff.mp h4, ?_, ?_, ?_⟩
      · have := i.toNat_lt; simp only [UInt64.toNat_zero] at h5; omega
      · have := o.toNat_lt; simp only [UInt64.toNat_zero] at h2; unfold Spec.totalOut; omega
      · simp only [UInt64.toNat_zero] at h2 h5; unfold Spec.totalOut; omega
    · cases h3
  · rintro ⟨us, h1, h2, h3, h4⟩
    have ei : (UInt64.ofNat (Spec.total (us.map TxOut.value))).toNat = Spec.total (us.map TxOut.value) := by
      rw [UInt64.toNat_ofNat']; exact Nat.mod_eq_of_lt h2
    have eo : (UInt64.ofNat (Spec.totalOut p)).toNat = Spec.totalOut p := by
      rw [UInt64.toNat_ofNat']; exact Nat.mod_eq_of_lt h3
    refine ⟨UInt64.ofNat (Spec.total (us.map TxOut.value)), sumInputs_ok.mpr ⟨us, funding_iff.mpr h1, ?_⟩,
      UInt64.ofNat (Spec.totalOut p), sumOutputs_ok.mpr ?_, ?_⟩
    · rw [ei]; simp
    · rw [eo]; simp [Spec.totalOut]
    · have : checkedSub (UInt64.ofNat (Spec.total (us.map TxOut.value))) (UInt64.ofNat (Spec.totalOut p)) = some f := by
        rw [checkedSub_some, ei, eo, h4]
      rw [this]

/-- C30. What each error means. (By `C30_fee_iff` a fee is returned in all other cases.) -/
theorem C30_errors {p : Psbt L} {e : FeeErr} (h : p.fee = .error e) :
    match e with
    | .fundingUtxo f => ∃ i ∈ p.inputs, Spec.FundingFails i f
    | .inputOverflow => ∃ is us, is <+: p.inputs ∧ Spec.Funding is us ∧ 2 ^ 64 ≤ Spec.total (us.map TxOut.value)
    | .outputOverflow => (∃ us, Spec.Funding p.inputs us) ∧ 2 ^ 64 ≤ Spec.totalOut p
    | .negative => ∃ us, Spec.Funding p.inputs us ∧ Spec.total (us.map TxOut.value) < Spec.totalOut p := by
  unfold Psbt.fee Psbt.fundingUtxos at h
  cases h1 : sumInputs 0 (p.inputs.map Input.fundingUtxo) with
  | error e1 =>
    rw [h1] at h
    cases h
    rcases sumInputs_err h1 with ⟨f, rfl, h2⟩ | ⟨rfl, us, h2, h3⟩
    · obtain ⟨i, h3, h4⟩ := List.mem_map.mp h2
      exact ⟨i, h3, ((C30_funding_utxo i).2 f).mp h4⟩
    · refine ⟨p.inputs.take us.length, us, List.take_prefix _ _, ?_, ?_⟩
      · rw [← funding_iff, List.map_take]
        have := List.prefix_iff_eq_take.mp h2
        rw [List.length_map] at this
        exact this.symm
      · simpa using h3
  | ok i =>
    obtain ⟨us, h4, h5⟩ := sumInputs_ok.mp h1
    rw [h1] at h
    simp only [ok_bind] at h
    cases h2 : sumOutputs 0 (p.outputs.map Output.amount) with
    | error e2 =>
      rw [h2] at h
      cases h
      obtain ⟨rfl, h3⟩ := sumOutputs_err.mp h2
      exact ⟨⟨us, funding_iff.mp h4⟩, by simpa [Spec.totalOut] using h3⟩
    | ok o =>
      rw [h2] at h
      simp only [ok_bind] at h
      rw [sumOutputs_ok] at h2
      split at h
      · cases h
      · rename_i hs
        cases h
        rw [checkedSub_none] at hs
        refine ⟨us, funding_iff.mp h4, ?_⟩
        simp only [UInt64.toNat_zero] at h2 h5
        unfold Spec.totalOut
        omega

section Examples
abbrev EL : Lib := Demo.lib false
def eIn (v : UInt64) : Input EL := { Input.new EL ⟨Demo.rep 32 1, 0⟩ with witnessUtxo := some ⟨v, [1]⟩ }
def eLegacy (v : UInt64) : Input EL := { Input.new EL ⟨Demo.rep 32 2, 1⟩ with nonWitnessUtxo := some ⟨2, 0, [], [⟨1, []⟩, ⟨v, [2]⟩]⟩ }
def eP (is : List (Input EL)) (vs : List UInt64) : Psbt EL := ⟨Global.new EL, is, vs.map fun v => Output.new EL ⟨v, [9]⟩⟩
def eFin (i : Input EL) : Input EL := { i with finalScriptSig := some [], finalScriptWitness := some [[1, 2]] }
example : (eP [eIn 70, eLegacy 50] [30, 80]).fee = .ok 10 := by decide
example : (eP [eIn 0xFFFFFFFFFFFFFFFF, eIn 1] [1]).fee = .error .inputOverflow := by decide
example : (eP [eIn 1] [0xFFFFFFFFFFFFFFFF, 1]).fee = .error .outputOverflow := by decide
example : (eP [eIn 1] [2]).fee = .error .negative := by decide
example : (eP [eIn 1, Input.new EL ⟨Demo.rep 32 1, 0⟩] [2]).fee = .error (.fundingUtxo .missing) := by decide
example : (eP [eIn 1, { eLegacy 5 with spentOutputIndex := 2 }] [2]).fee = .error (.fundingUtxo (.outOfBounds 2 2)) := by decide
end Examples

/-! ### C31 -/

theorem notFinalized_iff (p : Psbt L) : p.inputs.any (fun i => !i.isFinalized) = false ↔ p.isFinalized = true := by
  simp [Psbt.isFinalized, List.all_eq_true, List.any_eq_false]

theorem isFinalized_iff (i : Input L) : i.isFinalized = true ↔ i.finalScriptSig ≠ none ∧ i.finalScriptWitness ≠ none := by
  unfold Input.isFinalized
  cases i.finalScriptSig <;> cases i.finalScriptWitness <;> simp

theorem extractorNew_ok {p q : Psbt L} : Extractor.new p = .ok q ↔
    q = p ∧ p.isFinalized = true ∧ ∃ n, p.determineLockTime = .ok n := by
  unfold Extractor.new
  split
  · rename_i h
    simp only [reduceCtorEq, false_iff, not_and]
    intro _ hf
    rw [(notFinalized_iff p).mpr hf] at h
    cases h
  · rename_i h
    have hf := (notFinalized_iff p).mp (by simpa using h)
    split
    · rename_i n hn
      simp only [Except.ok.injEq]
      exact ⟨fun h => ⟨h.symm, hf, n, hn⟩, fun h => h.1.symm⟩
    · rename_i e he; simp [he]
    · rename_i e he; simp [he]

/-- C31. An extractor is obtained exactly for a PSBT whose inputs all have a final scriptSig and witness and whose lock
time can be determined; it holds that PSBT. It never panics. -/
theorem C31_extractor_iff (p : Psbt L) :
    (∀ q, Extractor.new p = .ok q ↔ q = p ∧
      (∀ i ∈ p.inputs, i.finalScriptSig ≠ none ∧ i.finalScriptWitness ≠ none) ∧ ∃ n, Spec.LockTime p n ∧ ¬ Spec.Conflict p) ∧
    ∀ why, Extractor.new p ≠ .error (.panic why) := by
  constructor
  · intro q
    rw [extractorNew_ok]
    have h1 : p.isFinalized = true ↔ ∀ i ∈ p.inputs, i.finalScriptSig ≠ none ∧ i.finalScriptWitness ≠ none := by
      simp only [Psbt.isFinalized, List.all_eq_true, isFinalized_iff]
    have h2 : (∃ n, p.determineLockTime = .ok n) ↔ ∃ n, Spec.LockTime p n ∧ ¬ Spec.Conflict p := by
      constructor
      · rintro ⟨n, h⟩
        refine ⟨n, (C17_lock_time_iff p n).mp h, ?_⟩
        intro hc
        have := (C17_error_iff p .conflict).mpr hc
        rw [h] at this; cases this
      · rintro ⟨n, h, -⟩
        exact ⟨n, (C17_lock_time_iff p n).mpr h⟩
    rw [h1, h2]
  · intro why h
    unfold Extractor.new at h
    split at h
    · cases h
    · split at h
      · cases h
      · cases h
      · rename_i s hs; exact C18_never_panics p s hs

/-- C31. What a refusal to make an extractor means: some input lacks a final script, or all are final and no lock time
suits all inputs. Each refusal is given exactly then. -/
theorem C31_refusals (p : Psbt L) (e : ExtractErr) : Extractor.new p = .error (.err e) ↔
    (e = .notFinalized ∧ ∃ i ∈ p.inputs, i.finalScriptSig = none ∨ i.finalScriptWitness = none) ∨
    (e = .lockTime .conflict ∧ (∀ i ∈ p.inputs, i.finalScriptSig ≠ none ∧ i.finalScriptWitness ≠ none) ∧ Spec.Conflict p) := by
  have h1 : p.isFinalized = true ↔ ∀ i ∈ p.inputs, i.finalScriptSig ≠ none ∧ i.finalScriptWitness ≠ none := by
    simp only [Psbt.isFinalized, List.all_eq_true, isFinalized_iff]
  have h2 : (∃ i ∈ p.inputs, i.finalScriptSig = none ∨ i.finalScriptWitness = none) ↔ ¬ p.isFinalized = true := by
    rw [h1]
    constructor
    · rintro ⟨i, hi, h⟩ hall
      rcases h with h | h
      · exact (hall i hi).1 h
      · exact (hall i hi).2 h
    · intro h
      apply Classical.byContradiction
      intro hn
      refine h fun i hi => ⟨fun hh => hn ⟨i, hi, .inl hh⟩, fun hh => hn ⟨i, hi, .inr hh⟩⟩
  rw [h2, ← h1]
  unfold Extractor.new
  split
  · rename_i h
    have hf : ¬ p.isFinalized = true := fun hf => by rw [(notFinalized_iff p).mpr hf] at h; cases h
    simp only [Except.error.injEq, Fail.err.injEq]
    constructor
    · rintro rfl; exact .inl ⟨rfl, hf⟩
    · rintro (⟨rfl, -⟩ | ⟨-, hf', -⟩)
      · rfl
      · exact absurd hf' hf
  · rename_i h
    have hf := (notFinalized_iff p).mp (by simpa using h)
    split
    · rename_i n hn
      constructor
      · intro h; cases h
      · rintro (⟨-, h⟩ | ⟨-, -, hc⟩)
        · exact absurd hf h
        · rw [(C17_error_iff p .conflict).mpr hc] at hn; cases hn
    · rename_i e' he
      have hc := (C17_error_iff p e').mp he
      constructor
      · intro h
        cases h
        cases e'
        exact .inr ⟨rfl, hf, hc⟩
      · rintro (⟨-, h⟩ | ⟨rfl, -, -⟩)
        · exact absurd hf h
        · cases e'; rfl
    · rename_i s hs; exact absurd hs (C18_never_panics p s)

example : Extractor.new (eP [eFin (eIn 5), eIn 5] [3]) = .error (.err .notFinalized) :=
  (C31_refusals _ _).mpr (.inl ⟨rfl, eIn 5, by decide, by decide⟩)
example : Extractor.new (eP [{ eFin (eIn 5) with minTime := some ⟨500000000, by decide⟩ },
    { eFin (eIn 5) with minHeight := some ⟨7, by decide⟩ }] [3]) = .error (.err (.lockTime .conflict)) := by decide

/-- An input and the transaction input extracted from it. -/
def Spec.Extracted (i : Input L) (t : TxIn) : Prop :=
  t.previousOutput = ⟨i.previousTxid, i.spentOutputIndex⟩ ∧ i.finalScriptSig = some t.scriptSig ∧
  i.finalScriptWitness = some t.witness ∧ (i.sequence = some t.sequence ∨ i.sequence = none ∧ t.sequence = 0xFFFFFFFF)

theorem signedTxIn_ok {i : Input L} {t : TxIn} : i.signedTxIn = .ok t ↔ Spec.Extracted i t := by
  unfold Input.signedTxIn Spec.Extracted
  cases h1 : i.finalScriptSig with
  | none => simp
  | some s =>
    cases h2 : i.finalScriptWitness with
    | none => simp
    | some w =>
      obtain ⟨o, s', q, w'⟩ := t
      simp only [Except.ok.injEq, TxIn.mk.injEq, Option.some.injEq, Input.outPoint]
      cases i.sequence with
      | none =>
        simp only [Option.getD_none, SEQUENCE_MAX, reduceCtorEq, false_or, true_and]
        constructor
        · rintro ⟨rfl, rfl, rfl, rfl⟩; simp
        · rintro ⟨rfl, rfl, rfl, rfl⟩; simp
      | some n =>
        simp only [Option.getD_some, Option.some.injEq, reduceCtorEq, false_and, or_false]
        constructor
        · rintro ⟨rfl, rfl, rfl, rfl⟩; simp
        · rintro ⟨rfl, rfl, rfl, rfl⟩; simp

theorem finalized_signed {is : List (Input L)} (h : ∀ i ∈ is, i.isFinalized = true) :
    ∃ ts : List TxIn, is.map Input.signedTxIn = ts.map .ok := by
  induction is with
  | nil => exact ⟨[], rfl⟩
  | cons i is ih =>
    obtain ⟨ts, e⟩ := ih (fun j hj => h j (by simp [hj]))
    have hi := (isFinalized_iff i).mp (h i (by simp))
    obtain ⟨s, hs⟩ := Option.ne_none_iff_exists'.mp hi.1
    obtain ⟨w, hw⟩ := Option.ne_none_iff_exists'.mp hi.2
    have e2 : i.signedTxIn = .ok ⟨i.outPoint, s, i.sequence.getD SEQUENCE_MAX, w⟩ := by
      unfold Input.signedTxIn
      rw [hs, hw]
    exact ⟨⟨i.outPoint, s, i.sequence.getD SEQUENCE_MAX, w⟩ :: ts, by simp only [List.map_cons, e, e2]⟩

theorem extractUnchecked_ok {p : Psbt L} {t : Tx} : Extractor.extractUnchecked p = .ok t ↔
    p.isFinalized = true ∧ ∃ n ts, p.determineLockTime = .ok n ∧ p.inputs.map Input.signedTxIn = ts.map .ok ∧
      t = ⟨p.global.txVersion, n, ts, p.outputs.map Output.txOut⟩ := by
  unfold Extractor.extractUnchecked
  by_cases hf : p.isFinalized = true
  · rw [hf]
    simp only [Bool.not_true, Bool.false_eq_true, if_false, true_and]
    cases hn : p.determineLockTime with
    | error e => cases e <;> simp
    | ok n =>
      simp only [bind_ok, Except.ok.injEq]
      constructor
      · rintro ⟨ts, h1, h2⟩
        refine ⟨n, ts, rfl, collect_ok.mp ?_, h2.symm⟩
        cases e : collect (p.inputs.map Input.signedTxIn) with
        | ok l => rw [e] at h1; cases h1; rfl
        | error x => rw [e] at h1; cases x with
          | err e' => exact e'.elim
          | panic s => cases h1
      · rintro ⟨n', ts, rfl, h1, rfl⟩
        exact ⟨ts, by rw [collect_ok.mpr h1]; rfl, rfl⟩
  · simp [hf]

/-- C31. From an extractor a transaction always comes out, without any panic: version and lock time of the PSBT, one
input per PSBT input with its outpoint, final scripts and sequence number (the maximum if it has none), and the PSBT's
outputs, all in order. -/
theorem C31_extraction {p : Psbt L} (h : Extractor.new p = .ok p) :
    ∃ t, Extractor.extractUnchecked p = .ok t ∧ t.version = p.global.txVersion ∧ Spec.LockTime p t.lockTime ∧
      (t.input.length = p.inputs.length ∧
        ∀ (k : Nat) i x, p.inputs[k]? = some i → t.input[k]? = some x → Spec.Extracted i x) ∧
      t.output = p.outputs.map fun o => ⟨o.amount, o.scriptPubkey⟩ := by
  obtain ⟨-, hf, n, hn⟩ := extractorNew_ok.mp h
  have hf' := hf
  simp only [Psbt.isFinalized, List.all_eq_true] at hf'
  obtain ⟨ts, hts⟩ := finalized_signed hf'
  refine ⟨_, extractUnchecked_ok.mpr ⟨hf, n, ts, hn, hts, rfl⟩, rfl, (C17_lock_time_iff p n).mp hn, ⟨?_, ?_⟩, rfl⟩
  · have := congrArg List.length hts
    simpa using this.symm
  · intro k i x e1 e2
    have := congrArg (fun l => l[k]?) hts
    simp only [List.getElem?_map, e1, e2, Option.map_some, Option.some.injEq] at this
    exact signedTxIn_ok.mp this

theorem extractorNew_self {p q : Psbt L} (h : Extractor.new p = .ok q) : q = p := (extractorNew_ok.mp h).1

/-- C31. The extractor's id never panics. -/
theorem C31_id_never_panics {p : Psbt L} (h : Extractor.new p = .ok p) : ∃ x, Extractor.id p = .ok x ∧ p.id = .ok x := by
  obtain ⟨-, -, n, hn⟩ := extractorNew_ok.mp h
  obtain ⟨x, hx⟩ : ∃ x, p.id = .ok x := ⟨_, id_ok.mpr ⟨n, hn, rfl⟩⟩
  exact ⟨x, by unfold Extractor.id; rw [hx]; rfl, hx⟩

example : Extractor.new (eP [eFin (eIn 5)] [3]) = .ok (eP [eFin (eIn 5)] [3]) := by
  rw [extractorNew_ok]; exact ⟨rfl, by decide, 0, by decide⟩

/-! ### C32 -/

/-- C32. Exactly when extraction with a limit returns a transaction: the fee is known and the rate - a thousand times
the fee, at most 2^64-1, divided by the weight, rounded down - is within the limit; the transaction is the one extracted
without a limit. -/
theorem C32_with_limit_iff {p : Psbt L} (max : UInt64) (t : Tx) :
    Extractor.extractWithLimit p max = .ok t ↔
    Extractor.extractUnchecked p = .ok t ∧ ∃ f, p.fee = .ok f ∧ min (f.toNat * 1000) (2 ^ 64 - 1) < (max.toNat + 1) * t.weight := by
  unfold Extractor.extractWithLimit
  cases hf : p.fee with
  | error e => simp
  | ok f =>
    simp only [Except.ok.injEq, exists_eq_left']
    cases ht : Extractor.extractUnchecked p with
    | error e => cases e <;> simp
    | ok tx =>
      have hw := weight_pos tx
      simp only [Except.ok.injEq]
      rw [if_neg (by omega)]
      have key : feeRate f tx.weight > max.toNat ↔ ¬ min (f.toNat * 1000) (2 ^ 64 - 1) < (max.toNat + 1) * tx.weight := by
        unfold feeRate
        rw [gt_iff_lt, ← Nat.div_lt_iff_lt_mul hw]
        omega
      split
      · rename_i h
        simp only [reduceCtorEq, false_iff, not_and]
        rintro rfl
        exact key.mp h
      · rename_i h
        simp only [Except.ok.injEq]
        constructor
        · rintro rfl; exact ⟨rfl, Decidable.not_not.mp (fun hh => h (key.mpr hh))⟩
        · rintro ⟨rfl, -⟩; rfl

/-- C32. In terms of the real fee rate, for fees below 2^64/1000 satoshi (more than exist): a transaction is returned
exactly if the rate, rounded down to whole satoshi per kilo weight unit, does not exceed the limit. -/
theorem C32_rate_partial {p : Psbt L} {f : UInt64} {t : Tx} (max : UInt64) (hf : p.fee = .ok f)
    (ht : Extractor.extractUnchecked p = .ok t) (hbig : f.toNat * 1000 < 2 ^ 64) :
    Extractor.extractWithLimit p max = .ok t ↔ f.toNat * 1000 / t.weight ≤ max.toNat := by
  rw [C32_with_limit_iff, ← Nat.lt_succ_iff, Nat.div_lt_iff_lt_mul (weight_pos t)]
  constructor
  · rintro ⟨-, f', h1, h2⟩
    rw [hf] at h1
    cases h1
    have : min (f.toNat * 1000) (2 ^ 64 - 1) = f.toNat * 1000 := by omega
    rwa [this] at h2
  · intro h
    refine ⟨ht, f, hf, ?_⟩
    have : min (f.toNat * 1000) (2 ^ 64 - 1) = f.toNat * 1000 := by omega
    rwa [this]

/-- C32 fails for absurd fees: the multiplication saturates, so a fee of 2^64-1 satoshi passes a limit its rate exceeds. -/
theorem C32_saturation_counterexample : ∃ (p : Psbt EL) (f : UInt64) (t : Tx) (max : UInt64), p.fee = .ok f ∧
    Extractor.extractWithLimit p max = .ok t ∧ max.toNat < f.toNat * 1000 / t.weight := by
  refine ⟨eP [eFin (eIn 0xFFFFFFFFFFFFFFFF)] [0], 0xFFFFFFFFFFFFFFFF,
    ⟨2, 0, [⟨⟨Demo.rep 32 1, 0⟩, [], 0xFFFFFFFF, [[1, 2]]⟩], [⟨0, [9]⟩]⟩, 0x1000000000000000, by decide, ?_, by decide⟩
  rw [C32_with_limit_iff]
  refine ⟨by decide, 0xFFFFFFFFFFFFFFFF, by decide, by decide⟩

/-- C32. If the rate is over the limit (fees below 2^64/1000 satoshi), the error says so, with both rates. -/
theorem C32_too_high {p : Psbt L} {f : UInt64} {t : Tx} (max : UInt64) (hf : p.fee = .ok f)
    (ht : Extractor.extractUnchecked p = .ok t) (hbig : f.toNat * 1000 < 2 ^ 64) (h : max.toNat < f.toNat * 1000 / t.weight) :
    Extractor.extractWithLimit p max = .error (.err (.feeTooHigh (f.toNat * 1000 / t.weight) max.toNat)) := by
  unfold Extractor.extractWithLimit
  have hw := weight_pos t
  have hr : feeRate f t.weight = f.toNat * 1000 / t.weight := by
    unfold feeRate
    rw [Nat.min_eq_left (by omega)]
  simp only [hf, ht]
  rw [if_neg (by omega), hr, if_pos h]

/-- C32. The default limit is 25,000 satoshi per virtual byte; one satoshi per virtual byte is 250 satoshi per kilo
weight unit. -/
theorem C32_default_partial {p : Psbt L} {f : UInt64} {t : Tx} (hf : p.fee = .ok f)
    (ht : Extractor.extractUnchecked p = .ok t) (hbig : f.toNat * 1000 < 2 ^ 64) :
    Extractor.extractTx p = .ok t ↔ f.toNat * 1000 / t.weight ≤ 25000 * 250 := by
  unfold Extractor.extractTx
  rw [C32_rate_partial _ hf ht hbig]
  have : DEFAULT_MAX_FEE_RATE.toNat = 25000 * 250 := by decide
  rw [this]

/-- C32. From an extractor, extraction with a limit never panics, and fails only for the fee or the rate. -/
theorem C32_never_panics {p : Psbt L} (h : Extractor.new p = .ok p) (max : UInt64) :
    (∃ t, Extractor.extractWithLimit p max = .ok t) ∨ (∃ e, Extractor.extractWithLimit p max = .error (.err (.fee e)) ∧ p.fee = .error e) ∨
    (∃ r, Extractor.extractWithLimit p max = .error (.err (.feeTooHigh r max.toNat)) ∧ max.toNat < r) := by
  obtain ⟨t, ht, -⟩ := C31_extraction h
  unfold Extractor.extractWithLimit
  have hw := weight_pos t
  cases hf : p.fee with
  | error e => exact .inr (.inl ⟨e, rfl, rfl⟩)
  | ok f =>
    simp only [ht]
    rw [if_neg (by omega)]
    split
    · rename_i h; exact .inr (.inr ⟨_, rfl, h⟩)
    · exact .inl ⟨t, rfl⟩

example : ∃ t, Extractor.extractTx (eP [eFin (eIn 5000)] [3000]) = .ok t := by
  refine ⟨⟨2, 0, [⟨⟨Demo.rep 32 1, 0⟩, [], 0xFFFFFFFF, [[1, 2]]⟩], [⟨3000, [9]⟩]⟩, ?_⟩
  unfold Extractor.extractTx
  rw [C32_with_limit_iff]
  exact ⟨by decide, 2000, by decide, by decide⟩

/-! ### C59 -/

/-- A transaction without its scriptSigs and witnesses. -/
def Spec.stripped (t : Tx) : Tx := { t with input := t.input.map fun i => { i with scriptSig := [], witness := [] } }

/-- C59 fails: with an omitted sequence number, the transaction signers sign has sequence number 0, and the transaction
extracted has 0xFFFFFFFF. -/
theorem C59_counterexample : ∃ (p : Psbt EL) (t u : Tx), Extractor.new p = .ok p ∧ Extractor.extractUnchecked p = .ok t ∧
    p.unsignedTx = .ok u ∧ u ≠ Spec.stripped t :=
  ⟨eP [eFin (eIn 5)] [3], ⟨2, 0, [⟨⟨Demo.rep 32 1, 0⟩, [], 0xFFFFFFFF, [[1, 2]]⟩], [⟨3, [9]⟩]⟩,
    ⟨2, 0, [⟨⟨Demo.rep 32 1, 0⟩, [], 0, []⟩], [⟨3, [9]⟩]⟩,
    by rw [extractorNew_ok]; exact ⟨rfl, by decide, 0, by decide⟩, by decide, by decide, by decide⟩

/-- C59. If every input states its sequence number, the extracted transaction without scriptSigs and witnesses is
exactly the unsigned transaction. -/
theorem C59_partial {p : Psbt L} {t : Tx} (hs : ∀ i ∈ p.inputs, i.sequence ≠ none)
    (ht : Extractor.extractUnchecked p = .ok t) : p.unsignedTx = .ok (Spec.stripped t) := by
  obtain ⟨-, n, ts, hn, h1, rfl⟩ := extractUnchecked_ok.mp ht
  rw [unsignedTx_ok]
  refine ⟨n, hn, ?_⟩
  unfold Spec.stripped
  simp only [Tx.mk.injEq, true_and, and_true]
  apply List.ext_getElem?
  intro k
  have := congrArg (fun l => l[k]?) h1
  simp only [List.getElem?_map] at this ⊢
  cases e1 : p.inputs[k]? with
  | none =>
    rw [e1] at this
    cases e2 : ts[k]? with
    | none => rfl
    | some x => rw [e2] at this; simp at this
  | some i =>
    rw [e1] at this
    cases e2 : ts[k]? with
    | none => rw [e2] at this; simp at this
    | some x =>
      rw [e2] at this
      simp only [Option.map_some, Option.some.injEq] at this ⊢
      obtain ⟨h2, -, -, h5⟩ := signedTxIn_ok.mp this
      have hi := hs i (List.mem_of_getElem? e1)
      rcases h5 with h5 | ⟨h5, -⟩
      · simp only [Input.unsignedTxIn, h2, h5, Option.getD_some, Input.outPoint]
      · exact absurd h5 hi

example : ∃ t, Extractor.extractUnchecked (eP [{ eFin (eIn 5) with sequence := some 7 }] [3]) = .ok t ∧ t.input.length = 1 :=
  ⟨⟨2, 0, [⟨⟨Demo.rep 32 1, 0⟩, [], 7, [[1, 2]]⟩], [⟨3, [9]⟩]⟩, by decide, by decide⟩

end Psbt.V2
