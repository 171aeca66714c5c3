/- C49: fees and extraction from PSBT v0. -/
import Verif.Model.V0.Extract
import Verif.Lemmas.Fee
import Verif.Spec.V0Fee
import Verif.Props.V0Combine
namespace Psbt.V0
open Psbt

variable {L : Lib}

theorem sumOutputs_ok {acc r : UInt64} {l : List TxOut} :
    sumOutputs acc l = .ok r ↔ r.toNat = acc.toNat + Spec.total (l.map TxOut.value) := by
  rw [← Psbt.sumOutputs_ok]
  induction l generalizing acc with
  | nil => simp only [sumOutputs, List.map_nil, Psbt.sumOutputs, Except.ok.injEq]
  | cons a l ih =>
    simp only [sumOutputs, List.map_cons, Psbt.sumOutputs]
    cases checkedAdd acc a.value with
    | none => simp
    | some b => exact ih

theorem sumOutputs_err {acc : UInt64} {l : List TxOut} {e : Err} (h : sumOutputs acc l = .error e) :
    e = .feeOverflow ∧ 2 ^ 64 ≤ acc.toNat + Spec.total (l.map TxOut.value) := by
  induction l generalizing acc with
  | nil => cases h
  | cons a l ih =>
    simp only [sumOutputs] at h
    have ht : Spec.total ((a :: l).map TxOut.value) = a.value.toNat + Spec.total (l.map TxOut.value) := by simp [Spec.total]
    cases e' : checkedAdd acc a.value with
    | none => rw [e'] at h; cases h; rw [checkedAdd_none] at e'; exact ⟨rfl, by omega⟩
    | some b =>
      rw [e'] at h
      rw [checkedAdd_some] at e'
      obtain ⟨h1, h2⟩ := ih h
      exact ⟨h1, by omega⟩

theorem sumInputs_ok {acc r : UInt64} {l : List (Except Err TxOut)} :
    sumInputs acc l = .ok r ↔ ∃ us : List TxOut, l = us.map .ok ∧ r.toNat = acc.toNat + Spec.total (us.map TxOut.value) := by
  constructor
  · intro h
    induction l generalizing acc with
    | nil => cases h; exact ⟨[], rfl, by simp [Spec.total]⟩
    | cons a l ih =>
      simp only [sumInputs] at h
      cases a with
      | error e => cases h
      | ok u =>
        cases e : checkedAdd acc u.value with
        | none => simp only [e] at h; cases h
        | some b =>
          simp only [e] at h
          rw [checkedAdd_some] at e
          obtain ⟨us, h1, h2⟩ := ih h
          exact ⟨u :: us, by rw [h1]; rfl, by simp only [Spec.total, List.map_cons, List.sum_cons] at h2 ⊢; omega⟩
  · rintro ⟨us, rfl, h⟩
    induction us generalizing acc with
    | nil =>
      simp only [Spec.total, List.map_nil, List.sum_nil, Nat.add_zero] at h
      simp only [List.map_nil, sumInputs, UInt64.toNat_inj.mp h]
    | cons u us ih =>
      simp only [Spec.total, List.map_cons, List.sum_cons] at h
      cases e : checkedAdd acc u.value with
      | none => rw [checkedAdd_none] at e; have := r.toNat_lt; omega
      | some b =>
        simp only [List.map_cons, sumInputs, e]
        rw [checkedAdd_some] at e
        exact ih (by simp only [Spec.total]; omega)

theorem sumInputs_err {acc : UInt64} {l : List (Except Err TxOut)} {e : Err} (h : sumInputs acc l = .error e) :
    .error e ∈ l ∨
    (e = .feeOverflow ∧ ∃ us : List TxOut, us.map .ok <+: l ∧ 2 ^ 64 ≤ acc.toNat + Spec.total (us.map TxOut.value)) := by
  induction l generalizing acc with
  | nil => cases h
  | cons a l ih =>
    simp only [sumInputs] at h
    cases a with
    | error f => cases h; exact .inl (by simp)
    | ok u =>
      cases e' : checkedAdd acc u.value with
      | none =>
        simp only [e'] at h; cases h
        rw [checkedAdd_none] at e'
        exact .inr ⟨rfl, [u], by simp, by simp [Spec.total]; omega⟩
      | some b =>
        simp only [e'] at h
        rw [checkedAdd_some] at e'
        rcases ih h with h2 | ⟨h1, us, h2, h3⟩
        · exact .inl (by simp [h2])
        · refine .inr ⟨h1, u :: us, by simpa using h2, ?_⟩
          have : Spec.total ((u :: us).map TxOut.value) = u.value.toNat + Spec.total (us.map TxOut.value) := by simp [Spec.total]
          omega

theorem fundingUtxo_ok {t : TxIn} {i : Input L} {u : TxOut} : fundingUtxo t i = .ok u ↔ Spec.V0.FundedBy t i u := by
  unfold fundingUtxo
  constructor
  · intro h
    cases h1 : i.witnessUtxo with
    | some w => rw [h1] at h; cases h; exact .witness h1
    | none =>
      rw [h1] at h
      cases h2 : i.nonWitnessUtxo with
      | none => rw [h2] at h; cases h
      | some tx =>
        rw [h2] at h
        simp only at h
        split at h
        · rename_i h3; cases h; exact .nonWitness h1 h2 h3
        · cases h
  · intro h
    cases h with
    | witness h => rw [h]
    | nonWitness h1 h2 h3 => rw [h1, h2]; simp only [h3]

theorem fundingZip_ok {ts : List TxIn} {is : List (Input L)} {us : List TxOut} (hl : is.length = ts.length) :
    fundingZip ts is = us.map .ok ↔ Spec.V0.Funding ts is us := by
  induction ts generalizing is us with
  | nil =>
    cases is with
    | cons i is => simp at hl
    | nil =>
      simp only [fundingZip]
      constructor
      · intro h
        have : us = [] := by simpa using h.symm
        subst this; exact .nil
      · intro h; cases h; rfl
  | cons t ts ih =>
    cases is with
    | nil => simp at hl
    | cons i is =>
      simp only [List.length_cons, Nat.add_right_cancel_iff] at hl
      simp only [fundingZip]
      constructor
      · intro h
        cases us with
        | nil => simp at h
        | cons u us =>
          simp only [List.map_cons, List.cons.injEq] at h
          exact .cons (fundingUtxo_ok.mp h.1) ((ih hl).mp h.2)
      · intro h
        cases h with
        | cons h1 h2 => simp only [List.map_cons, fundingUtxo_ok.mpr h1, (ih hl).mpr h2]

theorem fundingZip_mem {ts : List TxIn} {is : List (Input L)} {e : Except Err TxOut} (h : e ∈ fundingZip ts is) :
    ∃ (k : Nat) (t : TxIn) (i : Input L), ts[k]? = some t ∧ is[k]? = some i ∧ fundingUtxo t i = e := by
  induction ts generalizing is with
  | nil => simp [fundingZip] at h
  | cons t ts ih =>
    cases is with
    | nil => simp [fundingZip] at h
    | cons i is =>
      simp only [fundingZip, List.mem_cons] at h
      rcases h with rfl | h
      · exact ⟨0, t, i, rfl, rfl, rfl⟩
      · obtain ⟨k, t', i', h1, h2, h3⟩ := ih h
        exact ⟨k + 1, t', i', by simpa using h1, by simpa using h2, h3⟩

theorem fundingZip_prefix {ts : List TxIn} {is : List (Input L)} {us : List TxOut} (hl : is.length = ts.length)
    (h : us.map .ok <+: fundingZip ts is) : Spec.V0.Funding (ts.take us.length) (is.take us.length) us := by
  induction us generalizing ts is with
  | nil => simp only [List.length_nil, List.take_zero]; exact .nil
  | cons u us ih =>
    cases ts with
    | nil => simp [fundingZip] at h
    | cons t ts =>
      cases is with
      | nil => simp [fundingZip] at h
      | cons i is =>
        simp only [fundingZip, List.map_cons, List.cons_prefix_cons] at h
        simp only [List.length_cons, List.take_succ_cons]
        exact .cons (fundingUtxo_ok.mp h.1.symm) (ih (by simpa using hl) h.2)

theorem funding_length {ts : List TxIn} {is : List (Input L)} {us : List TxOut} (h : Spec.V0.Funding ts is us) :
    is.length = ts.length := by
  induction h with
  | nil => rfl
  | cons _ _ ih => simp [ih]

/-- C49. The fee is `f` exactly if every input of the unsigned transaction has its map and is funded, both sums fit 64
bits, and the inputs' sum is the outputs' plus `f`, in unbounded arithmetic. -/
theorem C49_fee_iff (p : Psbt L) (f : UInt64) : p.fee = .ok f ↔
    ∃ us, Spec.V0.Funding p.unsignedTx.input p.inputs us ∧ Spec.total (us.map TxOut.value) < 2 ^ 64 ∧
      Spec.total (p.unsignedTx.output.map TxOut.value) < 2 ^ 64 ∧
      Spec.total (us.map TxOut.value) = Spec.total (p.unsignedTx.output.map TxOut.value) + f.toNat := by
  have of {α : Type} {x : Except Err α} {a : α} : V2.orFail id x = .ok a ↔ x = .ok a := by
    cases x with
    | ok b => exact ⟨fun h => (by cases h; rfl), fun h => (by cases h; rfl)⟩
    | error e => exact ⟨fun h => (by cases h), fun h => (by cases h)⟩
  unfold Psbt.fee Psbt.fundingUtxos
  by_cases hl : p.inputs.length = p.unsignedTx.input.length
  · rw [if_neg (by simpa using hl)]
    simp only [noErr, ok_bind, bind_ok, of]
    constructor
    · rintro ⟨i, h1, o, h2, h3⟩
      obtain ⟨us, h4, h5⟩ := sumInputs_ok.mp h1
      rw [sumOutputs_ok] at h2
      split at h3
      · rename_i g hg
        cases h3
        rw [checkedSub_some] at hg
        have := i.toNat_lt
        have := o.toNat_lt
        simp only [UInt64.toNat_zero] at h2 h5
        exact ⟨us, (fundingZip_ok hl).mp h4, by omega, by omega, by omega⟩
      · cases h3
    · rintro ⟨us, h1, h2, h3, h4⟩
      have ei : (UInt64.ofNat (Spec.total (us.map TxOut.value))).toNat = Spec.total (us.map TxOut.value) := by
        rw [UInt64.toNat_ofNat']; exact Nat.mod_eq_of_lt h2
      have eo : (UInt64.ofNat (Spec.total (p.unsignedTx.output.map TxOut.value))).toNat = Spec.total (p.unsignedTx.output.map TxOut.value) := by
        rw [UInt64.toNat_ofNat']; exact Nat.mod_eq_of_lt h3
      refine ⟨UInt64.ofNat (Spec.total (us.map TxOut.value)), sumInputs_ok.mpr ⟨us, (fundingZip_ok hl).mpr h1, ?_⟩,
        UInt64.ofNat (Spec.total (p.unsignedTx.output.map TxOut.value)), sumOutputs_ok.mpr ?_, ?_⟩
      · rw [ei]; simp
      · rw [eo]; simp
      · have : checkedSub (UInt64.ofNat (Spec.total (us.map TxOut.value)))
            (UInt64.ofNat (Spec.total (p.unsignedTx.output.map TxOut.value))) = some f := by
          rw [checkedSub_some, ei, eo, h4]
        rw [this]
  · rw [if_pos hl]
    constructor
    · intro h; cases h
    · rintro ⟨us, h1, -⟩
      exact absurd (funding_length h1) hl

/-- C49. What each error of the fee computation means, and that a panic means input maps and transaction inputs differ in
number. (By `C49_fee_iff` a fee is returned in all other cases.) -/
theorem C49_fee_errors {p : Psbt L} {e : Fail Err} (h : p.fee = .error e) :
    (∃ s, e = .panic s ∧ p.inputs.length ≠ p.unsignedTx.input.length) ∨
    (e = .err .missingUtxo ∧ ∃ i ∈ p.inputs, i.witnessUtxo = none ∧ i.nonWitnessUtxo = none) ∨
    (e = .err .psbtUtxoOutOfbounds ∧ ¬ Spec.V0.IndicesInRange p) ∨
    (e = .err .feeOverflow ∧ ((∃ n us, Spec.V0.Funding (p.unsignedTx.input.take n) (p.inputs.take n) us ∧
        2 ^ 64 ≤ Spec.total (us.map TxOut.value)) ∨ 2 ^ 64 ≤ Spec.total (p.unsignedTx.output.map TxOut.value))) ∨
    (e = .err .negativeFee ∧ ∃ us, Spec.V0.Funding p.unsignedTx.input p.inputs us ∧
      Spec.total (us.map TxOut.value) < Spec.total (p.unsignedTx.output.map TxOut.value)) := by
  unfold Psbt.fee Psbt.fundingUtxos at h
  by_cases hl : p.inputs.length = p.unsignedTx.input.length
  · rw [if_neg (by simpa using hl)] at h
    right
    simp only [noErr, ok_bind] at h
    cases h1 : sumInputs 0 (fundingZip p.unsignedTx.input p.inputs) with
    | error e1 =>
      rw [h1] at h
      cases h
      rcases sumInputs_err h1 with h2 | ⟨rfl, us, h2, h3⟩
      · obtain ⟨k, t, i, e1, e2, e3⟩ := fundingZip_mem h2
        unfold fundingUtxo at e3
        cases w1 : i.witnessUtxo with
        | some w => rw [w1] at e3; cases e3
        | none =>
          rw [w1] at e3
          cases w2 : i.nonWitnessUtxo with
          | none => rw [w2] at e3; cases e3; exact .inl ⟨rfl, i, List.mem_of_getElem? e2, w1, w2⟩
          | some tx =>
            rw [w2] at e3
            simp only at e3
            split at e3
            · cases e3
            · rename_i e4
              cases e3
              refine .inr (.inl ⟨rfl, fun hr => ?_⟩)
              rw [List.getElem?_eq_none_iff] at e4
              have := hr k t i tx e1 e2 w1 w2
              omega
      · exact .inr (.inr (.inl ⟨rfl, .inl ⟨us.length, us, fundingZip_prefix hl h2, by simpa using h3⟩⟩))
    | ok i =>
      obtain ⟨us, h4, h5⟩ := sumInputs_ok.mp h1
      rw [h1] at h
      simp only [V2.orFail, mapErr, ok_bind] at h
      cases h2 : sumOutputs 0 p.unsignedTx.output with
      | error e2 =>
        rw [h2] at h
        cases h
        obtain ⟨rfl, h3⟩ := sumOutputs_err h2
        exact .inr (.inr (.inl ⟨rfl, .inr (by simpa using h3)⟩))
      | ok o =>
        rw [h2] at h
        simp only [ok_bind] at h
        rw [sumOutputs_ok] at h2
        split at h
        · cases h
        · rename_i hs
          cases h
          rw [checkedSub_none] at hs
          simp only [UInt64.toNat_zero] at h2 h5
          exact .inr (.inr (.inr ⟨rfl, us, (fundingZip_ok hl).mp h4, by omega⟩))
  · rw [if_pos hl] at h
    cases h
    exact .inl ⟨_, rfl, hl⟩

section Examples
/-- `demoTx` spends two outputs and pays 4000. -/
def eP (i j : Input DL) : Psbt DL := cP i j
def eW (v : UInt64) : Input DL := { cI with witnessUtxo := some ⟨v, [1]⟩ }
def eFin (i : Input DL) : Input DL := { i with finalScriptSig := some [7], finalScriptWitness := some [[1, 2]] }
end Examples

theorem fillInputs_getElem? (ts : List TxIn) (is : List (Input L)) (k : Nat) :
    (fillInputs ts is)[k]? = match ts[k]?, is[k]? with
      | some t, some i => some { t with scriptSig := i.finalScriptSig.getD [], witness := i.finalScriptWitness.getD [] }
      | t, _ => t := by
  induction ts generalizing is k with
  | nil => cases is <;> simp [fillInputs]
  | cons t ts ih =>
    cases is with
    | nil => simp only [fillInputs, List.getElem?_nil]; cases (t :: ts)[k]? <;> rfl
    | cons i is =>
      cases k with
      | zero => rfl
      | succ k => simp only [fillInputs, List.getElem?_cons_succ]; exact ih is k

/-- C49. The extracted transaction is the unsigned one with the final scripts filled in: version, lock time and outputs
are the same, and every input keeps outpoint and sequence number and gets its scriptSig and witness. -/
theorem C49_extracted (p : Psbt L) :
    p.extractUnchecked.version = p.unsignedTx.version ∧ p.extractUnchecked.lockTime = p.unsignedTx.lockTime ∧
    p.extractUnchecked.output = p.unsignedTx.output ∧ p.extractUnchecked.input.length = p.unsignedTx.input.length ∧
    (∀ (k : Nat) t i, p.unsignedTx.input[k]? = some t → p.inputs[k]? = some i →
      ∃ s, p.extractUnchecked.input[k]? = some s ∧ Spec.V0.Filled t i s) := by
  refine ⟨rfl, rfl, rfl, ?_, ?_⟩
  · unfold Psbt.extractUnchecked
    generalize p.unsignedTx.input = ts
    generalize p.inputs = is
    simp only
    induction ts generalizing is with
    | nil => cases is <;> rfl
    | cons t ts ih => cases is <;> simp [fillInputs, ih]
  · intro k t i e1 e2
    refine ⟨{ t with scriptSig := i.finalScriptSig.getD [], witness := i.finalScriptWitness.getD [] },
      by simp only [Psbt.extractUnchecked, fillInputs_getElem?, e1, e2], ⟨rfl, rfl, ?_, ?_⟩⟩
    · cases i.finalScriptSig <;> simp
    · cases i.finalScriptWitness <;> simp

example : (eP (eFin (eW 5)) cI).extractUnchecked.input.map (fun t => (t.scriptSig, t.witness)) = [([7], [[1, 2]]), ([], [])] := by
  decide +kernel

/-- C49. Exactly when extraction with a limit returns a transaction: the fee is known and the rate (a thousand times the
fee, at most 2^64-1, divided by the weight, rounded down) is within the limit; the transaction is the one extracted
without a limit. -/
theorem C49_with_limit_iff (p : Psbt L) (max : UInt64) (t : Tx) :
    p.extractWithLimit max = .ok t ↔
    t = p.extractUnchecked ∧ ∃ f, p.fee = .ok f ∧ min (f.toNat * 1000) (2 ^ 64 - 1) < (max.toNat + 1) * t.weight := by
  unfold Psbt.extractWithLimit
  cases hf : p.fee with
  | error e =>
    constructor
    · intro h
      simp only at h
      split at h <;> simp_all
    · rintro ⟨-, f, h, -⟩; cases h
  | ok f =>
    have hw := weight_pos p.extractUnchecked
    simp only [Except.ok.injEq, exists_eq_left']
    rw [if_neg (by omega)]
    have key : feeRate f p.extractUnchecked.weight > max.toNat ↔
        ¬ min (f.toNat * 1000) (2 ^ 64 - 1) < (max.toNat + 1) * p.extractUnchecked.weight := by
      unfold feeRate
      rw [gt_iff_lt, ← Nat.div_lt_iff_lt_mul hw]
      omega
    split
    · rename_i h
      simp only [reduceCtorEq, false_iff, not_and]
      rintro rfl
      exact key.mp h
    · rename_i h
      simp only [Except.ok.injEq]
      constructor
      · rintro rfl; exact ⟨rfl, Decidable.not_not.mp (fun hh => h (key.mpr hh))⟩
      · rintro ⟨rfl, -⟩; rfl

/-- C49. In terms of the real fee rate, for fees below 2^64/1000 satoshi (more than exist): a transaction is returned
exactly if the rate, rounded down to whole satoshi per kilo weight unit, does not exceed the limit. -/
theorem C49_rate_partial {p : Psbt L} {f : UInt64} (max : UInt64) (hf : p.fee = .ok f) (hbig : f.toNat * 1000 < 2 ^ 64) :
    p.extractWithLimit max = .ok p.extractUnchecked ↔ f.toNat * 1000 / p.extractUnchecked.weight ≤ max.toNat := by
  rw [C49_with_limit_iff, ← Nat.lt_succ_iff, Nat.div_lt_iff_lt_mul (weight_pos _)]
  have : min (f.toNat * 1000) (2 ^ 64 - 1) = f.toNat * 1000 := by omega
  constructor
  · rintro ⟨-, f', h1, h2⟩
    rw [hf] at h1
    cases h1
    rwa [this] at h2
  · intro h
    exact ⟨rfl, f, hf, by rwa [this]⟩

/-- C49. The default limit is 25,000 satoshi per virtual byte; one satoshi per virtual byte is 250 satoshi per kilo
weight unit. -/
theorem C49_default_partial {p : Psbt L} {f : UInt64} (hf : p.fee = .ok f) (hbig : f.toNat * 1000 < 2 ^ 64) :
    p.extractTx = .ok p.extractUnchecked ↔ f.toNat * 1000 / p.extractUnchecked.weight ≤ 25000 * 250 := by
  unfold Psbt.extractTx
  rw [C49_rate_partial _ hf hbig]
  have : DEFAULT_MAX_FEE_RATE.toNat = 25000 * 250 := by decide
  rw [this]

/-- C49. A failed extraction hands back the transaction or the PSBT, and says what is wrong. -/
theorem C49_errors {p : Psbt L} {max : UInt64} {e : ExtractErr L} (h : p.extractWithLimit max = .error (.err e)) :
    match e with
    | .missingInputValue t => t = p.extractUnchecked ∧ ∃ i ∈ p.inputs, i.witnessUtxo = none ∧ i.nonWitnessUtxo = none
    | .sendingTooMuch q => q = p ∧ ∃ us, Spec.V0.Funding p.unsignedTx.input p.inputs us ∧
        Spec.total (us.map TxOut.value) < Spec.total (p.unsignedTx.output.map TxOut.value)
    | .absurdFeeRate r t => t = p.extractUnchecked ∧
        ((∃ f, p.fee = .ok f ∧ r = min (f.toNat * 1000) (2 ^ 64 - 1) / t.weight ∧ max.toNat < r) ∨
        r = 2 ^ 64 - 1 ∧ p.fee = .error (.err .feeOverflow)) := by
  unfold Psbt.extractWithLimit at h
  have he := @C49_fee_errors _ p
  split at h
  · cases h
  · rename_i hf
    cases h
    have := he hf
    simp only [Fail.err.injEq, reduceCtorEq, false_and, exists_false, false_or, or_false] at this
    exact ⟨rfl, this.2⟩
  · rename_i hf
    cases h
    have := he hf
    simp only [Fail.err.injEq, reduceCtorEq, false_and, exists_false, false_or, or_false] at this
    exact ⟨rfl, this.2⟩
  · rename_i hf
    cases h
    exact ⟨rfl, .inr ⟨rfl, hf⟩⟩
  · cases h
  · rename_i f hf
    have hw := weight_pos p.extractUnchecked
    simp only at h
    rw [if_neg (by omega)] at h
    split at h
    · rename_i hr
      cases h
      exact ⟨rfl, .inl ⟨f, hf, rfl, hr⟩⟩
    · cases h

/-- C49. Extraction does not panic if there are as many input maps as transaction inputs and every non-witness UTXO has
the output spent. (For the full property these conditions are missing: `C49_panic_counterexample`,
`C49_length_counterexample`.) -/
theorem C49_never_panics_partial {p : Psbt L} (hl : p.inputs.length = p.unsignedTx.input.length)
    (hr : Spec.V0.IndicesInRange p) (max : UInt64) (why : String) : p.extractWithLimit max ≠ .error (.panic why) := by
  intro h
  unfold Psbt.extractWithLimit at h
  have he := @C49_fee_errors _ p
  split at h
  · rename_i s hf
    rcases he hf with ⟨_, -, h2⟩ | ⟨h1, -⟩ | ⟨h1, -⟩ | ⟨h1, -⟩ | ⟨h1, -⟩
    · exact h2 hl
    all_goals cases h1
  · cases h
  · cases h
  · cases h
  · rename_i e n1 n2 n3 hf
    rcases he hf with ⟨_, h1, -⟩ | ⟨h1, -⟩ | ⟨-, h2⟩ | ⟨h1, -⟩ | ⟨h1, -⟩
    · cases h1
    · exact n1 (Fail.err.inj h1)
    · exact h2 hr
    · exact n3 (Fail.err.inj h1)
    · exact n2 (Fail.err.inj h1)
  · simp only at h
    have hw := weight_pos p.extractUnchecked
    rw [if_neg (by omega)] at h
    split at h <;> cases h

/-- C49. Extraction panics exactly if input maps and transaction inputs differ in number, or the fee computation meets a
non-witness UTXO without the output spent. -/
theorem C49_panics_iff (p : Psbt L) (max : UInt64) : (∃ why, p.extractWithLimit max = .error (.panic why)) ↔
    p.inputs.length ≠ p.unsignedTx.input.length ∨ p.fee = .error (.err .psbtUtxoOutOfbounds) := by
  constructor
  · rintro ⟨why, h⟩
    unfold Psbt.extractWithLimit at h
    have he := @C49_fee_errors _ p
    split at h
    · rename_i s hf
      rcases he hf with ⟨_, -, h2⟩ | ⟨h1, -⟩ | ⟨h1, -⟩ | ⟨h1, -⟩ | ⟨h1, -⟩
      · exact .inl h2
      all_goals cases h1
    · cases h
    · cases h
    · cases h
    · rename_i e n1 n2 n3 hf
      rcases he hf with ⟨_, h1, -⟩ | ⟨h1, -⟩ | ⟨h1, -⟩ | ⟨h1, -⟩ | ⟨h1, -⟩
      · cases h1
      · exact absurd (Fail.err.inj h1) n1
      · rw [Fail.err.inj h1] at hf; exact .inr hf
      · exact absurd (Fail.err.inj h1) n3
      · exact absurd (Fail.err.inj h1) n2
    · simp only at h
      have hw := weight_pos p.extractUnchecked
      rw [if_neg (by omega)] at h
      split at h <;> cases h
  · rintro (hl | hf)
    · have hf : ∃ s, p.fee = .error (.panic s) := by
        unfold Psbt.fee Psbt.fundingUtxos
        rw [if_pos hl]
        exact ⟨_, rfl⟩
      obtain ⟨s, hf⟩ := hf
      unfold Psbt.extractWithLimit
      rw [hf]
      exact ⟨_, rfl⟩
    · unfold Psbt.extractWithLimit
      rw [hf]
      exact ⟨_, rfl⟩

/-- C49 fails: a non-witness UTXO that lacks the output spent makes extraction panic (it is reported by the fee
computation, but the code takes that error to be impossible). Such a PSBT can be parsed from bytes. -/
theorem C49_panic_counterexample : ∃ p : Psbt DL, p.extractTx = .error (.panic "internal error: entered unreachable code") ∧
    Psbt.deserialize DL p.serialize = .ok p :=
  ⟨eP { cI with nonWitnessUtxo := some ⟨2, 0, [], []⟩ } cI, by decide +kernel, by decide +kernel⟩

/-- C49 fails: missing input maps make extraction panic. -/
theorem C49_length_counterexample : ∃ p : Psbt DL, p.extractTx = .error (.panic "assertion `left == right` failed") :=
  ⟨{ eP cI cI with inputs := [cI] }, by decide +kernel⟩

/-- C49 fails for absurd fees: the multiplication saturates, so a fee near 2^64 satoshi passes a limit its rate exceeds. -/
theorem C49_saturation_counterexample : ∃ (p : Psbt DL) (f : UInt64) (max : UInt64), p.fee = .ok f ∧
    p.extractWithLimit max = .ok p.extractUnchecked ∧ max.toNat < f.toNat * 1000 / p.extractUnchecked.weight := by
  refine ⟨eP (eFin (eW 0xFFFFFFFFFFFFFFFF)) (eFin (eW 0)), 0xFFFFFFFFFFFFF05F, 0x1000000000000000, by decide +kernel, ?_, by decide +kernel⟩
  rw [C49_with_limit_iff]
  exact ⟨rfl, 0xFFFFFFFFFFFFF05F, by decide +kernel, by decide +kernel⟩

/-- C49 fails for amounts that add up to more than 64 bits: outputs worth far more than the inputs are reported as an
absurd fee rate, not as sending too much. -/
theorem C49_overflow_counterexample : ∃ (p : Psbt DL) (us : List TxOut), Spec.V0.Funding p.unsignedTx.input p.inputs us ∧
    Spec.total (us.map TxOut.value) < Spec.total (p.unsignedTx.output.map TxOut.value) ∧
    p.extractTx = .error (.err (.absurdFeeRate (2 ^ 64 - 1) p.extractUnchecked)) :=
  ⟨{ eP (eW 1) (eW 0) with unsignedTx := { demoTx with output := [⟨0xFFFFFFFFFFFFFFFF, [0x51]⟩, ⟨1, [0x51]⟩] } },
    [⟨1, [1]⟩, ⟨0, [1]⟩], .cons (.witness rfl) (.cons (.witness rfl) .nil), by decide +kernel, by decide +kernel⟩

example : (eP (eFin (eW 4100)) (eFin (eW 5))).extractTx = .ok (eP (eFin (eW 4100)) (eFin (eW 5))).extractUnchecked := by decide +kernel
example : (eP (eW 20) cI).extractTx = .error (.err (.missingInputValue (eP (eW 20) cI).extractUnchecked)) := by decide +kernel
example : (eP (eW 20) (eW 5)).extractTx = .error (.err (.sendingTooMuch (eP (eW 20) (eW 5)))) := by decide +kernel

end Psbt.V0
