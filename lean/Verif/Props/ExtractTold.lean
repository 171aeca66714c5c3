/- C123: what extracting complains about is so. -/
import Verif.Spec.ExtractTold
import Verif.Props.V2Extract
import Verif.Props.V0Extract
namespace Psbt
variable {L : Lib}

theorem total_cons (u : TxOut) (us : List TxOut) :
    Spec.total ((u :: us).map TxOut.value) = u.value.toNat + Spec.total (us.map TxOut.value) := by simp [Spec.total]

theorem sumInputs_told {acc : UInt64} {l : List (Except FundingErr TxOut)} {e : FeeErr} :
    sumInputs acc l = .error e ↔ ∃ (k : Nat) (us : List TxOut) (x : Except FundingErr TxOut), l.take k = us.map .ok ∧
      acc.toNat + Spec.total (us.map TxOut.value) < 2 ^ 64 ∧ l[k]? = some x ∧
      ((∃ f, x = .error f ∧ e = .fundingUtxo f) ∨
       ∃ u, x = .ok u ∧ 2 ^ 64 ≤ acc.toNat + Spec.total (us.map TxOut.value) + u.value.toNat ∧ e = .inputOverflow) := by
  induction l generalizing acc with
  | nil => simp [sumInputs]
  | cons a l ih =>
    have ha := acc.toNat_lt
    cases a with
    | error f =>
      simp only [sumInputs, Except.error.injEq]
      constructor
      · rintro rfl
        exact ⟨0, [], .error f, rfl, by simpa [Spec.total] using ha, rfl, .inl ⟨f, rfl, rfl⟩⟩
      · rintro ⟨k, us, x, h1, h2, h3, h4⟩
        cases k with
        | zero =>
          simp only [List.getElem?_cons_zero, Option.some.injEq] at h3
          subst h3
          rcases h4 with ⟨f', h5, rfl⟩ | ⟨u, h5, -⟩
          · cases h5; rfl
          · cases h5
        | succ k => cases us <;> simp at h1
    | ok u =>
      simp only [sumInputs]
      cases hc : checkedAdd acc u.value with
      | none =>
        rw [checkedAdd_none] at hc
        simp only [Except.error.injEq]
        constructor
        · rintro rfl
          exact ⟨0, [], .ok u, rfl, by simpa [Spec.total] using ha, rfl, .inr ⟨u, rfl, by simpa [Spec.total] using hc, rfl⟩⟩
        · rintro ⟨k, us, x, h1, h2, h3, h4⟩
          cases k with
          | zero =>
            simp only [List.getElem?_cons_zero, Option.some.injEq] at h3
            subst h3
            rcases h4 with ⟨f', h5, -⟩ | ⟨u, -, -, rfl⟩
            · cases h5
            · rfl
          | succ k =>
            cases us with
            | nil => simp at h1
            | cons v us =>
              simp only [List.take_succ_cons, List.map_cons, List.cons.injEq, Except.ok.injEq] at h1
              rw [← h1.1, total_cons] at h2
              omega
      | some b =>
        rw [checkedAdd_some] at hc
        simp only [ih]
        constructor
        · rintro ⟨k, us, x, h1, h2, h3, h4⟩
          refine ⟨k + 1, u :: us, x, by simp [h1], by rw [total_cons]; omega, by simpa using h3, ?_⟩
          rcases h4 with h4 | ⟨v, h5, h6, h7⟩
          · exact .inl h4
          · exact .inr ⟨v, h5, by rw [total_cons]; omega, h7⟩
        · rintro ⟨k, us, x, h1, h2, h3, h4⟩
          cases k with
          | zero =>
            have : us = [] := by simpa using h1.symm
            subst this
            simp only [List.getElem?_cons_zero, Option.some.injEq] at h3
            subst h3
            rcases h4 with ⟨f, h5, -⟩ | ⟨v, h5, h6, -⟩
            · cases h5
            · cases h5
              have := b.toNat_lt
              simp only [Spec.total, List.map_nil, List.sum_nil] at h6
              omega
          | succ k =>
            cases us with
            | nil => simp at h1
            | cons v us =>
              simp only [List.take_succ_cons, List.map_cons, List.cons.injEq, Except.ok.injEq] at h1
              obtain ⟨rfl, h1⟩ := h1
              rw [total_cons] at h2 h4
              refine ⟨k, us, x, h1, by omega, by simpa using h3, ?_⟩
              rcases h4 with h4 | ⟨w, h5, h6, h7⟩
              · exact .inl h4
              · exact .inr ⟨w, h5, by omega, h7⟩

theorem map_ok_inj {ε α : Type} {us vs : List α} (h : us.map (Except.ok (ε := ε)) = vs.map .ok) : us = vs := by
  induction us generalizing vs with
  | nil => cases vs with
    | nil => rfl
    | cons v vs => simp at h
  | cons u us ih =>
    cases vs with
    | nil => simp at h
    | cons v vs =>
      simp only [List.map_cons, List.cons.injEq, Except.ok.injEq] at h
      rw [h.1, ih h.2]

namespace V2

/-- C123. The fee of a PSBT v2 is refused with exactly the first cause there is, looking at the inputs in order, then at the
outputs, then at the difference. -/
theorem C123_v2_fee (p : Psbt L) (e : FeeErr) : p.fee = .error e ↔ Spec.FeeTold p e := by
  have hz : (0 : UInt64).toNat = 0 := rfl
  have key : ∀ (k : Nat) (us : List TxOut), (p.inputs.map Input.fundingUtxo).take k = us.map .ok ↔
      Spec.Funding (p.inputs.take k) us := by
    intro k us; rw [← List.map_take, funding_iff]
  unfold Psbt.fee Psbt.fundingUtxos
  cases h1 : sumInputs 0 (p.inputs.map Input.fundingUtxo) with
  | error e1 =>
    have no : ∀ us, Spec.Funding p.inputs us → Spec.total (us.map TxOut.value) < 2 ^ 64 → False := by
      intro us hf ht
      have : sumInputs 0 (p.inputs.map Input.fundingUtxo) = .ok (UInt64.ofNat (Spec.total (us.map TxOut.value))) :=
        sumInputs_ok.mpr ⟨us, funding_iff.mpr hf, by rw [UInt64.toNat_ofNat', Nat.mod_eq_of_lt ht, hz]; omega⟩
      rw [h1] at this; cases this
    have : (Except.error e1 : Except FeeErr UInt64) = .error e ↔ Spec.FeeTold p e := by
      rw [← h1, sumInputs_told]
      simp only [hz, Nat.zero_add, key]
      constructor
      · rintro ⟨k, us, x, g1, g2, g3, g4⟩
        simp only [List.getElem?_map, Option.map_eq_some_iff] at g3
        obtain ⟨i, g3, rfl⟩ := g3
        rcases g4 with ⟨f, g4, rfl⟩ | ⟨u, g4, g5, rfl⟩
        · exact ⟨k, us, i, ⟨g1, g2, g3⟩, ((C30_funding_utxo i).2 f).mp g4⟩
        · exact ⟨k, us, i, u, ⟨g1, g2, g3⟩, fundingUtxo_ok.mp g4, g5⟩
      · intro h
        cases e with
        | fundingUtxo f =>
          obtain ⟨k, us, i, ⟨g1, g2, g3⟩, g4⟩ := h
          exact ⟨k, us, i.fundingUtxo, g1, g2, by simp [g3], .inl ⟨f, ((C30_funding_utxo i).2 f).mpr g4, rfl⟩⟩
        | inputOverflow =>
          obtain ⟨k, us, i, u, ⟨g1, g2, g3⟩, g4, g5⟩ := h
          exact ⟨k, us, i.fundingUtxo, g1, g2, by simp [g3], .inr ⟨u, fundingUtxo_ok.mpr g4, g5, rfl⟩⟩
        | outputOverflow => obtain ⟨us, g1, g2, -⟩ := h; exact (no us g1 g2).elim
        | negative => obtain ⟨us, g1, g2, g3⟩ := h; exact (no us g1 (by omega)).elim
    exact this
  | ok i =>
    obtain ⟨us, h4, h5⟩ := sumInputs_ok.mp h1
    have hf := funding_iff.mp h4
    rw [hz, Nat.zero_add] at h5
    have hi := i.toNat_lt
    have uniq : ∀ {us'}, Spec.Funding p.inputs us' → us' = us := fun h' => by
      have := (funding_iff.mpr h').symm.trans h4
      exact map_ok_inj this
    have noin : ∀ e', ¬ (sumInputs 0 (p.inputs.map Input.fundingUtxo) = .error e') := fun e' h => by rw [h1] at h; cases h
    have reach : ∀ {k us' i'}, Spec.Reached p k us' i' → ∃ u, Spec.FundedBy i' u ∧
        Spec.total (us'.map TxOut.value) + u.value.toNat < 2 ^ 64 := by
      rintro k us' i' ⟨g1, g2, g3⟩
      cases hu : i'.fundingUtxo with
      | error f =>
        exact (noin _ (sumInputs_told.mpr ⟨k, us', .error f, (key k us').mpr g1, by rw [hz]; omega, by simp [g3, hu],
          .inl ⟨f, rfl, rfl⟩⟩)).elim
      | ok u =>
        refine ⟨u, fundingUtxo_ok.mp hu, Nat.lt_of_not_le fun hge => ?_⟩
        exact noin _ (sumInputs_told.mpr ⟨k, us', .ok u, (key k us').mpr g1, by rw [hz]; omega, by simp [g3, hu],
          .inr ⟨u, rfl, by rw [hz]; omega, rfl⟩⟩)
    have nofund : ∀ f, ¬ Spec.FeeTold p (.fundingUtxo f) := by
      rintro f ⟨k, us', i', hr, hff⟩
      obtain ⟨u, hu, -⟩ := reach hr
      have a := fundingUtxo_ok.mpr hu
      rw [((C30_funding_utxo i').2 f).mpr hff] at a; cases a
    have noinp : ¬ Spec.FeeTold p .inputOverflow := by
      rintro ⟨k, us', i', u', hr, hff, hge⟩
      obtain ⟨u, hu, hlt⟩ := reach hr
      have a := fundingUtxo_ok.mpr hu
      rw [fundingUtxo_ok.mpr hff] at a; cases a
      omega
    simp only [ok_bind]
    cases h2 : sumOutputs 0 (p.outputs.map Output.amount) with
    | error e2 =>
      obtain ⟨rfl, h3⟩ := sumOutputs_err.mp h2
      rw [hz, Nat.zero_add] at h3
      have : (Except.error FeeErr.outputOverflow : Except FeeErr UInt64) = .error e ↔ Spec.FeeTold p e := by
        simp only [Except.error.injEq]
        constructor
        · rintro rfl; exact ⟨us, hf, by omega, h3⟩
        · intro h
          cases e with
          | fundingUtxo f => exact (nofund f h).elim
          | inputOverflow => exact (noinp h).elim
          | outputOverflow => rfl
          | negative => obtain ⟨us', -, -, g3⟩ := h; unfold Spec.totalOut at g3; omega
      exact this
    | ok o =>
      rw [sumOutputs_ok, hz, Nat.zero_add] at h2
      have ho := o.toNat_lt
      simp only [ok_bind]
      have houts : Spec.totalOut p = o.toNat := h2.symm
      constructor
      · intro h
        split at h
        · cases h
        · rename_i hs
          rw [checkedSub_none] at hs
          cases h
          exact ⟨us, hf, by omega, by omega⟩
      · intro h
        cases e with
        | fundingUtxo f => exact (nofund f h).elim
        | inputOverflow => exact (noinp h).elim
        | outputOverflow => obtain ⟨us', -, -, g3⟩ := h; omega
        | negative =>
          obtain ⟨us', g1, g2, -⟩ := h
          rw [uniq g1] at g2
          have : checkedSub i o = none := checkedSub_none.mpr (by omega)
          rw [this]

/-- C123. What extraction with a limit from an extractor refuses: the fee cannot be computed, for the reason given, or the
rate given, above the limit given, is that of the transaction (a thousand times the fee, at most 2^64-1, divided by the
weight, rounded down). -/
theorem C123_v2_extract {p : Psbt L} (hp : Extractor.new p = .ok p) (max : UInt64) (e : ExtractRateErr) :
    Extractor.extractWithLimit p max = .error (.err e) ↔
      (∃ e', e = .fee e' ∧ Spec.FeeTold p e') ∨
      ∃ f t r, p.fee = .ok f ∧ Extractor.extractUnchecked p = .ok t ∧ r = min (f.toNat * 1000) (2 ^ 64 - 1) / t.weight ∧
        max.toNat < r ∧ e = .feeTooHigh r max.toNat := by
  obtain ⟨t, ht, -⟩ := C31_extraction hp
  have hw := weight_pos t
  unfold Extractor.extractWithLimit
  cases hf : p.fee with
  | error e' =>
    simp only [Except.error.injEq, Fail.err.injEq, reduceCtorEq, false_and, exists_false, or_false]
    constructor
    · rintro rfl; exact ⟨e', rfl, (C123_v2_fee p e').mp hf⟩
    · rintro ⟨e'', rfl, h⟩
      have := (C123_v2_fee p e'').mpr h
      rw [hf] at this; cases this; rfl
  | ok f =>
    simp only [ht]
    rw [if_neg (by omega)]
    have nof : ∀ e', ¬ Spec.FeeTold p e' := fun e' h => by
      have := (C123_v2_fee p e').mpr h
      rw [hf] at this; cases this
    constructor
    · intro h
      split at h
      · rename_i hr
        cases h
        exact .inr ⟨f, t, _, rfl, rfl, rfl, hr, rfl⟩
      · cases h
    · rintro (⟨e', -, h⟩ | ⟨f', t', r, h1, h2, rfl, h4, rfl⟩)
      · exact (nof e' h).elim
      · cases h1; cases h2
        rw [if_pos (show feeRate f t.weight > max.toNat from h4)]
        rfl

example : Extractor.new (eP [eFin (eIn 5), eFin { eIn 0 with witnessUtxo := none }, eFin (eIn 9)] [3]) =
    .ok (eP [eFin (eIn 5), eFin { eIn 0 with witnessUtxo := none }, eFin (eIn 9)] [3]) ∧
    Extractor.extractTx (eP [eFin (eIn 5), eFin { eIn 0 with witnessUtxo := none }, eFin (eIn 9)] [3]) =
      .error (.err (.fee (.fundingUtxo .missing))) := by decide +kernel
example : Spec.FeeTold (eP [eIn 0xFFFFFFFFFFFFFFFF, eIn 1, { eIn 0 with witnessUtxo := none }] [3]) .inputOverflow :=
  (C123_v2_fee _ _).mp (by decide +kernel)
example : Extractor.extractTx (eP [eFin (eIn 0xFFFFFFFFFFFF)] [3]) = .error (.err (.feeTooHigh 1125899906842608 6250000)) := by
  decide +kernel

end V2

namespace V0

theorem sumInputs_told {acc : UInt64} {l : List (Except Err TxOut)} {e : Err} :
    sumInputs acc l = .error e ↔ ∃ (k : Nat) (us : List TxOut) (x : Except Err TxOut), l.take k = us.map .ok ∧
      acc.toNat + Spec.total (us.map TxOut.value) < 2 ^ 64 ∧ l[k]? = some x ∧
      ((∃ f, x = .error f ∧ e = f) ∨
       ∃ u, x = .ok u ∧ 2 ^ 64 ≤ acc.toNat + Spec.total (us.map TxOut.value) + u.value.toNat ∧ e = .feeOverflow) := by
  induction l generalizing acc with
  | nil => simp [sumInputs]
  | cons a l ih =>
    have ha := acc.toNat_lt
    cases a with
    | error f =>
      simp only [sumInputs, Except.error.injEq]
      constructor
      · rintro rfl
        exact ⟨0, [], .error f, rfl, by simpa [Spec.total] using ha, rfl, .inl ⟨f, rfl, rfl⟩⟩
      · rintro ⟨k, us, x, h1, h2, h3, h4⟩
        cases k with
        | zero =>
          simp only [List.getElem?_cons_zero, Option.some.injEq] at h3
          subst h3
          rcases h4 with ⟨f', h5, h6⟩ | ⟨u, h5, -⟩
          · cases h5; exact h6.symm
          · cases h5
        | succ k => cases us <;> simp at h1
    | ok u =>
      simp only [sumInputs]
      cases hc : checkedAdd acc u.value with
      | none =>
        rw [checkedAdd_none] at hc
        simp only [Except.error.injEq]
        constructor
        · rintro rfl
          exact ⟨0, [], .ok u, rfl, by simpa [Spec.total] using ha, rfl, .inr ⟨u, rfl, by simpa [Spec.total] using hc, rfl⟩⟩
        · rintro ⟨k, us, x, h1, h2, h3, h4⟩
          cases k with
          | zero =>
            simp only [List.getElem?_cons_zero, Option.some.injEq] at h3
            subst h3
            rcases h4 with ⟨f', h5, -⟩ | ⟨u, -, -, rfl⟩
            · cases h5
            · rfl
          | succ k =>
            cases us with
            | nil => simp at h1
            | cons v us =>
              simp only [List.take_succ_cons, List.map_cons, List.cons.injEq, Except.ok.injEq] at h1
              rw [← h1.1, total_cons] at h2
              omega
      | some b =>
        rw [checkedAdd_some] at hc
        simp only [ih]
        constructor
        · rintro ⟨k, us, x, h1, h2, h3, h4⟩
          refine ⟨k + 1, u :: us, x, by simp [h1], by rw [total_cons]; omega, by simpa using h3, ?_⟩
          rcases h4 with h4 | ⟨v, h5, h6, h7⟩
          · exact .inl h4
          · exact .inr ⟨v, h5, by rw [total_cons]; omega, h7⟩
        · rintro ⟨k, us, x, h1, h2, h3, h4⟩
          cases k with
          | zero =>
            have : us = [] := by simpa using h1.symm
            subst this
            simp only [List.getElem?_cons_zero, Option.some.injEq] at h3
            subst h3
            rcases h4 with ⟨f, h5, -⟩ | ⟨v, h5, h6, -⟩
            · cases h5
            · cases h5
              have := b.toNat_lt
              simp only [Spec.total, List.map_nil, List.sum_nil] at h6
              omega
          | succ k =>
            cases us with
            | nil => simp at h1
            | cons v us =>
              simp only [List.take_succ_cons, List.map_cons, List.cons.injEq, Except.ok.injEq] at h1
              obtain ⟨rfl, h1⟩ := h1
              rw [total_cons] at h2 h4
              refine ⟨k, us, x, h1, by omega, by simpa using h3, ?_⟩
              rcases h4 with h4 | ⟨w, h5, h6, h7⟩
              · exact .inl h4
              · exact .inr ⟨w, h5, by omega, h7⟩


theorem fundingZip_told {ts : List TxIn} {is : List (Input L)} {k : Nat} {us : List TxOut} {x : Except Err TxOut}
    (hl : is.length = ts.length) :
    ((fundingZip ts is).take k = us.map .ok ∧ (fundingZip ts is)[k]? = some x) ↔
      Spec.V0.Funding (ts.take k) (is.take k) us ∧ ∃ t i, ts[k]? = some t ∧ is[k]? = some i ∧ fundingUtxo t i = x := by
  induction ts generalizing is k us with
  | nil =>
    cases is with
    | cons i is => simp at hl
    | nil => simp [fundingZip]
  | cons t ts ih =>
    cases is with
    | nil => simp at hl
    | cons i is =>
      simp only [List.length_cons, Nat.add_right_cancel_iff] at hl
      simp only [fundingZip]
      cases k with
      | zero =>
        simp only [List.take_zero, List.getElem?_cons_zero, Option.some.injEq]
        constructor
        · rintro ⟨h1, rfl⟩
          have : us = [] := by simpa using h1.symm
          subst this
          exact ⟨.nil, t, i, rfl, rfl, rfl⟩
        · rintro ⟨h1, t', i', rfl, rfl, rfl⟩
          cases h1
          exact ⟨rfl, rfl⟩
      | succ k =>
        simp only [List.take_succ_cons, List.getElem?_cons_succ]
        cases us with
        | nil =>
          simp only [List.map_nil, reduceCtorEq, false_and, false_iff, not_and]
          intro h; cases h
        | cons u us =>
          simp only [List.map_cons, List.cons.injEq, and_assoc]
          rw [ih hl, fundingUtxo_ok]
          constructor
          · rintro ⟨h1, h2, h3⟩; exact ⟨.cons h1 h2, h3⟩
          · rintro ⟨h1, h3⟩
            cases h1 with
            | cons h1 h2 => exact ⟨h1, h2, h3⟩

theorem fundingUtxo_told {t : TxIn} {i : Input L} {e : Err} : fundingUtxo t i = .error e ↔
    (e = .missingUtxo ∧ i.witnessUtxo = none ∧ i.nonWitnessUtxo = none) ∨
    (e = .psbtUtxoOutOfbounds ∧ i.witnessUtxo = none ∧ ∃ tx, i.nonWitnessUtxo = some tx ∧
      tx.output.length ≤ t.previousOutput.vout.toNat) := by
  unfold fundingUtxo
  cases h1 : i.witnessUtxo with
  | some w => simp
  | none =>
    cases h2 : i.nonWitnessUtxo with
    | none => simp [eq_comm]
    | some tx =>
      simp only [reduceCtorEq, and_false, false_or, true_and, Option.some.injEq, exists_eq_left']
      cases h3 : tx.output[t.previousOutput.vout.toNat]? with
      | some u =>
        have := (List.getElem?_eq_some_iff.mp h3).1
        simp only [reduceCtorEq, false_iff, not_and]
        omega
      | none =>
        have := List.getElem?_eq_none_iff.mp h3
        simp [this, eq_comm]

/-- C123. The fee of a PSBT v0 with as many input maps as transaction inputs is refused with exactly the first cause there is,
looking at the inputs in order, then at the outputs, then at the difference. -/
theorem C123_v0_fee (p : Psbt L) (e : Err) :
    p.fee = .error (.err e) ↔ p.inputs.length = p.unsignedTx.input.length ∧ Spec.V0.FeeTold p e := by
  have hz : (0 : UInt64).toNat = 0 := rfl
  unfold Psbt.fee Psbt.fundingUtxos
  by_cases hl : p.inputs.length = p.unsignedTx.input.length
  case neg =>
    rw [if_pos hl]
    constructor
    · intro h; cases h
    · rintro ⟨h, -⟩; exact absurd h hl
  rw [if_neg (by simpa using hl)]
  simp only [noErr, ok_bind, hl, true_and]
  cases h1 : sumInputs 0 (fundingZip p.unsignedTx.input p.inputs) with
  | error e1 =>
    have no : ∀ us, Spec.V0.Funding p.unsignedTx.input p.inputs us → Spec.total (us.map TxOut.value) < 2 ^ 64 → False := by
      intro us hf ht
      have : sumInputs 0 (fundingZip p.unsignedTx.input p.inputs) = .ok (UInt64.ofNat (Spec.total (us.map TxOut.value))) :=
        sumInputs_ok.mpr ⟨us, (fundingZip_ok hl).mpr hf, by rw [UInt64.toNat_ofNat', Nat.mod_eq_of_lt ht, hz]; omega⟩
      rw [h1] at this; cases this
    have key : (Except.error e1 : Except Err UInt64) = .error e ↔ Spec.V0.FeeTold p e := by
      rw [← h1, sumInputs_told]
      simp only [hz, Nat.zero_add]
      constructor
      · rintro ⟨k, us, x, g1, g2, g3, g4⟩
        obtain ⟨f1, t, i, f2, f3, rfl⟩ := (fundingZip_told hl).mp ⟨g1, g3⟩
        rcases g4 with ⟨f, g4, rfl⟩ | ⟨u, g4, g5, rfl⟩
        · rcases fundingUtxo_told.mp g4 with ⟨rfl, a, b⟩ | ⟨rfl, a, tx, b, c⟩
          · exact ⟨k, us, t, i, ⟨f1, g2, f2, f3⟩, a, b⟩
          · exact ⟨k, us, t, i, tx, ⟨f1, g2, f2, f3⟩, a, b, c⟩
        · exact .inl ⟨k, us, t, i, u, ⟨f1, g2, f2, f3⟩, fundingUtxo_ok.mp g4, g5⟩
      · intro h
        have back : ∀ {k us t i x}, Spec.V0.Reached p k us t i → fundingUtxo t i = x →
            (fundingZip p.unsignedTx.input p.inputs).take k = us.map .ok ∧
            (fundingZip p.unsignedTx.input p.inputs)[k]? = some x := by
          rintro k us t i x ⟨g1, g2, g3, g4⟩ hx
          exact (fundingZip_told hl).mpr ⟨g1, t, i, g3, g4, hx⟩
        cases e with
        | missingUtxo =>
          obtain ⟨k, us, t, i, hr, a, b⟩ := h
          obtain ⟨c, d⟩ := back hr (fundingUtxo_told.mpr (.inl ⟨rfl, a, b⟩))
          exact ⟨k, us, _, c, hr.2.1, d, .inl ⟨_, rfl, rfl⟩⟩
        | psbtUtxoOutOfbounds =>
          obtain ⟨k, us, t, i, tx, hr, a, b, b'⟩ := h
          obtain ⟨c, d⟩ := back hr (fundingUtxo_told.mpr (.inr ⟨rfl, a, tx, b, b'⟩))
          exact ⟨k, us, _, c, hr.2.1, d, .inl ⟨_, rfl, rfl⟩⟩
        | feeOverflow =>
          rcases h with ⟨k, us, t, i, u, hr, a, b⟩ | ⟨us, g1, g2, -⟩
          · obtain ⟨c, d⟩ := back hr (fundingUtxo_ok.mpr a)
            exact ⟨k, us, _, c, hr.2.1, d, .inr ⟨u, rfl, b, rfl⟩⟩
          · exact (no us g1 g2).elim
        | negativeFee => obtain ⟨us, g1, g2, g3⟩ := h; exact (no us g1 (by omega)).elim
        | _ => exact h.elim
    rw [← key]
    simp [V2.orFail, mapErr, Except.error.injEq]
  | ok i =>
    obtain ⟨us, h4, h5⟩ := sumInputs_ok.mp h1
    have hf := (fundingZip_ok hl).mp h4
    rw [hz, Nat.zero_add] at h5
    have hi := i.toNat_lt
    have uniq : ∀ {us'}, Spec.V0.Funding p.unsignedTx.input p.inputs us' → us' = us := fun h' =>
      map_ok_inj (((fundingZip_ok hl).mpr h').symm.trans h4)
    have noin : ∀ e', ¬ (sumInputs 0 (fundingZip p.unsignedTx.input p.inputs) = .error e') := fun e' h => by
      rw [h1] at h; cases h
    have reach : ∀ {k us' t' i'}, Spec.V0.Reached p k us' t' i' → ∃ u, Spec.V0.FundedBy t' i' u ∧
        Spec.total (us'.map TxOut.value) + u.value.toNat < 2 ^ 64 := by
      rintro k us' t' i' ⟨g1, g2, g3, g4⟩
      cases hu : fundingUtxo t' i' with
      | error f =>
        obtain ⟨a, b⟩ := (fundingZip_told hl).mpr ⟨g1, t', i', g3, g4, hu⟩
        exact (noin _ (sumInputs_told.mpr ⟨k, us', .error f, a, by rw [hz]; omega, b, .inl ⟨f, rfl, rfl⟩⟩)).elim
      | ok u =>
        obtain ⟨a, b⟩ := (fundingZip_told hl).mpr ⟨g1, t', i', g3, g4, hu⟩
        refine ⟨u, fundingUtxo_ok.mp hu, Nat.lt_of_not_le fun hge => ?_⟩
        exact noin _ (sumInputs_told.mpr ⟨k, us', .ok u, a, by rw [hz]; omega, b, .inr ⟨u, rfl, by rw [hz]; omega, rfl⟩⟩)
    have nomiss : ¬ Spec.V0.FeeTold p .missingUtxo := by
      rintro ⟨k, us', t', i', hr, a, b⟩
      obtain ⟨u, hu, -⟩ := reach hr
      have c := fundingUtxo_ok.mpr hu
      rw [fundingUtxo_told.mpr (.inl ⟨rfl, a, b⟩)] at c; cases c
    have noout : ¬ Spec.V0.FeeTold p .psbtUtxoOutOfbounds := by
      rintro ⟨k, us', t', i', tx, hr, a, b, b'⟩
      obtain ⟨u, hu, -⟩ := reach hr
      have c := fundingUtxo_ok.mpr hu
      rw [fundingUtxo_told.mpr (.inr ⟨rfl, a, tx, b, b'⟩)] at c; cases c
    have noinp : ∀ {k us' t' i' u'}, Spec.V0.Reached p k us' t' i' → Spec.V0.FundedBy t' i' u' →
        ¬ 2 ^ 64 ≤ Spec.total (us'.map TxOut.value) + u'.value.toNat := by
      intro k us' t' i' u' hr hff hge
      obtain ⟨u, hu, hlt⟩ := reach hr
      have a := fundingUtxo_ok.mpr hu
      rw [fundingUtxo_ok.mpr hff] at a; cases a
      omega
    simp only [V2.orFail, mapErr, ok_bind]
    cases h2 : sumOutputs 0 p.unsignedTx.output with
    | error e2 =>
      obtain ⟨rfl, h3⟩ := sumOutputs_err h2
      rw [hz, Nat.zero_add] at h3
      have : (Except.error Err.feeOverflow : Except Err UInt64) = .error e ↔ Spec.V0.FeeTold p e := by
        simp only [Except.error.injEq]
        constructor
        · rintro rfl; exact .inr ⟨us, hf, by omega, h3⟩
        · intro h
          cases e with
          | missingUtxo => exact (nomiss h).elim
          | psbtUtxoOutOfbounds => exact (noout h).elim
          | feeOverflow => rfl
          | negativeFee => obtain ⟨us', -, -, g3⟩ := h; unfold Spec.V0.totalOut at g3; omega
          | _ => exact h.elim
      rw [← this]
      simp [Except.error.injEq]
    | ok o =>
      rw [sumOutputs_ok, hz, Nat.zero_add] at h2
      have ho := o.toNat_lt
      simp only [ok_bind]
      have houts : Spec.V0.totalOut p = o.toNat := h2.symm
      constructor
      · intro h
        split at h
        · cases h
        · rename_i hs
          rw [checkedSub_none] at hs
          cases h
          exact ⟨us, hf, by omega, by omega⟩
      · intro h
        cases e with
        | missingUtxo => exact (nomiss h).elim
        | psbtUtxoOutOfbounds => exact (noout h).elim
        | feeOverflow =>
          rcases h with ⟨k, us', t', i', u', hr, hff, hge⟩ | ⟨us', -, -, g3⟩
          · exact (noinp hr hff hge).elim
          · omega
        | negativeFee =>
          obtain ⟨us', g1, g2, -⟩ := h
          rw [uniq g1] at g2
          have : checkedSub i o = none := checkedSub_none.mpr (by omega)
          rw [this]
        | _ => exact h.elim

/-- C123. What extraction with a limit from a PSBT v0 refuses, exactly: an output spent is not known; the outputs are worth
more than the inputs; the rate of the transaction, which is the one given, is above the limit; or amounts do not fit 64 bits,
which is reported as a rate of 2^64-1 (missing for the full property: that this is not a rate, and the outputs may even be
worth more than the inputs, see `C123_counterexample`). -/
theorem C123_v0_extract_partial (p : Psbt L) (max : UInt64) (e : ExtractErr L) :
    p.extractWithLimit max = .error (.err e) ↔
      p.inputs.length = p.unsignedTx.input.length ∧
      ((e = .missingInputValue p.extractUnchecked ∧ Spec.V0.FeeTold p .missingUtxo) ∨
       (e = .sendingTooMuch p ∧ Spec.V0.FeeTold p .negativeFee) ∨
       (e = .absurdFeeRate (2 ^ 64 - 1) p.extractUnchecked ∧ Spec.V0.FeeTold p .feeOverflow) ∨
       ∃ f r, p.fee = .ok f ∧ r = min (f.toNat * 1000) (2 ^ 64 - 1) / p.extractUnchecked.weight ∧ max.toNat < r ∧
         e = .absurdFeeRate r p.extractUnchecked) := by
  have told := C123_v0_fee p
  have hw := weight_pos p.extractUnchecked
  unfold Psbt.extractWithLimit
  cases hf : p.fee with
  | error x =>
    cases x with
    | panic s =>
      simp only [Except.error.injEq, reduceCtorEq, false_iff, false_and, exists_false, or_false]
      rintro ⟨hl, h⟩
      rcases h with ⟨-, h⟩ | ⟨-, h⟩ | ⟨-, h⟩ <;> (have := (told _).mpr ⟨hl, h⟩; rw [hf] at this; cases this)
    | err x =>
      obtain ⟨hl, hx⟩ := (told x).mp hf
      have only : ∀ {y}, Spec.V0.FeeTold p y → y = x := fun hy => by
        have := (told _).mpr ⟨hl, hy⟩
        rw [hf] at this; cases this; rfl
      simp only [hl, true_and, reduceCtorEq, false_and, exists_false, or_false]
      cases x with
      | missingUtxo =>
        simp only [Except.error.injEq, Fail.err.injEq]
        constructor
        · rintro rfl; exact .inl ⟨rfl, hx⟩
        · rintro (⟨rfl, -⟩ | ⟨-, h⟩ | ⟨-, h⟩)
          · rfl
          · cases only h
          · cases only h
      | negativeFee =>
        simp only [Except.error.injEq, Fail.err.injEq]
        constructor
        · rintro rfl; exact .inr (.inl ⟨rfl, hx⟩)
        · rintro (⟨-, h⟩ | ⟨rfl, -⟩ | ⟨-, h⟩)
          · cases only h
          · rfl
          · cases only h
      | feeOverflow =>
        simp only [Except.error.injEq, Fail.err.injEq]
        constructor
        · rintro rfl; exact .inr (.inr ⟨rfl, hx⟩)
        · rintro (⟨-, h⟩ | ⟨-, h⟩ | ⟨rfl, -⟩)
          · cases only h
          · cases only h
          · rfl
      | psbtUtxoOutOfbounds =>
        simp only [Except.error.injEq, reduceCtorEq, false_iff]
        rintro (⟨-, h⟩ | ⟨-, h⟩ | ⟨-, h⟩) <;> cases only h
      | _ => exact hx.elim
  | ok f =>
    have hl : p.inputs.length = p.unsignedTx.input.length := Classical.byContradiction fun hn => by
      unfold Psbt.fee Psbt.fundingUtxos at hf
      rw [if_pos hn] at hf; cases hf
    have nof : ∀ y, ¬ Spec.V0.FeeTold p y := fun y h => by
      have := (told y).mpr ⟨hl, h⟩
      rw [hf] at this; cases this
    simp only [hl, true_and, nof, and_false, false_or]
    rw [if_neg (by omega)]
    constructor
    · intro h
      split at h
      · rename_i hr
        cases h
        exact ⟨f, _, rfl, rfl, hr, rfl⟩
      · cases h
    · rintro ⟨f', r, h1, rfl, h4, rfl⟩
      cases h1
      rw [if_pos (show feeRate f p.extractUnchecked.weight > max.toNat from h4)]
      rfl

/-- C123 fails for amounts that add up to more than 64 bits: an absurd fee rate is reported although the outputs are worth
more than the inputs. -/
theorem C123_counterexample : ∃ (p : Psbt DL) (us : List TxOut), Spec.V0.Funding p.unsignedTx.input p.inputs us ∧
    Spec.total (us.map TxOut.value) < Spec.V0.totalOut p ∧
    p.extractTx = .error (.err (.absurdFeeRate (2 ^ 64 - 1) p.extractUnchecked)) := C49_overflow_counterexample

example : Spec.V0.FeeTold (eP (eW 20) cI) .missingUtxo := ((C123_v0_fee _ _).mp (by decide +kernel)).2
example : Spec.V0.FeeTold (eP (eW 20) (eW 5)) .negativeFee := ((C123_v0_fee _ _).mp (by decide +kernel)).2
example : Spec.V0.FeeTold (eP (eW 0xFFFFFFFFFFFFFFFF) (eW 1)) .feeOverflow := ((C123_v0_fee _ _).mp (by decide +kernel)).2
example : Spec.V0.FeeTold (eP { cI with nonWitnessUtxo := some ⟨2, 0, [], []⟩ } cI) .psbtUtxoOutOfbounds :=
  ((C123_v0_fee _ _).mp (by decide +kernel)).2

end V0
end Psbt
