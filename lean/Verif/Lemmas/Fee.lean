/- Lemmas about sums, weights and collected results. -/
import Verif.Model.Fee
import Verif.Spec.Fee
import Verif.Lemmas.Wire
namespace Psbt

theorem checkedAdd_some {a b c : UInt64} : checkedAdd a b = some c ↔ c.toNat = a.toNat + b.toNat := by
  unfold checkedAdd
  split
  · rename_i h
    rw [Option.some.injEq]
    constructor
    · rintro rfl; rw [UInt64.toNat_add]; omega
    · intro e; apply UInt64.toNat_inj.mp; rw [UInt64.toNat_add, e]; omega
  · rename_i h
    simp only [reduceCtorEq, false_iff]
    intro e
    have := c.toNat_lt
    omega

theorem checkedAdd_none {a b : UInt64} : checkedAdd a b = none ↔ 2 ^ 64 ≤ a.toNat + b.toNat := by
  unfold checkedAdd
  split <;> simp <;> omega

theorem checkedSub_some {a b c : UInt64} : checkedSub a b = some c ↔ a.toNat = b.toNat + c.toNat := by
  unfold checkedSub
  split
  · rename_i h
    rw [UInt64.le_iff_toNat_le] at h
    rw [Option.some.injEq]
    constructor
    · rintro rfl; rw [UInt64.toNat_sub_of_le _ _ (UInt64.le_iff_toNat_le.mpr h)]; omega
    · intro e; apply UInt64.toNat_inj.mp; rw [UInt64.toNat_sub_of_le _ _ (UInt64.le_iff_toNat_le.mpr h)]; omega
  · rename_i h
    rw [UInt64.le_iff_toNat_le] at h
    simp only [reduceCtorEq, false_iff]
    omega

theorem checkedSub_none {a b : UInt64} : checkedSub a b = none ↔ a.toNat < b.toNat := by
  unfold checkedSub
  split
  · rename_i h; rw [UInt64.le_iff_toNat_le] at h; simp; omega
  · rename_i h; rw [UInt64.le_iff_toNat_le] at h; simp; omega

theorem sumOutputs_ok {acc r : UInt64} {l : List UInt64} :
    sumOutputs acc l = .ok r ↔ r.toNat = acc.toNat + Spec.total l := by
  induction l generalizing acc with
  | nil =>
    simp only [sumOutputs, Except.ok.injEq, Spec.total, List.map_nil, List.sum_nil, Nat.add_zero]
    exact ⟨fun h => by rw [h], fun h => (UInt64.toNat_inj.mp h).symm⟩
  | cons a l ih =>
    simp only [sumOutputs]
    have ht : Spec.total (a :: l) = a.toNat + Spec.total l := by simp [Spec.total]
    cases e : checkedAdd acc a with
    | none =>
      rw [checkedAdd_none] at e
      have := r.toNat_lt
      simp only [reduceCtorEq, false_iff]
      omega
    | some b =>
      rw [checkedAdd_some] at e
      simp only [ih]
      omega

theorem sumOutputs_err {acc : UInt64} {l : List UInt64} {e : FeeErr} :
    sumOutputs acc l = .error e ↔ e = .outputOverflow ∧ 2 ^ 64 ≤ acc.toNat + Spec.total l := by
  induction l generalizing acc with
  | nil =>
    simp only [sumOutputs, reduceCtorEq, Spec.total, List.map_nil, List.sum_nil, Nat.add_zero, false_iff, not_and]
    have := acc.toNat_lt
    omega
  | cons a l ih =>
    simp only [sumOutputs]
    have ht : Spec.total (a :: l) = a.toNat + Spec.total l := by simp [Spec.total]
    cases e' : checkedAdd acc a with
    | none =>
      rw [checkedAdd_none] at e'
      simp only [Except.error.injEq]
      constructor
      · rintro rfl; exact ⟨rfl, by omega⟩
      · rintro ⟨rfl, -⟩; rfl
    | some b =>
      rw [checkedAdd_some] at e'
      simp only [ih]
      rw [e', ht, Nat.add_assoc]

theorem sumInputs_ok {acc r : UInt64} {l : List (Except FundingErr TxOut)} :
    sumInputs acc l = .ok r ↔ ∃ us : List TxOut, l = us.map .ok ∧ r.toNat = acc.toNat + Spec.total (us.map TxOut.value) := by
  induction l generalizing acc with
  | nil =>
    simp only [sumInputs, Except.ok.injEq]
    constructor
    · rintro rfl; exact ⟨[], rfl, by simp [Spec.total]⟩
    · rintro ⟨us, h1, h2⟩
      have : us = [] := by simpa using h1.symm
      subst this
      simp only [Spec.total, List.map_nil, List.sum_nil, Nat.add_zero] at h2
      exact (UInt64.toNat_inj.mp h2).symm
  | cons a l ih =>
    simp only [sumInputs]
    cases a with
    | error e =>
      simp only [reduceCtorEq, false_iff, not_exists, not_and]
      intro us h
      cases us <;> simp at h
    | ok u =>
      have ht : ∀ us : List TxOut, Spec.total ((u :: us).map TxOut.value) = u.value.toNat + Spec.total (us.map TxOut.value) := by
        intro us; simp [Spec.total]
      cases e : checkedAdd acc u.value with
      | none =>
        simp only [e]
        rw [checkedAdd_none] at e
        simp only [reduceCtorEq, false_iff, not_exists, not_and]
        intro us h1 h2
        have := r.toNat_lt
        cases us with
        | nil => simp at h1
        | cons v us =>
          simp only [List.map_cons, List.cons.injEq, Except.ok.injEq] at h1
          rw [← h1.1, ht] at h2
          omega
      | some b =>
        simp only [e]
        rw [checkedAdd_some] at e
        simp only [ih]
        constructor
        · rintro ⟨us, h1, h2⟩
          exact ⟨u :: us, by rw [h1]; rfl, by rw [ht]; omega⟩
        · rintro ⟨us, h1, h2⟩
          cases us with
          | nil => simp at h1
          | cons v us =>
            simp only [List.map_cons, List.cons.injEq, Except.ok.injEq] at h1
            rw [← h1.1, ht] at h2
            exact ⟨us, h1.2, by omega⟩

theorem sumInputs_err {acc : UInt64} {l : List (Except FundingErr TxOut)} {e : FeeErr} (h : sumInputs acc l = .error e) :
    (∃ f, e = .fundingUtxo f ∧ .error f ∈ l) ∨
    (e = .inputOverflow ∧ ∃ us : List TxOut, us.map .ok <+: l ∧ 2 ^ 64 ≤ acc.toNat + Spec.total (us.map TxOut.value)) := by
  induction l generalizing acc with
  | nil => cases h
  | cons a l ih =>
    simp only [sumInputs] at h
    cases a with
    | error f => cases h; exact .inl ⟨f, rfl, by simp⟩
    | ok u =>
      cases e' : checkedAdd acc u.value with
      | none =>
        simp only [e'] at h; cases h
        rw [checkedAdd_none] at e'
        exact .inr ⟨rfl, [u], by simp, by simp [Spec.total]; omega⟩
      | some b =>
        simp only [e'] at h
        rw [checkedAdd_some] at e'
        rcases ih h with ⟨f, h1, h2⟩ | ⟨h1, us, h2, h3⟩
        · exact .inl ⟨f, h1, by simp [h2]⟩
        · refine .inr ⟨h1, u :: us, by simpa using h2, ?_⟩
          have : Spec.total ((u :: us).map TxOut.value) = u.value.toNat + Spec.total (us.map TxOut.value) := by simp [Spec.total]
          omega

theorem collect_ok {ε α : Type} {l : List (Out ε α)} {r : List α} : collect l = .ok r ↔ l = r.map .ok := by
  induction l generalizing r with
  | nil => simp only [collect, Except.ok.injEq]; constructor
           · rintro rfl; rfl
           · intro h; cases r with
             | nil => rfl
             | cons a r => simp at h
  | cons a l ih =>
    simp only [collect, bind_ok]
    constructor
    · rintro ⟨x, rfl, xs, h1, h2⟩
      cases h2
      rw [ih.mp h1]; rfl
    · intro h
      cases r with
      | nil => simp at h
      | cons x xs =>
        simp only [List.map_cons, List.cons.injEq] at h
        exact ⟨x, h.1, xs, ih.mpr h.2, rfl⟩

theorem weight_pos (t : Tx) : 0 < t.weight := by
  unfold Tx.weight encTxLegacy
  simp only [List.length_append]
  have : (encU32 t.version).length = 4 := by simp
  omega

end Psbt
