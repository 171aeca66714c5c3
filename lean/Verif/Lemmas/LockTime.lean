/- Lemmas about lock time determination. -/
import Verif.Model.V2.Roles
import Verif.Spec.LockTime
namespace Psbt.V2
open Psbt

theorem u32_le_total (a b : UInt32) : a ≤ b ∨ b ≤ a := by
  simp only [UInt32.le_iff_toNat_le]; omega

theorem foldl_optMax_none {l : List (Option UInt32)} {a : Option UInt32} (h : l.foldl optMax a = none) :
    a = none ∧ ∀ b ∈ l, b = none := by
  induction l generalizing a with
  | nil => exact ⟨h, by simp⟩
  | cons b l ih =>
    obtain ⟨h1, h2⟩ := ih (a := optMax a b) h
    have : a = none ∧ b = none := by
      revert h1
      cases a <;> cases b <;> simp only [optMax] <;> first | (split <;> simp) | simp
    exact ⟨this.1, by simpa using ⟨this.2, h2⟩⟩

theorem foldl_optMax_some {l : List (Option UInt32)} {a : Option UInt32} {x : UInt32} (h : l.foldl optMax a = some x) :
    some x ∈ a :: l ∧ ∀ y, some y ∈ a :: l → y ≤ x := by
  induction l generalizing a with
  | nil =>
    simp only [List.foldl_nil] at h
    subst h
    simp only [List.mem_singleton, Option.some.injEq, true_and]
    rintro y rfl
    simp [UInt32.le_iff_toNat_le]
  | cons b l ih =>
    obtain ⟨h1, h2⟩ := ih (a := optMax a b) h
    have hm : ∀ z, some z = a ∨ some z = b → ∃ w, optMax a b = some w ∧ z ≤ w := by
      rintro z (rfl | rfl)
      · cases b with
        | none => exact ⟨z, rfl, by simp [UInt32.le_iff_toNat_le]⟩
        | some b =>
          simp only [optMax]
          split
          · exact ⟨_, rfl, by assumption⟩
          · exact ⟨_, rfl, by simp [UInt32.le_iff_toNat_le]⟩
      · cases a with
        | none => exact ⟨z, rfl, by simp [UInt32.le_iff_toNat_le]⟩
        | some a =>
          simp only [optMax]
          split
          · exact ⟨_, rfl, by simp [UInt32.le_iff_toNat_le]⟩
          · rename_i hn
            exact ⟨_, rfl, (u32_le_total a z).resolve_left hn⟩
    have hs : optMax a b = a ∨ optMax a b = b := by
      cases a <;> cases b <;> simp only [optMax] <;> first | (split <;> simp) | simp
    constructor
    · rcases List.mem_cons.mp h1 with h3 | h3
      · rcases hs with e | e <;> rw [e] at h3 <;> simp [h3]
      · simp [h3]
    · intro y hy
      simp only [List.mem_cons] at hy
      rcases hy with hy | hy | hy
      · obtain ⟨w, e, hle⟩ := hm y (.inl hy)
        have := h2 w (by rw [e]; simp)
        simp only [UInt32.le_iff_toNat_le] at *; omega
      · obtain ⟨w, e, hle⟩ := hm y (.inr hy)
        have := h2 w (by rw [e]; simp)
        simp only [UInt32.le_iff_toNat_le] at *; omega
      · exact h2 y (by simp [hy])

/-- `iterMax` of a list with some value: that value is the greatest one. -/
theorem iterMax_of_mem {l : List (Option UInt32)} {y : UInt32} (h : some y ∈ l) :
    ∃ x, iterMax l = some (some x) ∧ some x ∈ l ∧ ∀ z, some z ∈ l → z ≤ x := by
  cases l with
  | nil => simp at h
  | cons a l =>
    simp only [iterMax]
    cases e : l.foldl optMax a with
    | none =>
      obtain ⟨h1, h2⟩ := foldl_optMax_none e
      rcases List.mem_cons.mp h with h3 | h3
      · rw [h1] at h3; cases h3
      · cases h2 _ h3
    | some x => exact ⟨x, rfl, foldl_optMax_some e⟩

end Psbt.V2
