/- Bits of sequence numbers, and lookups of a satisfier. -/
import Verif.Spec.Finalize
import Verif.Lemmas.BMap
namespace Psbt
open Psbt Psbt.Spec

theorem bit_ne_zero (s : UInt32) (k : Nat) (hk : k < 32) (m : UInt32) (hm : m.toNat = 2 ^ k) :
    s &&& m ≠ 0 ↔ s.toNat / 2 ^ k % 2 = 1 := by
  rw [Ne, ← UInt32.toNat_inj, UInt32.toNat_and, hm]
  have key : s.toNat &&& 2 ^ k = 0 ↔ s.toNat.testBit k = false := by
    constructor
    · intro h
      have := congrArg (fun n => n.testBit k) h
      simpa [Nat.testBit_and, Nat.testBit_two_pow_self] using this
    · intro h
      apply Nat.eq_of_testBit_eq
      intro i
      rw [Nat.testBit_and, Nat.zero_testBit, Nat.testBit_two_pow]
      by_cases e : k = i
      · subst e; simp [h]
      · simp [e]
  show ¬ (s.toNat &&& 2 ^ k = 0) ↔ _
  rw [key, Nat.testBit_eq_decide_div_mod_eq]
  simp

theorem toUInt16_toNat (s : UInt32) : s.toUInt16.toNat = s.toNat % 2 ^ 16 := by simp

theorem relOperand_blocks (n : UInt16) : (relOperand (.blocks n)).toNat = n.toNat := by simp [relOperand]

theorem relOperand_time (n : UInt16) : (relOperand (.time n)).toNat = 2 ^ 22 + n.toNat := by
  have h := n.toNat_lt
  have := Nat.two_pow_add_eq_or_of_lt (b := n.toNat) (i := 22) (by omega) 1
  rw [Nat.mul_one] at this
  rw [this, Nat.or_comm]
  simp only [relOperand, UInt32.toNat_or, UInt16.toNat_toUInt32]
  rfl

/-- A lock is implied by a sequence number exactly if `CHECKSEQUENCEVERIFY` passes, the transaction version aside. -/
theorem implied_iff {n : RelLock} {s : UInt32} :
    (match relOfSequence s with | none => false | some l => n.isImpliedBy l) = true ↔ CsvPasses (relOperand n) 2 s := by
  have hs := s.toNat_lt
  have b31 := bit_ne_zero s 31 (by omega) 0x80000000 rfl
  have b22 := bit_ne_zero s 22 (by omega) 0x00400000 rfl
  unfold relOfSequence CsvPasses
  by_cases h1 : s &&& 0x80000000 ≠ 0
  · rw [if_pos h1]
    rw [b31] at h1
    simp only [Bool.false_eq_true, false_iff]
    rintro ⟨-, h, -⟩
    omega
  · rw [if_neg h1]
    rw [b31] at h1
    by_cases h2 : s &&& 0x00400000 ≠ 0
    · rw [if_pos h2]
      rw [b22] at h2
      cases n with
      | blocks n =>
        have := n.toNat_lt
        simp only [RelLock.isImpliedBy, Bool.false_eq_true, false_iff, relOperand_blocks]
        rintro ⟨-, -, h, -⟩
        omega
      | time n =>
        have := n.toNat_lt
        simp only [RelLock.isImpliedBy, decide_eq_true_eq, UInt16.le_iff_toNat_le, toUInt16_toNat, relOperand_time]
        constructor
        · intro h; refine ⟨by decide, by omega, by omega, by omega⟩
        · rintro ⟨-, -, -, h⟩; omega
    · rw [if_neg h2]
      rw [b22] at h2
      cases n with
      | time n =>
        have := n.toNat_lt
        simp only [RelLock.isImpliedBy, Bool.false_eq_true, false_iff, relOperand_time]
        rintro ⟨-, -, h, -⟩
        omega
      | blocks n =>
        have := n.toNat_lt
        simp only [RelLock.isImpliedBy, decide_eq_true_eq, UInt16.le_iff_toNat_le, toUInt16_toNat, relOperand_blocks]
        constructor
        · intro h; refine ⟨by decide, by omega, by omega, by omega⟩
        · rintro ⟨-, -, -, h⟩; omega

theorem preimage_iff {K : Type} [OrdKey K] [DecidableEq K] {m : BMap K Bytes} {k : K} {pre : FixedBytes 32} :
    (m.get k).bind preimage32? = some pre ↔ m.get k = some pre.1 := by
  cases m.get k with
  | none => simp
  | some b =>
    simp only [Option.bind_some, preimage32?]
    split
    · rename_i h
      simp only [Option.some.injEq]
      constructor
      · rintro rfl; rfl
      · rintro rfl; rfl
    · rename_i h
      simp only [reduceCtorEq, Option.some.injEq, false_iff]
      rintro rfl; exact h pre.2

theorem findMap_some {A B : Type} {l : List A} {p : A → Bool} {f : A → B} {b : B} (h : (l.find? p).map f = some b) :
    ∃ a ∈ l, p a = true ∧ f a = b := by
  obtain ⟨a, ha, rfl⟩ := Option.map_eq_some_iff.mp h
  exact ⟨a, List.mem_of_find?_eq_some ha, List.find?_some ha, rfl⟩

theorem findMap_ne {A B : Type} {l : List A} {p : A → Bool} {f : A → B} {a : A} (ha : a ∈ l) (hp : p a = true) :
    (l.find? p).map f ≠ none := by
  intro h
  rw [Option.map_eq_none_iff, List.find?_eq_none] at h
  exact h a ha hp

end Psbt
