/- C17, C18: the lock time of a PSBT v2. -/
import Verif.Lemmas.LockTime
import Verif.Spec.Demo
namespace Psbt.V2
open Psbt

variable {L : Lib}

/-- C17, C18 in one: the lock time is determined exactly as BIP-370 says, or there is a conflict. -/
theorem lockTime_cases (p : Psbt L) :
    (∃ n, p.determineLockTime = .ok n ∧ Spec.LockTime p n ∧ ¬ Spec.Conflict p) ∨
    (p.determineLockTime = .error (.err .conflict) ∧ Spec.Conflict p) := by
  unfold Psbt.determineLockTime
  by_cases hc : p.inputs.any Input.requiresTime && p.inputs.any Input.requiresHeight
  · right
    rw [if_pos hc]
    refine ⟨rfl, ?_⟩
    simp only [Bool.and_eq_true, List.any_eq_true, Input.requiresTime, Input.requiresHeight, Option.isSome_iff_ne_none,
      Option.isNone_iff_eq_none] at hc
    obtain ⟨⟨i, hi, h1, h2⟩, ⟨j, hj, h3, h4⟩⟩ := hc
    exact ⟨⟨i, hi, .inl h1, h2⟩, ⟨j, hj, .inr h3, h4⟩⟩
  · left
    rw [if_neg hc]
    have hnc : ¬ Spec.Conflict p := by
      rintro ⟨⟨i, hi, h1, h2⟩, ⟨j, hj, h3, h4⟩⟩
      apply hc
      simp only [Bool.and_eq_true, List.any_eq_true, Input.requiresTime, Input.requiresHeight, Option.isSome_iff_ne_none,
        Option.isNone_iff_eq_none]
      exact ⟨⟨i, hi, h1.resolve_right (by simp [h2]), h2⟩, ⟨j, hj, h3.resolve_left (by simp [h4]), h4⟩⟩
    by_cases hl : p.inputs.any Input.hasLockTime
    · rw [if_pos hl]
      simp only [List.any_eq_true, Input.hasLockTime, Bool.or_eq_true, Option.isSome_iff_ne_none] at hl
      obtain ⟨i, hi, hil⟩ := hl
      by_cases ha : p.inputs.all Input.satisfiedWithHeight
      · rw [if_pos ha]
        simp only [List.all_eq_true] at ha
        have hsat : ∀ j ∈ p.inputs, Spec.Constrained j → ∃ h, j.minHeight = some h := by
          intro j hj hcj
          have := ha j hj
          revert hcj this
          simp only [Spec.Constrained, Input.satisfiedWithHeight, Input.requiresHeight]
          cases j.minTime <;> cases j.minHeight <;> simp
        obtain ⟨h0, e0⟩ := hsat i hi hil
        obtain ⟨x, e, hm, hmax⟩ := iterMax_of_mem (l := p.inputs.map fun i => i.minHeight.map Subtype.val) (y := h0.1)
          (List.mem_map.mpr ⟨i, hi, by rw [e0]; rfl⟩)
        rw [e]
        obtain ⟨j, hj, ej⟩ := List.mem_map.mp hm
        cases hjm : j.minHeight with
        | none => rw [hjm] at ej; cases ej
        | some h =>
          rw [hjm] at ej; cases ej
          refine ⟨_, rfl, .height h ⟨j, hj, hjm⟩ ?_, hnc⟩
          intro k hk hck
          obtain ⟨h', e'⟩ := hsat k hk hck
          exact ⟨h', e', hmax _ (List.mem_map.mpr ⟨k, hk, by rw [e']; rfl⟩)⟩
      · rw [if_neg ha]
        have hnh : ∃ k ∈ p.inputs, Spec.Constrained k ∧ k.minHeight = none := by
          apply Classical.byContradiction
          intro hcon
          apply ha
          simp only [List.all_eq_true]
          intro k hk
          have : ¬ (Spec.Constrained k ∧ k.minHeight = none) := fun h => hcon ⟨k, hk, h⟩
          revert this
          simp only [Spec.Constrained, Input.satisfiedWithHeight, Input.requiresHeight]
          cases k.minTime <;> cases k.minHeight <;> simp
        have hsat : ∀ j ∈ p.inputs, Spec.Constrained j → ∃ h, j.minTime = some h := by
          intro j hj hcj
          cases ht : j.minTime with
          | some t => exact ⟨t, rfl⟩
          | none => exact absurd ⟨hnh, ⟨j, hj, hcj, ht⟩⟩ hnc
        obtain ⟨h0, e0⟩ := hsat i hi hil
        obtain ⟨x, e, hm, hmax⟩ := iterMax_of_mem (l := p.inputs.map fun i => i.minTime.map Subtype.val) (y := h0.1)
          (List.mem_map.mpr ⟨i, hi, by rw [e0]; rfl⟩)
        rw [e]
        obtain ⟨j, hj, ej⟩ := List.mem_map.mp hm
        cases hjm : j.minTime with
        | none => rw [hjm] at ej; cases ej
        | some h =>
          rw [hjm] at ej; cases ej
          refine ⟨_, rfl, .time h hnh ⟨j, hj, hjm⟩ ?_, hnc⟩
          intro k hk hck
          obtain ⟨h', e'⟩ := hsat k hk hck
          exact ⟨h', e', hmax _ (List.mem_map.mpr ⟨k, hk, by rw [e']; rfl⟩)⟩
    · rw [if_neg hl]
      refine ⟨_, rfl, .fallback ?_, hnc⟩
      intro j hj hcj
      apply hl
      simp only [List.any_eq_true, Input.hasLockTime, Bool.or_eq_true, Option.isSome_iff_ne_none]
      exact ⟨j, hj, hcj⟩

/-- The specification determines the lock time. -/
theorem lockTime_unique {p : Psbt L} {m n : UInt32} (hm : Spec.LockTime p m) (hn : Spec.LockTime p n) : m = n := by
  have anti : ∀ a b : UInt32, a ≤ b → b ≤ a → a = b := fun a b h1 h2 =>
    UInt32.toNat_inj.mp (Nat.le_antisymm (UInt32.le_iff_toNat_le.mp h1) (UInt32.le_iff_toNat_le.mp h2))
  have ch : ∀ (i : Input L) (h : Height), i.minHeight = some h → Spec.Constrained i := fun i h e => .inr (by simp [e])
  have ct : ∀ (i : Input L) (h : Time), i.minTime = some h → Spec.Constrained i := fun i h e => .inl (by simp [e])
  cases hm with
  | fallback h =>
    cases hn with
    | fallback => rfl
    | height k mem all => obtain ⟨i, hi, e⟩ := mem; exact absurd (ch i k e) (h i hi)
    | time k nh mem all => obtain ⟨i, hi, e⟩ := mem; exact absurd (ct i k e) (h i hi)
  | height k mem all =>
    obtain ⟨i, hi, e⟩ := mem
    cases hn with
    | fallback h => exact absurd (ch i k e) (h i hi)
    | height k' mem' all' =>
      obtain ⟨j, hj, e'⟩ := mem'
      obtain ⟨a, ea, ha⟩ := all j hj (ch j k' e')
      obtain ⟨b, eb, hb⟩ := all' i hi (ch i k e)
      rw [e'] at ea; rw [e] at eb
      cases ea; cases eb
      exact anti _ _ hb ha
    | time k' nh mem' all' =>
      obtain ⟨j, hj, hc, hn⟩ := nh
      obtain ⟨a, ea, ha⟩ := all j hj hc
      rw [hn] at ea; cases ea
  | time k nh mem all =>
    obtain ⟨i, hi, e⟩ := mem
    cases hn with
    | fallback h => exact absurd (ct i k e) (h i hi)
    | height k' mem' all' =>
      obtain ⟨j, hj, hc, hn⟩ := nh
      obtain ⟨a, ea, ha⟩ := all' j hj hc
      rw [hn] at ea; cases ea
    | time k' nh' mem' all' =>
      obtain ⟨j, hj, e'⟩ := mem'
      obtain ⟨a, ea, ha⟩ := all j hj (ct j k' e')
      obtain ⟨b, eb, hb⟩ := all' i hi (ct i k e)
      rw [e'] at ea; rw [e] at eb
      cases ea; cases eb
      exact anti _ _ hb ha

/-- C17. The determined lock time is the one BIP-370 prescribes. -/
theorem C17_lock_time_iff (p : Psbt L) (n : UInt32) : p.determineLockTime = .ok n ↔ Spec.LockTime p n := by
  rcases lockTime_cases p with ⟨m, e, h1, h2⟩ | ⟨e, ⟨i, hi, ci, ni⟩, ⟨j, hj, cj, nj⟩⟩
  · rw [e]
    constructor
    · rintro h; cases h; exact h1
    · rintro h; rw [lockTime_unique h h1]
  · rw [e]
    constructor
    · intro h; cases h
    · intro h
      cases h with
      | fallback h => exact absurd ci (h i hi)
      | height k mem all => obtain ⟨a, ea, -⟩ := all i hi ci; rw [ni] at ea; cases ea
      | time k nh mem all => obtain ⟨a, ea, -⟩ := all j hj cj; rw [nj] at ea; cases ea

/-- C17. There is an error exactly if no kind of lock time suits all inputs. -/
theorem C17_error_iff (p : Psbt L) (e : LockTimeErr) : p.determineLockTime = .error (.err e) ↔ Spec.Conflict p := by
  cases e
  rcases lockTime_cases p with ⟨m, e, h1, h2⟩ | ⟨e, h⟩
  · rw [e]
    constructor
    · intro h; cases h
    · intro h; exact absurd h h2
  · rw [e]; simp [h]

/-- C17, what the user cares about: the lock time satisfies every input that requires one. -/
theorem C17_satisfies_every_input {p : Psbt L} {n : UInt32} (h : p.determineLockTime = .ok n) :
    ∀ i ∈ p.inputs, Spec.Constrained i →
      (n < 500000000 ∧ ∃ h', i.minHeight = some h' ∧ h'.1 ≤ n) ∨ (500000000 ≤ n ∧ ∃ t, i.minTime = some t ∧ t.1 ≤ n) := by
  intro i hi hc
  cases (C17_lock_time_iff p n).mp h with
  | fallback h' => exact absurd hc (h' i hi)
  | height k mem all => exact .inl ⟨k.2, all i hi hc⟩
  | time k nh mem all => exact .inr ⟨k.2, all i hi hc⟩

/-- C18. Determining the lock time never panics. -/
theorem C18_never_panics (p : Psbt L) (why : String) : p.determineLockTime ≠ .error (.panic why) := by
  rcases lockTime_cases p with ⟨m, e, -⟩ | ⟨e, -⟩ <;> rw [e] <;> simp

section Examples
def ltInput (t : Option Time) (h : Option Height) : Input (Demo.lib false) :=
  { Input.new (Demo.lib false) ⟨Demo.rep 32 7, 1⟩ with minTime := t, minHeight := h }
def ltPsbt (is : List (Input (Demo.lib false))) : Psbt (Demo.lib false) :=
  ⟨{ Global.new _ with fallbackLockTime := some 99 }, is, []⟩
def t1 : Time := ⟨500000001, by decide⟩
def t2 : Time := ⟨500000002, by decide⟩
def h1 : Height := ⟨11, by decide⟩
def h2 : Height := ⟨12, by decide⟩
example : (ltPsbt [ltInput none none]).determineLockTime = .ok 99 := by decide
example : (ltPsbt [ltInput none none, ltInput (some t2) (some h1), ltInput none (some h2)]).determineLockTime = .ok 12 := by decide
example : (ltPsbt [ltInput (some t2) (some h1), ltInput (some t1) none]).determineLockTime = .ok 500000002 := by decide
example : (ltPsbt [ltInput (some t2) none, ltInput none (some h2)]).determineLockTime = .error (.err .conflict) := by decide
end Examples

end Psbt.V2
