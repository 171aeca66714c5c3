/- Facts about `BMap`. -/
import Verif.Model.Basic
namespace Psbt
variable {K V : Type} [OrdKey K] [DecidableEq K]

theorem OrdKey.ne_of_lt {a b : K} (h : OrdKey.lt a b = true) : a ≠ b := by
  rintro rfl; simp [OrdKey.irrefl] at h

theorem OrdKey.asymm {a b : K} (h : OrdKey.lt a b = true) : OrdKey.lt b a = false := by
  cases h' : OrdKey.lt b a with
  | false => rfl
  | true => have := OrdKey.trans _ _ _ h h'; simp [OrdKey.irrefl] at this

theorem getL_none_of_lt {k : K} {l : List (K × V)} (h : ∀ b ∈ l, OrdKey.lt k b.1 = true) :
    getL k l = none := by
  induction l with
  | nil => rfl
  | cons a r ih =>
    have h1 := OrdKey.ne_of_lt (h a (by simp))
    simp [getL, h1, ih (fun b hb => h b (by simp [hb]))]

theorem getL_insertL_self (k : K) (v : V) (l : List (K × V)) : getL k (insertL k v l) = some v := by
  induction l with
  | nil => simp [insertL, getL]
  | cons a r ih =>
    obtain ⟨k', v'⟩ := a
    simp only [insertL]
    split
    · simp [getL]
    · split
      · simp [getL]
      · rename_i h; simp [getL, h, ih]

theorem getL_insertL_ne {k k' : K} (h : k' ≠ k) (v : V) (l : List (K × V)) :
    getL k' (insertL k v l) = getL k' l := by
  induction l with
  | nil => simp [insertL, getL, h]
  | cons a r ih =>
    obtain ⟨k2, v2⟩ := a
    simp only [insertL]
    split
    · simp [getL, h]
    · split
      · rename_i heq; subst heq; simp [getL, h]
      · simp [getL, ih]

theorem getL_eq_some_mem {k : K} {v : V} {l : List (K × V)} (h : getL k l = some v) : (k, v) ∈ l := by
  induction l with
  | nil => simp [getL] at h
  | cons a r ih =>
    obtain ⟨k2, v2⟩ := a
    simp only [getL] at h
    split at h
    · rename_i heq; subst heq; simp at h; simp [h]
    · simp [ih h]

theorem getL_of_mem {k : K} {v : V} {l : List (K × V)} (hs : KSorted l) (h : (k, v) ∈ l) :
    getL k l = some v := by
  induction l with
  | nil => simp at h
  | cons a r ih =>
    obtain ⟨k2, v2⟩ := a
    rcases List.mem_cons.mp h with h | h
    · cases h; simp [getL]
    · have := OrdKey.ne_of_lt (hs.lt_of_mem _ h)
      simp only [getL]
      rw [if_neg (by intro e; exact this e.symm)]
      exact ih hs.tail h

theorem sorted_ext {l l' : List (K × V)} (h : KSorted l) (h' : KSorted l')
    (e : ∀ k, getL k l = getL k l') : l = l' := by
  induction l generalizing l' with
  | nil =>
    cases l' with
    | nil => rfl
    | cons a r => have := e a.1; simp [getL] at this
  | cons a r ih =>
    cases l' with
    | nil => have := e a.1; simp [getL] at this
    | cons b s =>
      have hab : a.1 = b.1 := by
        rcases OrdKey.tri a.1 b.1 with hlt | heq | hgt
        · have h1 := e a.1
          simp only [getL, if_true] at h1
          rw [if_neg (OrdKey.ne_of_lt hlt),
            getL_none_of_lt (fun c hc => OrdKey.trans _ _ _ hlt (h'.lt_of_mem c hc))] at h1
          cases h1
        · exact heq
        · have h1 := e b.1
          simp only [getL, if_true] at h1
          rw [if_neg (OrdKey.ne_of_lt hgt),
            getL_none_of_lt (fun c hc => OrdKey.trans _ _ _ hgt (h.lt_of_mem c hc))] at h1
          cases h1
      obtain ⟨ka, va⟩ := a
      obtain ⟨kb, vb⟩ := b
      simp only at hab
      subst hab
      have h1 := e ka
      simp only [getL, if_true, Option.some.injEq] at h1
      subst h1
      congr 1
      apply ih h.tail h'.tail
      intro k
      have := e k
      simp only [getL] at this
      by_cases hk : k = ka
      · subst hk
        rw [getL_none_of_lt (fun c hc => h.lt_of_mem c hc),
          getL_none_of_lt (fun c hc => h'.lt_of_mem c hc)]
      · simpa [hk] using this

namespace BMap

theorem ext_get {m n : BMap K V} (e : ∀ k, m.get k = n.get k) : m = n :=
  BMap.ext' (sorted_ext m.sorted n.sorted e)

@[simp] theorem get_empty (k : K) : (BMap.empty : BMap K V).get k = none := rfl

@[simp] theorem get_insert_self (m : BMap K V) (k : K) (v : V) : (m.insert k v).get k = some v :=
  getL_insertL_self k v m.l

theorem get_insert_ne (m : BMap K V) {k k' : K} (h : k' ≠ k) (v : V) :
    (m.insert k v).get k' = m.get k' := getL_insertL_ne h v m.l

theorem get_insert (m : BMap K V) (k k' : K) (v : V) :
    (m.insert k v).get k' = if k' = k then some v else m.get k' := by
  split
  · rename_i h; subst h; simp
  · rename_i h; exact get_insert_ne m h v

theorem mem_iff_get {m : BMap K V} {k : K} {v : V} : (k, v) ∈ m.l ↔ m.get k = some v :=
  ⟨getL_of_mem m.sorted, getL_eq_some_mem⟩

theorem insert_comm (m : BMap K V) {k k' : K} (h : k ≠ k') (v v' : V) :
    (m.insert k v).insert k' v' = (m.insert k' v').insert k v := by
  apply ext_get
  intro x
  simp only [get_insert]
  by_cases h1 : x = k'
  · subst h1; simp [Ne.symm h]
  · simp [h1]

theorem insert_idem (m : BMap K V) (k : K) (v v' : V) : (m.insert k v).insert k v' = m.insert k v' := by
  apply ext_get
  intro x
  simp only [get_insert]
  by_cases h1 : x = k <;> simp [h1]

theorem insert_get_self (m : BMap K V) {k : K} {v : V} (h : m.get k = some v) : m.insert k v = m := by
  apply ext_get
  intro x
  simp only [get_insert]
  by_cases h1 : x = k
  · subst h1; simp [h]
  · simp [h1]

theorem get_foldl_insert (l : List (K × V)) (m : BMap K V) (hs : KSorted l) (k : K) :
    (l.foldl (fun acc kv => acc.insert kv.1 kv.2) m).get k = (getL k l).or (m.get k) := by
  induction l generalizing m with
  | nil => simp [getL]
  | cons a r ih =>
    obtain ⟨ka, va⟩ := a
    simp only [List.foldl_cons, getL]
    rw [ih _ hs.tail, get_insert]
    by_cases h : k = ka
    · subst h
      rw [getL_none_of_lt (fun c hc => hs.lt_of_mem c hc)]
      simp
    · simp [h]

/-- `extend`: the other map's value if it has one, else this map's. -/
@[simp] theorem get_extend (m n : BMap K V) (k : K) : (m.extend n).get k = (n.get k).or (m.get k) :=
  get_foldl_insert n.l m n.sorted k

theorem extend_empty (m : BMap K V) : m.extend empty = m := rfl

theorem empty_extend (m : BMap K V) : empty.extend m = m := by
  apply ext_get; intro k; simp

theorem extend_self (m : BMap K V) : m.extend m = m := by
  apply ext_get; intro k; simp

theorem extend_assoc (a b c : BMap K V) : (a.extend b).extend c = a.extend (b.extend c) := by
  apply ext_get; intro k; simp [Option.or_assoc]

theorem extend_extend_right (m n : BMap K V) : (m.extend n).extend n = m.extend n := by
  rw [extend_assoc, extend_self]

theorem isEmpty_iff {m : BMap K V} : m.isEmpty = true ↔ m = empty := by
  constructor
  · intro h
    apply ext'
    simpa [isEmpty, empty] using h
  · rintro rfl; rfl

end BMap
end Psbt
