/-
Basic vocabulary of the model: bytes, results, ordered keys and `BTreeMap`.
-/
namespace Psbt

/-- A byte string (`Vec<u8>`, `&[u8]`, and what is left in a `BufRead`). -/
abbrev Bytes := List UInt8

/-- `[u8; n]` and the fixed-size hash types. -/
abbrev FixedBytes (n : Nat) := { b : Bytes // b.length = n }

/-- How a function that can panic fails: with an error value of the Rust error type, or by panicking
(`expect`, `unwrap`, slice index, arithmetic underflow, capacity overflow, `unreachable!`). -/
inductive Fail (ε : Type) where
  | err (e : ε)
  | panic (why : String)
  deriving DecidableEq, Repr

/-- Result of a function that may panic. -/
abbrev Out (ε α : Type) := Except (Fail ε) α

/-- Decidable equality of results; needed to check concrete executions by evaluation. -/
instance instDecidableEqExcept {ε α : Type} [DecidableEq ε] [DecidableEq α] :
    DecidableEq (Except ε α)
  | .ok a, .ok b => if h : a = b then isTrue (by rw [h]) else isFalse (by simpa using h)
  | .error a, .error b => if h : a = b then isTrue (by rw [h]) else isFalse (by simpa using h)
  | .ok _, .error _ => isFalse (by simp)
  | .error _, .ok _ => isFalse (by simp)

/-- `Result::map_err` / the `From` conversions applied by `?`. -/
def mapErr {ε ε' α : Type} (f : ε → ε') : Except ε α → Except ε' α
  | .ok a => .ok a
  | .error e => .error (f e)

/-- Key types of a `BTreeMap`: a strict linear order (Rust's `Ord`). -/
class OrdKey (K : Type) where
  lt : K → K → Bool
  irrefl : ∀ a, lt a a = false
  trans : ∀ a b c, lt a b = true → lt b c = true → lt a c = true
  tri : ∀ a b, lt a b = true ∨ a = b ∨ lt b a = true

/-- Lexicographic order of byte strings (Rust's `Ord` on `Vec<u8>` and slices). -/
def bytesLt : Bytes → Bytes → Bool
  | [], [] => false
  | [], _ :: _ => true
  | _ :: _, [] => false
  | a :: as, b :: bs => if a < b then true else if b < a then false else bytesLt as bs

theorem bytesLt_irrefl (a : Bytes) : bytesLt a a = false := by
  induction a with
  | nil => rfl
  | cons a as ih => simp [bytesLt, ih]

theorem bytesLt_trans (a b c : Bytes) : bytesLt a b = true → bytesLt b c = true → bytesLt a c = true := by
  induction a generalizing b c with
  | nil => cases b <;> cases c <;> simp [bytesLt]
  | cons a as ih =>
    cases b with
    | nil => simp [bytesLt]
    | cons b bs =>
      cases c with
      | nil => simp [bytesLt]
      | cons c cs =>
        simp only [bytesLt]
        intro h1 h2
        have := ih bs cs
        grind [UInt8.lt_iff_toNat_lt]

theorem u8_tri (a b : UInt8) : a < b ∨ a = b ∨ b < a := by
  simp only [UInt8.lt_iff_toNat_lt]
  rcases Nat.lt_trichotomy a.toNat b.toNat with h | h | h
  · exact .inl h
  · exact .inr (.inl (UInt8.toNat_inj.mp h))
  · exact .inr (.inr h)

theorem bytesLt_tri (a b : Bytes) : bytesLt a b = true ∨ a = b ∨ bytesLt b a = true := by
  induction a generalizing b with
  | nil => cases b <;> simp [bytesLt]
  | cons a as ih =>
    cases b with
    | nil => simp [bytesLt]
    | cons b bs =>
      have := ih bs
      simp only [bytesLt]
      have h3 : a < b ∨ a = b ∨ b < a := u8_tri a b
      grind [UInt8.lt_iff_toNat_lt]

instance : OrdKey Bytes := ⟨bytesLt, bytesLt_irrefl, bytesLt_trans, bytesLt_tri⟩

/-- Order on a subtype is inherited. -/
instance {K : Type} [OrdKey K] {p : K → Prop} : OrdKey { k // p k } where
  lt a b := OrdKey.lt a.1 b.1
  irrefl a := OrdKey.irrefl a.1
  trans a b c := OrdKey.trans a.1 b.1 c.1
  tri a b := by
    rcases OrdKey.tri a.1 b.1 with h | h | h
    · exact .inl h
    · exact .inr (.inl (Subtype.ext h))
    · exact .inr (.inr h)

instance : OrdKey UInt8 where
  lt a b := decide (a < b)
  irrefl a := by simp
  trans a b c := by simp only [decide_eq_true_eq, UInt8.lt_iff_toNat_lt]; omega
  tri a b := by simpa using u8_tri a b

instance : OrdKey Nat where
  lt a b := decide (a < b)
  irrefl a := by simp
  trans a b c := by simp only [decide_eq_true_eq]; omega
  tri a b := by simp only [decide_eq_true_eq]; omega

/-- Lexicographic order on pairs (Rust's derived `Ord`). -/
instance {A B : Type} [OrdKey A] [OrdKey B] [DecidableEq A] : OrdKey (A × B) where
  lt x y := OrdKey.lt x.1 y.1 || (decide (x.1 = y.1) && OrdKey.lt x.2 y.2)
  irrefl x := by simp [OrdKey.irrefl]
  trans x y z := by
    simp only [Bool.or_eq_true, Bool.and_eq_true, decide_eq_true_eq]
    have h1 := OrdKey.trans x.1 y.1 z.1
    have h2 := OrdKey.trans x.2 y.2 z.2
    grind
  tri x y := by
    simp only [Bool.or_eq_true, Bool.and_eq_true, decide_eq_true_eq]
    have h1 := OrdKey.tri x.1 y.1
    have h2 := OrdKey.tri x.2 y.2
    grind [Prod.ext_iff]

/-- Transport an order along an injection. -/
@[reducible] def OrdKey.ofInj {A B : Type} [OrdKey B] (f : A → B) (hf : ∀ a a', f a = f a' → a = a') : OrdKey A where
  lt a b := OrdKey.lt (f a) (f b)
  irrefl a := OrdKey.irrefl (f a)
  trans a b c := OrdKey.trans (f a) (f b) (f c)
  tri a b := by
    rcases OrdKey.tri (f a) (f b) with h | h | h
    · exact .inl h
    · exact .inr (.inl (hf _ _ h))
    · exact .inr (.inr h)

section BMap
variable {K V : Type} [OrdKey K] [DecidableEq K]

/-- Strictly increasing keys. -/
def KSorted : List (K × V) → Prop
  | [] => True
  | [_] => True
  | a :: b :: r => OrdKey.lt a.1 b.1 = true ∧ KSorted (b :: r)

/-- Insertion into a sorted association list, overwriting an existing entry. -/
def insertL (k : K) (v : V) : List (K × V) → List (K × V)
  | [] => [(k, v)]
  | (k', v') :: r =>
    if OrdKey.lt k k' then (k, v) :: (k', v') :: r
    else if k = k' then (k, v) :: r
    else (k', v') :: insertL k v r

/-- Lookup in an association list. -/
def getL (k : K) : List (K × V) → Option V
  | [] => none
  | (k', v') :: r => if k = k' then some v' else getL k r

omit [DecidableEq K] in
theorem KSorted.tail {a : K × V} {r : List (K × V)} (h : KSorted (a :: r)) : KSorted r := by
  cases r with
  | nil => trivial
  | cons b r => exact h.2

omit [DecidableEq K] in
theorem KSorted.lt_of_mem {a : K × V} {r : List (K × V)} (h : KSorted (a :: r)) :
    ∀ b ∈ r, OrdKey.lt a.1 b.1 = true := by
  induction r generalizing a with
  | nil => simp
  | cons c r ih =>
    intro b hb
    rcases List.mem_cons.mp hb with rfl | hb
    · exact h.1
    · exact OrdKey.trans _ _ _ h.1 (ih h.2 b hb)

omit [DecidableEq K] in
theorem KSorted.cons_of {a : K × V} {r : List (K × V)} (hr : KSorted r)
    (h : ∀ b ∈ r, OrdKey.lt a.1 b.1 = true) : KSorted (a :: r) := by
  cases r with
  | nil => trivial
  | cons b r => exact ⟨h b (by simp), hr⟩

theorem mem_insertL {k : K} {v : V} {l : List (K × V)} {x : K × V} (h : x ∈ insertL k v l) :
    x = (k, v) ∨ x ∈ l := by
  induction l with
  | nil => simpa [insertL] using h
  | cons a r ih =>
    obtain ⟨k', v'⟩ := a
    simp only [insertL] at h
    split at h
    · simpa using h
    · split at h
      · rcases List.mem_cons.mp h with h | h
        · exact .inl h
        · exact .inr (by simp [h])
      · rcases List.mem_cons.mp h with h | h
        · exact .inr (by simp [h])
        · rcases ih h with h | h
          · exact .inl h
          · exact .inr (by simp [h])

theorem KSorted.insertL {k : K} {v : V} {l : List (K × V)} (h : KSorted l) :
    KSorted (insertL k v l) := by
  induction l with
  | nil => trivial
  | cons a r ih =>
    obtain ⟨k', v'⟩ := a
    simp only [Psbt.insertL]
    split
    · rename_i hlt; exact ⟨hlt, h⟩
    · rename_i hnlt
      split
      · rename_i heq; subst heq
        exact KSorted.cons_of h.tail (fun b hb => h.lt_of_mem b hb)
      · rename_i hne
        refine KSorted.cons_of (ih h.tail) ?_
        intro b hb
        rcases mem_insertL hb with rfl | hb
        · rcases OrdKey.tri k k' with h | h | h
          · exact absurd h hnlt
          · exact absurd h hne
          · exact h
        · exact h.lt_of_mem b hb

/-- `alloc::collections::BTreeMap<K, V>`: association list with strictly increasing keys. -/
structure BMap (K V : Type) [OrdKey K] where
  l : List (K × V)
  sorted : KSorted l

namespace BMap

omit [DecidableEq K] in
@[ext] theorem ext' {m n : BMap K V} (h : m.l = n.l) : m = n := by
  cases m; cases n; cases h; rfl

instance [DecidableEq V] : DecidableEq (BMap K V) := fun a b =>
  if h : a.l = b.l then isTrue (BMap.ext' h) else isFalse (fun e => h (by rw [e]))

/-- `BTreeMap::new()`. -/
def empty : BMap K V := ⟨[], trivial⟩

instance : Inhabited (BMap K V) := ⟨empty⟩

/-- `BTreeMap::is_empty`. -/
def isEmpty (m : BMap K V) : Bool := m.l.isEmpty

/-- `BTreeMap::get`. -/
def get (m : BMap K V) (k : K) : Option V := getL k m.l

/-- `BTreeMap::insert` (overwrites). -/
def insert (m : BMap K V) (k : K) (v : V) : BMap K V := ⟨insertL k v m.l, m.sorted.insertL⟩

/-- `BTreeMap::extend`: insert all entries of the other map in order (the other map wins on conflict). -/
def extend (m n : BMap K V) : BMap K V := n.l.foldl (fun acc kv => acc.insert kv.1 kv.2) m

end BMap
end BMap

end Psbt
