/- Finding a text in a message, for C117. -/
import Verif.Spec.ReportAbout
import Verif.Props.ReportCause
namespace Psbt
open Psbt.Spec

theorem occurs_list {w s : String} : Occurs w s ↔ w.toList <:+: s.toList := by
  constructor
  · rintro ⟨a, b, rfl⟩; exact ⟨a.toList, b.toList, by simp⟩
  · rintro ⟨a, b, h⟩
    refine ⟨String.ofList a, String.ofList b, String.toList_inj.mp ?_⟩
    simp [← h]

theorem occurs_dec {w s : String} (h : decide (w.toList <:+: s.toList) = true) : Occurs w s := occurs_list.mpr (of_decide_eq_true h)

/-- A phrase that begins in one piece of a message and ends with the next. -/
theorem occurs_phrase {w lit : String} (n : String) (h : decide (w.toList <:+ lit.toList) = true) : Occurs (w ++ n) (lit ++ n) := by
  obtain ⟨a, ha⟩ := of_decide_eq_true h
  refine ⟨String.ofList a, "", String.toList_inj.mp ?_⟩
  simp [← ha]
theorem occurs_phrase' {w lit : String} (x n : String) (h : decide (w.toList <:+ lit.toList) = true) : Occurs (w ++ n) (x ++ lit ++ n) := by
  rw [String.append_assoc]
  exact (occurs_phrase n h).left x
theorem occurs_after {w lit : String} (n : String) (h : decide (w.toList <+: lit.toList) = true) : Occurs (n ++ w) (n ++ lit) := by
  obtain ⟨a, ha⟩ := of_decide_eq_true h
  refine ⟨"", String.ofList a, String.toList_inj.mp ?_⟩
  simp [← ha]
theorem occurs_both {w lit w' lit' : String} (n : String) (h : decide (w.toList <:+ lit.toList) = true)
    (h' : decide (w'.toList <+: lit'.toList) = true) : Occurs (w ++ n ++ w') (lit ++ n ++ lit') := by
  obtain ⟨a, ha⟩ := of_decide_eq_true h
  obtain ⟨b, hb⟩ := of_decide_eq_true h'
  refine ⟨String.ofList a, String.ofList b, String.toList_inj.mp ?_⟩
  simp [← ha, ← hb]

syntax "occ" : tactic
macro_rules
  | `(tactic| occ) => `(tactic| first
    | with_reducible_and_instances exact occurs_self _
    | exact occurs_dec (by decide +kernel)
    | (with_reducible_and_instances refine occurs_phrase _ ?_); decide +kernel
    | (with_reducible_and_instances refine occurs_phrase' _ _ ?_); decide +kernel
    | (with_reducible_and_instances refine occurs_after _ ?_); decide +kernel
    | (with_reducible_and_instances refine occurs_both _ ?_ ?_) <;> decide +kernel
    | (with_reducible_and_instances refine Occurs.right _ ?_); occ
    | (with_reducible_and_instances refine Occurs.left _ ?_); occ)

theorem mentions_plain {m w : String} (h : Occurs w m) : Mentions (.plain m) w := by
  intro std s hs; cases hs; exact h
theorem mentions_because {m w : String} {f : Failure} (h : Occurs w m) : Mentions (.because m f) w := by
  intro std s hs
  cases std with
  | true => cases hs; exact h
  | false =>
    simp only [Failure.display, Bool.false_eq_true, if_false] at hs
    obtain ⟨t, -, hs⟩ := bind_ok.mp hs
    cases hs
    exact (h.right _).right _
theorem mentions_dropping {m w : String} {f : Failure} (h : Occurs w m) : Mentions (.dropping m f) w := by
  intro std s hs
  cases std with
  | true => cases hs; exact h
  | false =>
    simp only [Failure.display, Bool.false_eq_true, if_false] at hs
    obtain ⟨t, -, hs⟩ := bind_ok.mp hs
    cases hs
    exact (h.right _).right _
theorem mentions_inside {m w t : String} (h : Occurs w (m ++ t)) : Mentions (.inside m (.plain t)) w := by
  intro std s hs; cases hs; exact h
theorem mentions_quoting {m w t : String} (h : Occurs w (m ++ t)) : Mentions (.quoting m (.plain t)) w := by
  intro std s hs; cases hs; exact h
theorem mentions_first {m w : String} {f : Failure} (h : Occurs w m) : Mentions (.quotingFirst f m) w := by
  intro std s hs
  simp only [Failure.display] at hs
  obtain ⟨t, -, hs⟩ := bind_ok.mp hs
  cases hs
  exact h.left _
theorem mentions_first' {m w t : String} (h : Occurs w (t ++ m)) : Mentions (.quotingFirst (.plain t) m) w := by
  intro std s hs; cases hs; exact h

syntax "mention" : tactic
macro_rules
  | `(tactic| mention) => `(tactic| ((try dsimp only); (try dsimp only [V2.excludedMessage, V0.excludedMessage]); first
    | (with_reducible refine mentions_plain ?_); occ
    | (with_reducible refine mentions_because ?_); occ
    | (with_reducible refine mentions_dropping ?_); occ
    | (with_reducible refine mentions_inside ?_); occ
    | (with_reducible refine mentions_quoting ?_); occ
    | (with_reducible refine mentions_first ?_); occ
    | (with_reducible refine mentions_first' ?_); occ))

/-- All words of a list. -/
theorem all_words {P : String → Prop} : (∀ w ∈ ([] : List String), P w) := by simp
theorem all_words' {P : String → Prop} {a : String} {l : List String} (h : P a) (h' : ∀ w ∈ l, P w) : ∀ w ∈ a :: l, P w := by
  simpa using ⟨h, h'⟩

syntax "mentions" : tactic
macro_rules
  | `(tactic| mentions) => `(tactic| first
    | with_reducible exact all_words
    | ((with_reducible refine all_words' ?_ ?_); · mention); mentions)

end Psbt

namespace Psbt
open Psbt.Spec

/-! ### Telling messages apart by how they begin -/

/-- The message of a failure begins with this text, with `std` and without. -/
def Begins (f : Failure) (w : String) : Prop := ∀ std s, f.display std = .ok s → ∃ t, s = w ++ t

theorem begins_plain {m w : String} (t : String) (h : m = w ++ t) : Begins (.plain m) w := by
  intro std s hs; cases hs; exact ⟨t, h⟩
theorem begins_lit (m : String) : Begins (.plain m) m := begins_plain "" (by simp)
theorem begins_because (m : String) (f : Failure) : Begins (.because m f) m := by
  intro std s hs
  cases std with
  | true => cases hs; exact ⟨"", by simp⟩
  | false =>
    simp only [Failure.display, Bool.false_eq_true, if_false] at hs
    obtain ⟨t, -, hs⟩ := bind_ok.mp hs
    cases hs
    exact ⟨": " ++ t, by rw [String.append_assoc]⟩
theorem begins_dropping (m : String) (f : Failure) : Begins (.dropping m f) m := begins_because m f
theorem begins_inside (m : String) (f : Failure) : Begins (.inside m f) m := by
  intro std s hs
  simp only [Failure.display] at hs
  obtain ⟨t, -, hs⟩ := bind_ok.mp hs
  cases hs
  exact ⟨t, rfl⟩
theorem begins_quoting (m : String) (f : Failure) : Begins (.quoting m f) m := begins_inside m f

/-- Neither text begins with the other. -/
def apart (a b : String) : Bool := !(a.toList.isPrefixOf b.toList) && !(b.toList.isPrefixOf a.toList)

theorem apart_spec {a b s t : String} (h : apart a b = true) : a ++ s ≠ b ++ t := by
  intro he
  unfold apart at h
  simp only [Bool.and_eq_true, Bool.not_eq_true', ← Bool.not_eq_true, List.isPrefixOf_iff_prefix] at h
  have : a.toList ++ s.toList = b.toList ++ t.toList := by
    have := congrArg String.toList he
    simpa using this
  rcases List.append_eq_append_iff.mp this with ⟨x, hx, -⟩ | ⟨x, hx, -⟩
  · exact h.1 ⟨x, hx.symm⟩
  · exact h.2 ⟨x, hx.symm⟩

theorem begins_apart {f g : Failure} {a b : String} (hf : Begins f a) (hg : Begins g b) (h : apart a b = true) {std : Bool} {s : String}
    (h1 : f.display std = .ok s) : g.display std ≠ .ok s := by
  intro h2
  obtain ⟨t, ht⟩ := hf std s h1
  obtain ⟨t', ht'⟩ := hg std s h2
  exact apart_spec h (ht ▸ ht')

theorem tell_apart {E : Type} {f : E → Failure} {kind : E → Nat} (tab : List String)
    (hp : decide (tab.Pairwise fun a b => apart a b = true) = true) (hb : ∀ e, ∃ a, tab[kind e]? = some a ∧ Begins (f e) a) {e e' : E}
    {std : Bool} {s : String} (h1 : (f e).display std = .ok s) (h2 : (f e').display std = .ok s) : kind e = kind e' := by
  have hp := List.pairwise_iff_getElem.mp (of_decide_eq_true hp)
  obtain ⟨a, ha, hfa⟩ := hb e
  obtain ⟨b, hb', hfb⟩ := hb e'
  obtain ⟨ha1, rfl⟩ := List.getElem?_eq_some_iff.mp ha
  obtain ⟨hb1, rfl⟩ := List.getElem?_eq_some_iff.mp hb'
  rcases Nat.lt_trichotomy (kind e) (kind e') with h | h | h
  · exact absurd h2 (begins_apart hfa hfb (hp _ _ ha1 hb1 h) h1)
  · exact h
  · exact absurd h1 (begins_apart hfb hfa (hp _ _ hb1 ha1 h) h2)

syntax "begins" : tactic
macro_rules
  | `(tactic| begins) => `(tactic| (refine ⟨_, rfl, ?_⟩; first
    | exact begins_lit _
    | exact begins_because _ _
    | exact begins_dropping _ _
    | exact begins_inside _ _
    | exact begins_quoting _ _
    | exact begins_plain _ rfl
    | exact begins_plain _ (by simp only [String.append_assoc]; rfl)))

end Psbt
