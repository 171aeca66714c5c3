/- Lemmas about combining PSBTs. -/
import Verif.Model.V2.Combine
import Verif.Spec.Combine
import Verif.Lemmas.BMap
import Verif.Lemmas.Wire
namespace Psbt.V2
open Psbt

variable {L : Lib}

/-! ### Options and maps -/
section
variable {α : Type}

theorem combOpt_eq (a b : Option α) : combOpt a b = a.or b := by cases a <;> cases b <;> rfl

theorem combOpt_self (a : Option α) : combOpt a a = a := by cases a <;> rfl
theorem combOpt_assoc (a b c : Option α) : combOpt (combOpt a b) c = combOpt a (combOpt b c) := by
  simp only [combOpt_eq, Option.or_assoc]
theorem combOpt_again (a b : Option α) : combOpt (combOpt a b) b = combOpt a b := by cases a <;> cases b <;> rfl
theorem combOpt_comm {a b : Option α} (h : Spec.Agree a b) : combOpt a b = combOpt b a := by
  cases a with
  | none => cases b <;> rfl
  | some x =>
    cases b with
    | none => rfl
    | some y => rw [h x y rfl rfl]

variable {K V : Type} [OrdKey K] [DecidableEq K]
theorem extend_comm {m n : BMap K V} (h : Spec.AgreeMap m n) : m.extend n = n.extend m := by
  apply BMap.ext_get
  intro k
  rw [BMap.get_extend, BMap.get_extend]
  have := h k
  cases e1 : m.get k with
  | none => cases n.get k <;> rfl
  | some x =>
    cases e2 : n.get k with
    | none => rfl
    | some y => rw [this x y e1 e2]

end

theorem combUtxos_self (a : Option Tx × Option TxOut) : combUtxos a a = a := by
  obtain ⟨n, w⟩ := a
  cases n <;> cases w <;> rfl

theorem combUtxos_comm {a b : Option Tx × Option TxOut} (h1 : Spec.Agree a.2 b.2) (h2 : Spec.Agree a.1 b.1)
    (h3 : a.2.isSome ≠ b.2.isSome → a.1 = none ∧ b.1 = none) : combUtxos a b = combUtxos b a := by
  obtain ⟨n, w⟩ := a
  obtain ⟨n', w'⟩ := b
  simp only at h1 h2 h3
  cases w with
  | none =>
    cases w' with
    | none => simp only [combUtxos, combOpt_comm h2]
    | some y => obtain ⟨rfl, rfl⟩ := h3 (by simp); rfl
  | some x =>
    cases w' with
    | none => obtain ⟨rfl, rfl⟩ := h3 (by simp); rfl
    | some y => cases h1 x y rfl rfl; simp only [combUtxos, combOpt_comm h2]

theorem combUtxos_assoc {a b c : Option Tx × Option TxOut}
    (h : (a.1 = none ∧ b.1 = none ∧ c.1 = none) ∨ (a.2 = none ∧ b.2 = none ∧ c.2 = none)) :
    combUtxos (combUtxos a b) c = combUtxos a (combUtxos b c) := by
  obtain ⟨n, w⟩ := a
  obtain ⟨n', w'⟩ := b
  obtain ⟨n'', w''⟩ := c
  simp only at h
  rcases h with ⟨rfl, rfl, rfl⟩ | ⟨rfl, rfl, rfl⟩
  · cases w <;> cases w' <;> cases w'' <;> rfl
  · cases n <;> cases n' <;> cases n'' <;> rfl

theorem combUtxos_again {a b : Option Tx × Option TxOut} (h : ¬ (a.2 = none ∧ b.2 ≠ none ∧ b.1 ≠ none)) :
    combUtxos (combUtxos a b) b = combUtxos a b := by
  obtain ⟨n, w⟩ := a
  obtain ⟨n', w'⟩ := b
  simp only at h
  cases n <;> cases n' <;> cases w <;> cases w' <;> first | rfl | (exfalso; apply h; simp)

/-! ### Xpubs -/

/-- What the loop does with one key. -/
def ksMerge (a b : KeySource) : Option KeySource :=
  if b.2.length < a.2.length then if b.2 <:+ a.2 then some a else none
  else if a.2 <:+ b.2 then some b else none

def mergeOpt : Option KeySource → Option KeySource → Option (Option KeySource)
  | none, o => some o
  | some a, none => some (some a)
  | some a, some b => (ksMerge a b).map some

theorem suffix_iff_drop {α : Type} {a b : List α} : a <:+ b ↔ a.length ≤ b.length ∧ a = b.drop (b.length - a.length) := by
  constructor
  · intro h; exact ⟨h.length_le, List.suffix_iff_eq_drop.mp h⟩
  · rintro ⟨-, h⟩; exact List.suffix_iff_eq_drop.mpr h

theorem ksMerge_iff {a b r : KeySource} : ksMerge a b = some r ↔ Spec.MergedKey a b r := by
  unfold ksMerge
  constructor
  · intro h
    split at h
    · split at h
      · cases h; exact .mine (by assumption) (by assumption)
      · cases h
    · split at h
      · cases h; exact .theirs (by assumption)
      · cases h
  · intro h
    cases h with
    | mine h1 h2 => simp [h1, h2]
    | theirs h1 => have := h1.length_le; rw [if_neg (by omega), if_pos h1]

/-- The two tests of the loop in terms of suffixes. -/
theorem test1_iff {d1 d2 : List UInt32} : (d1.length < d2.length ∧ d1 = d2.drop (d2.length - d1.length)) ↔
    d1.length < d2.length ∧ d1 <:+ d2 := by
  rw [suffix_iff_drop]
  constructor
  · rintro ⟨h1, h2⟩; exact ⟨h1, by omega, h2⟩
  · rintro ⟨h1, -, h2⟩; exact ⟨h1, h2⟩

theorem mergeXpubs_cons {m : BMap L.xpub.T KeySource} {x : L.xpub.T} {b : KeySource} {rest : List (L.xpub.T × KeySource)}
    {m' : BMap L.xpub.T KeySource} :
    mergeXpubs m ((x, b) :: rest) = .ok m' ↔
      ∃ c, mergeOpt (m.get x) (some b) = some (some c) ∧ mergeXpubs (m.insert x c) rest = .ok m' := by
  obtain ⟨fp1, d1⟩ := b
  rw [mergeXpubs]
  cases hm : m.get x with
  | none =>
    simp only [mergeOpt, Option.some.injEq]
    constructor
    · intro h; exact ⟨_, rfl, h⟩
    · rintro ⟨c, rfl, h⟩; exact h
  | some a =>
    obtain ⟨fp2, d2⟩ := a
    simp only [mergeOpt, Option.map_eq_some_iff, Option.some.injEq, exists_eq_right, test1_iff]
    by_cases h1 : (d1 = d2 ∧ fp1 = fp2) ∨ (d1.length < d2.length ∧ d1 <:+ d2)
    · rw [if_pos h1]
      have hk : ksMerge (fp2, d2) (fp1, d1) = some (fp2, d2) := by
        rw [ksMerge_iff]
        rcases h1 with ⟨rfl, rfl⟩ | ⟨h1, h2⟩
        · exact .theirs (List.suffix_refl _)
        · exact .mine h1 h2
      rw [hk]
      simp only [Option.some.injEq, exists_eq_left', BMap.insert_get_self m hm]
    · rw [if_neg h1]
      have h1a : ¬ (d1.length < d2.length ∧ d1 <:+ d2) := fun h => h1 (.inr h)
      by_cases h2 : d1.length < d2.length
      · rw [if_pos h2]
        have : ksMerge (fp2, d2) (fp1, d1) = none := by
          unfold ksMerge
          rw [if_pos h2, if_neg (fun h => h1a ⟨h2, h⟩)]
        simp [this]
      · rw [if_neg h2]
        by_cases h3 : d2 = d1.drop (d1.length - d2.length)
        · rw [if_pos h3]
          have hk : ksMerge (fp2, d2) (fp1, d1) = some (fp1, d1) := by
            rw [ksMerge_iff]
            exact .theirs (suffix_iff_drop.mpr ⟨Nat.le_of_not_lt h2, h3⟩)
          rw [hk]
          simp
        · rw [if_neg h3]
          have : ksMerge (fp2, d2) (fp1, d1) = none := by
            unfold ksMerge
            rw [if_neg h2, if_neg (fun h => h3 (suffix_iff_drop.mp h).2)]
          simp [this]

theorem mergeXpubs_ok {m m' : BMap L.xpub.T KeySource} {l : List (L.xpub.T × KeySource)} (hs : KSorted l) :
    mergeXpubs m l = .ok m' ↔ ∀ x, mergeOpt (m.get x) (getL x l) = some (m'.get x) := by
  induction l generalizing m with
  | nil =>
    have : ∀ x, mergeOpt (m.get x) (getL x []) = some (m.get x) := by
      intro x; simp only [getL]; cases m.get x <;> rfl
    simp only [mergeXpubs, Except.ok.injEq, this, Option.some.injEq]
    exact ⟨fun h x => by rw [h], BMap.ext_get⟩
  | cons a rest ih =>
    obtain ⟨x, b⟩ := a
    rw [mergeXpubs_cons]
    have hn : getL x rest = none := getL_none_of_lt hs.lt_of_mem
    constructor
    · rintro ⟨c, h1, h2⟩ y
      have h3 := (ih hs.tail).mp h2 y
      rw [BMap.get_insert] at h3
      by_cases hy : y = x
      · subst hy
        rw [if_pos rfl, hn] at h3
        simp only [getL, if_true]
        rw [h1, ← h3]
        rfl
      · rw [if_neg hy] at h3
        simp only [getL, if_neg hy]
        exact h3
    · intro h
      have hx := h x
      simp only [getL, if_true] at hx
      have : ∃ c, mergeOpt (m.get x) (some b) = some (some c) := by
        cases hm : m.get x with
        | none => exact ⟨b, rfl⟩
        | some a =>
          rw [hm] at hx
          simp only [mergeOpt, Option.map_eq_some_iff] at hx ⊢
          obtain ⟨c, h1, h2⟩ := hx
          exact ⟨c, c, h1, rfl⟩
      obtain ⟨c, hc⟩ := this
      refine ⟨c, hc, (ih hs.tail).mpr ?_⟩
      intro y
      rw [BMap.get_insert]
      by_cases hy : y = x
      · subst hy
        rw [if_pos rfl, hn]
        rw [hc] at hx
        simp only [Option.some.injEq] at hx
        rw [← hx]; rfl
      · have := h y
        simp only [getL, if_neg hy] at this
        rw [if_neg hy]; exact this

/-! ### Global maps -/

theorem globalCombine_ok {a b c : Global L} : a.combine b = .ok c ↔
    a.version = b.version ∧ a.txVersion = b.txVersion ∧
    (∀ x, mergeOpt (a.xpubs.get x) (b.xpubs.get x) = some (c.xpubs.get x)) ∧
    c = { a with
      xpubs := c.xpubs
      spEcdhShares := a.spEcdhShares.extend b.spEcdhShares
      spDleqProofs := a.spDleqProofs.extend b.spDleqProofs
      proprietaries := a.proprietaries.extend b.proprietaries
      unknowns := a.unknowns.extend b.unknowns } := by
  unfold Global.combine
  split
  · rename_i h; simp [h]
  · split
    · rename_i h; simp [h]
    · rename_i h1 h2
      rw [bind_ok]
      have h1 := Decidable.not_not.mp h1
      have h2 := Decidable.not_not.mp h2
      simp only [h1, h2, true_and, Except.ok.injEq]
      constructor
      · rintro ⟨m, hm, rfl⟩
        exact ⟨(mergeXpubs_ok b.xpubs.sorted).mp hm, rfl⟩
      · rintro ⟨hx, he⟩
        exact ⟨c.xpubs, (mergeXpubs_ok b.xpubs.sorted).mpr hx, he.symm⟩

theorem suffix_total {α : Type} {a b c : List α} (h1 : a <:+ c) (h2 : b <:+ c) (h : a.length ≤ b.length) : a <:+ b :=
  List.suffix_of_suffix_length_le h1 h2 h

theorem ksMerge_assoc (a b c d : KeySource) :
    (∃ m, ksMerge a b = some m ∧ ksMerge m c = some d) ↔ (∃ m, ksMerge b c = some m ∧ ksMerge a m = some d) := by
  simp only [ksMerge_iff]
  constructor
  · rintro ⟨m, h1, h2⟩
    cases h1 with
    | mine l1 s1 =>
      cases h2 with
      | mine l2 s2 =>
        by_cases h : c.2.length < b.2.length
        · exact ⟨b, .mine h (suffix_total s2 s1 (by omega)), .mine l1 s1⟩
        · exact ⟨c, .theirs (suffix_total s1 s2 (by omega)), .mine l2 s2⟩
      | theirs s2 => exact ⟨_, .theirs (s1.trans s2), .theirs s2⟩
    | theirs s1 =>
      cases h2 with
      | mine l2 s2 => exact ⟨_, .mine l2 s2, .theirs s1⟩
      | theirs s2 => exact ⟨_, .theirs s2, .theirs (s1.trans s2)⟩
  · rintro ⟨m, h1, h2⟩
    cases h1 with
    | mine l1 s1 =>
      cases h2 with
      | mine l2 s2 =>
        refine ⟨a, .mine l2 s2, .mine ?_ (s1.trans s2)⟩
        have := s1.length_le; omega
      | theirs s2 => exact ⟨_, .theirs s2, .mine l1 s1⟩
    | theirs s1 =>
      cases h2 with
      | mine l2 s2 =>
        refine ⟨a, .mine ?_ (s1.trans s2), .mine l2 s2⟩
        have := s1.length_le; omega
      | theirs s2 =>
        by_cases h : b.2.length < a.2.length
        · exact ⟨a, .mine h (suffix_total s1 s2 (by omega)), .theirs s2⟩
        · exact ⟨b, .theirs (suffix_total s2 s1 (by omega)), .theirs s1⟩

theorem mergeOpt_assoc (a b c d : Option KeySource) :
    (∃ m, mergeOpt a b = some m ∧ mergeOpt m c = some d) ↔ (∃ m, mergeOpt b c = some m ∧ mergeOpt a m = some d) := by
  cases a with
  | none => simp [mergeOpt]
  | some a =>
    cases b with
    | none =>
      simp only [mergeOpt, Option.some.injEq, exists_eq_left']
    | some b =>
      cases c with
      | none =>
        simp only [mergeOpt, Option.some.injEq, exists_eq_left']
        constructor
        · rintro ⟨m, h1, h2⟩
          rw [Option.map_eq_some_iff] at h1 ⊢
          obtain ⟨x, h3, rfl⟩ := h1
          exact ⟨x, h3, by simpa [mergeOpt] using h2⟩
        · intro h
          rw [Option.map_eq_some_iff] at h
          obtain ⟨x, h3, rfl⟩ := h
          exact ⟨some x, by rw [h3]; rfl, rfl⟩
      | some c =>
        simp only [mergeOpt, Option.map_eq_some_iff]
        cases d with
        | none =>
          constructor
          · rintro ⟨m, ⟨x, h1, rfl⟩, h2⟩
            simp [mergeOpt] at h2
          · rintro ⟨m, ⟨x, h1, rfl⟩, h2⟩
            simp [mergeOpt] at h2
        | some d =>
          have := ksMerge_assoc a b c d
          constructor
          · rintro ⟨m, ⟨x, h1, rfl⟩, h2⟩
            simp only [mergeOpt, Option.map_eq_some_iff, Option.some.injEq, exists_eq_right] at h2
            obtain ⟨m, h3, h4⟩ := this.mp ⟨x, h1, h2⟩
            exact ⟨some m, ⟨m, h3, rfl⟩, by simp [mergeOpt, h4]⟩
          · rintro ⟨m, ⟨x, h1, rfl⟩, h2⟩
            simp only [mergeOpt, Option.map_eq_some_iff, Option.some.injEq, exists_eq_right] at h2
            obtain ⟨m, h3, h4⟩ := this.mpr ⟨x, h1, h2⟩
            exact ⟨some m, ⟨m, h3, rfl⟩, by simp [mergeOpt, h4]⟩

/-! ### Lists -/

theorem combineZip_self {ε α : Type} {f : α → α → Except ε α} {as : List α} (h : ∀ a ∈ as, f a a = .ok a) :
    combineZip f as as = .ok as := by
  induction as with
  | nil => rfl
  | cons a as ih =>
    simp only [combineZip, h a (by simp), ih (fun b hb => h b (by simp [hb])), ok_bind]

theorem combineZip_ok {ε α : Type} {f : α → α → Except ε α} {as bs cs : List α} :
    combineZip f as bs = .ok cs ↔ cs.length = as.length ∧
      ∀ (k : Nat) a c, as[k]? = some a → cs[k]? = some c →
        (∀ b, bs[k]? = some b → f a b = .ok c) ∧ (bs[k]? = none → c = a) := by
  induction as generalizing bs cs with
  | nil =>
    simp only [combineZip, Except.ok.injEq]
    constructor
    · rintro rfl; simp
    · rintro ⟨h, -⟩; exact (List.length_eq_zero_iff.mp h).symm
  | cons a as ih =>
    cases bs with
    | nil =>
      simp only [combineZip, Except.ok.injEq]
      constructor
      · rintro rfl
        refine ⟨rfl, fun k x c h1 h2 => ⟨by simp, fun _ => by rw [h1] at h2; exact (Option.some.inj h2).symm⟩⟩
      · rintro ⟨h1, h2⟩
        apply List.ext_getElem? 
        intro k
        by_cases hk : k < (a :: as).length
        · have e1 := List.getElem?_eq_getElem hk
          have e2 := List.getElem?_eq_getElem (l := cs) (i := k) (by omega)
          rw [e1, e2, (h2 k _ _ e1 e2).2 (by simp)]
        · rw [List.getElem?_eq_none (by omega), List.getElem?_eq_none (by omega)]
    | cons b bs =>
      simp only [combineZip]
      rw [bind_ok]
      constructor
      · rintro ⟨c, h1, h2⟩
        rw [bind_ok] at h2
        obtain ⟨cs', h2, h3⟩ := h2
        cases h3
        obtain ⟨h3, h4⟩ := ih.mp h2
        refine ⟨by simp [h3], ?_⟩
        intro k x y e1 e2
        cases k with
        | zero =>
          simp only [List.getElem?_cons_zero, Option.some.injEq] at e1 e2
          subst e1 e2
          simp [h1]
        | succ k =>
          simp only [List.getElem?_cons_succ] at e1 e2 ⊢
          exact h4 k x y e1 e2
      · rintro ⟨h1, h2⟩
        cases cs with
        | nil => simp at h1
        | cons c cs =>
          refine ⟨c, (h2 0 a c (by simp) (by simp)).1 b (by simp), ?_⟩
          rw [bind_ok]
          refine ⟨cs, ih.mpr ⟨by simpa using h1, ?_⟩, rfl⟩
          intro k x y e1 e2
          have := h2 (k + 1) x y (by simpa using e1) (by simpa using e2)
          simpa using this

theorem combineZip_assoc {ε α : Type} {f : α → α → Except ε α} {as bs cs ds : List α}
    (hl1 : as.length = bs.length) (hl2 : bs.length = cs.length)
    (h : ∀ (k : Nat) a b c, as[k]? = some a → bs[k]? = some b → cs[k]? = some c → ∀ d,
      (∃ m, f a b = .ok m ∧ f m c = .ok d) ↔ (∃ m, f b c = .ok m ∧ f a m = .ok d)) :
    (∃ ms, combineZip f as bs = .ok ms ∧ combineZip f ms cs = .ok ds) ↔
    (∃ ms, combineZip f bs cs = .ok ms ∧ combineZip f as ms = .ok ds) := by
  induction as generalizing bs cs ds with
  | nil =>
    have : bs = [] := List.length_eq_zero_iff.mp hl1.symm
    subst this
    have : cs = [] := List.length_eq_zero_iff.mp hl2.symm
    subst this
    simp [combineZip]
  | cons a as ih =>
    cases bs with
    | nil => simp at hl1
    | cons b bs =>
      cases cs with
      | nil => simp at hl2
      | cons c cs =>
        simp only [List.length_cons, Nat.add_right_cancel_iff] at hl1 hl2
        have h0 := h 0 a b c (by simp) (by simp) (by simp)
        have ih := fun ds => ih (ds := ds) hl1 hl2 (fun k x y z e1 e2 e3 => h (k + 1) x y z (by simpa using e1) (by simpa using e2) (by simpa using e3))
        constructor
        · rintro ⟨ms, h1, h2⟩
          simp only [combineZip, bind_ok] at h1
          obtain ⟨m, h3, ms', h4, h5⟩ := h1
          cases h5
          simp only [combineZip, bind_ok] at h2
          obtain ⟨d, h5, ds', h6, h7⟩ := h2
          cases h7
          obtain ⟨x, e1, e2⟩ := (h0 d).mp ⟨m, h3, h5⟩
          obtain ⟨xs, e3, e4⟩ := (ih ds').mp ⟨ms', h4, h6⟩
          exact ⟨x :: xs, by simp only [combineZip, e1, e3, ok_bind], by simp only [combineZip, e2, e4, ok_bind]⟩
        · rintro ⟨ms, h1, h2⟩
          simp only [combineZip, bind_ok] at h1
          obtain ⟨m, h3, ms', h4, h5⟩ := h1
          cases h5
          simp only [combineZip, bind_ok] at h2
          obtain ⟨d, h5, ds', h6, h7⟩ := h2
          cases h7
          obtain ⟨x, e1, e2⟩ := (h0 d).mpr ⟨m, h3, h5⟩
          obtain ⟨xs, e3, e4⟩ := (ih ds').mpr ⟨ms', h4, h6⟩
          exact ⟨x :: xs, by simp only [combineZip, e1, e3, ok_bind], by simp only [combineZip, e2, e4, ok_bind]⟩

/-! ### Whole PSBTs -/

theorem combine_ok {p q r : Psbt L} : p.combine q = .ok r ↔
    p.global.combine q.global = .ok r.global ∧ combineZip Input.combine p.inputs q.inputs = .ok r.inputs ∧
    combineZip Output.combine p.outputs q.outputs = .ok r.outputs := by
  unfold Psbt.combine
  simp only [bind_ok, mapErr_ok, orFail]
  constructor
  · rintro ⟨g, h1, is, h2, os, h3, h4⟩
    cases h4
    exact ⟨h1, h2, h3⟩
  · rintro ⟨h1, h2, h3⟩
    exact ⟨_, h1, _, h2, _, h3, rfl⟩

/-! ### Inputs and outputs -/

/-- What `Input.combine` returns when it succeeds. -/
def Input.merge (a b : Input L) : Input L := {
  previousTxid := a.previousTxid
  spentOutputIndex := a.spentOutputIndex
  sequence := combOpt a.sequence b.sequence
  minTime := combOpt a.minTime b.minTime
  minHeight := combOpt a.minHeight b.minHeight
  nonWitnessUtxo := (combUtxos (a.nonWitnessUtxo, a.witnessUtxo) (b.nonWitnessUtxo, b.witnessUtxo)).1
  witnessUtxo := (combUtxos (a.nonWitnessUtxo, a.witnessUtxo) (b.nonWitnessUtxo, b.witnessUtxo)).2
  partialSigs := a.partialSigs.extend b.partialSigs
  sighashType := a.sighashType
  redeemScript := combOpt a.redeemScript b.redeemScript
  witnessScript := combOpt a.witnessScript b.witnessScript
  bip32Derivations := a.bip32Derivations.extend b.bip32Derivations
  finalScriptSig := combOpt a.finalScriptSig b.finalScriptSig
  finalScriptWitness := combOpt a.finalScriptWitness b.finalScriptWitness
  ripemd160Preimages := a.ripemd160Preimages.extend b.ripemd160Preimages
  sha256Preimages := a.sha256Preimages.extend b.sha256Preimages
  hash160Preimages := a.hash160Preimages.extend b.hash160Preimages
  hash256Preimages := a.hash256Preimages.extend b.hash256Preimages
  tapKeySig := combOpt a.tapKeySig b.tapKeySig
  tapScriptSigs := a.tapScriptSigs.extend b.tapScriptSigs
  tapScripts := a.tapScripts.extend b.tapScripts
  tapKeyOrigins := a.tapKeyOrigins.extend b.tapKeyOrigins
  tapInternalKey := combOpt a.tapInternalKey b.tapInternalKey
  tapMerkleRoot := combOpt a.tapMerkleRoot b.tapMerkleRoot
  spEcdhShares := a.spEcdhShares.extend b.spEcdhShares
  spDleqProofs := a.spDleqProofs.extend b.spDleqProofs
  proprietaries := a.proprietaries.extend b.proprietaries
  unknowns := a.unknowns.extend b.unknowns }

theorem inputCombine_ok {a b c : Input L} : a.combine b = .ok c ↔
    a.previousTxid = b.previousTxid ∧ a.spentOutputIndex = b.spentOutputIndex ∧ c = a.merge b := by
  unfold Input.combine
  split
  · rename_i h; simp [h]
  · split
    · rename_i h; simp [h]
    · rename_i h1 h2
      simp only [Decidable.not_not.mp h1, Decidable.not_not.mp h2, true_and, Except.ok.injEq]
      constructor
      · rintro rfl; simp only [Input.merge, Decidable.not_not.mp h1, Decidable.not_not.mp h2]
      · rintro rfl; simp only [Input.merge, Decidable.not_not.mp h1, Decidable.not_not.mp h2]

/-- What `Output.combine` returns when it succeeds. -/
def Output.merge (a b : Output L) : Output L := {
  amount := a.amount
  scriptPubkey := a.scriptPubkey
  redeemScript := combOpt a.redeemScript b.redeemScript
  witnessScript := combOpt a.witnessScript b.witnessScript
  bip32Derivations := a.bip32Derivations.extend b.bip32Derivations
  tapInternalKey := combOpt a.tapInternalKey b.tapInternalKey
  tapTree := combOpt a.tapTree b.tapTree
  tapKeyOrigins := a.tapKeyOrigins.extend b.tapKeyOrigins
  spV0Info := combOpt a.spV0Info b.spV0Info
  spV0Label := combOpt a.spV0Label b.spV0Label
  proprietaries := a.proprietaries.extend b.proprietaries
  unknowns := a.unknowns.extend b.unknowns }

theorem outputCombine_ok {a b c : Output L} : a.combine b = .ok c ↔
    a.amount = b.amount ∧ a.scriptPubkey = b.scriptPubkey ∧ c = a.merge b := by
  unfold Output.combine
  split
  · rename_i h; simp [h]
  · split
    · rename_i h; simp [h]
    · rename_i h1 h2
      simp only [Decidable.not_not.mp h1, Decidable.not_not.mp h2, true_and, Except.ok.injEq]
      constructor
      · rintro rfl; simp only [Output.merge, Decidable.not_not.mp h1, Decidable.not_not.mp h2]
      · rintro rfl; simp only [Output.merge, Decidable.not_not.mp h1, Decidable.not_not.mp h2]

theorem Input.merge_self (a : Input L) : a.merge a = a := by
  cases a; simp only [Input.merge, combOpt_self, combUtxos_self, BMap.extend_self]
theorem Output.merge_self (a : Output L) : a.merge a = a := by
  cases a; simp only [Output.merge, combOpt_self, BMap.extend_self]

theorem Input.merge_again (a b : Input L) (h : ¬ (a.witnessUtxo = none ∧ b.witnessUtxo ≠ none ∧ b.nonWitnessUtxo ≠ none)) :
    (a.merge b).merge b = a.merge b := by
  have := combUtxos_again (a := (a.nonWitnessUtxo, a.witnessUtxo)) (b := (b.nonWitnessUtxo, b.witnessUtxo)) h
  simp only [Input.merge, combOpt_again, BMap.extend_extend_right, Prod.eta, this]
theorem Output.merge_again (a b : Output L) : (a.merge b).merge b = a.merge b := by
  simp only [Output.merge, combOpt_again, BMap.extend_extend_right]

theorem Input.merge_assoc (a b c : Input L)
    (h : (a.nonWitnessUtxo = none ∧ b.nonWitnessUtxo = none ∧ c.nonWitnessUtxo = none) ∨
      (a.witnessUtxo = none ∧ b.witnessUtxo = none ∧ c.witnessUtxo = none)) :
    (a.merge b).merge c = a.merge (b.merge c) := by
  have := combUtxos_assoc (a := (a.nonWitnessUtxo, a.witnessUtxo)) (b := (b.nonWitnessUtxo, b.witnessUtxo))
    (c := (c.nonWitnessUtxo, c.witnessUtxo)) h
  simp only [Input.merge, combOpt_assoc, BMap.extend_assoc, Prod.eta, this]
theorem Output.merge_assoc (a b c : Output L) : (a.merge b).merge c = a.merge (b.merge c) := by
  simp only [Output.merge, combOpt_assoc, BMap.extend_assoc]

theorem Input.merge_comm {a b : Input L} (h1 : a.previousTxid = b.previousTxid)
    (h2 : a.spentOutputIndex = b.spentOutputIndex) (h : Spec.CompatibleInputs a b) : a.merge b = b.merge a := by
  have hu := combUtxos_comm (a := (a.nonWitnessUtxo, a.witnessUtxo)) (b := (b.nonWitnessUtxo, b.witnessUtxo))
    h.witnessUtxo h.nonWitnessUtxo h.oneSided
  unfold Input.merge
  rw [h1, h2, hu, combOpt_comm h.sequence, combOpt_comm h.minTime, combOpt_comm h.minHeight, extend_comm h.partialSigs,
    h.sighashType, combOpt_comm h.redeemScript, combOpt_comm h.witnessScript, extend_comm h.bip32,
    combOpt_comm h.finalScriptSig, combOpt_comm h.finalScriptWitness, extend_comm h.ripemd160, extend_comm h.sha256,
    extend_comm h.hash160, extend_comm h.hash256, combOpt_comm h.tapKeySig, extend_comm h.tapScriptSigs,
    extend_comm h.tapScripts, extend_comm h.tapKeyOrigins, combOpt_comm h.tapInternalKey, combOpt_comm h.tapMerkleRoot,
    extend_comm h.spEcdh, extend_comm h.spDleq, extend_comm h.proprietaries, extend_comm h.unknowns]

theorem Output.merge_comm {a b : Output L} (h1 : a.amount = b.amount)
    (h2 : a.scriptPubkey = b.scriptPubkey) (h : Spec.CompatibleOutputs a b) : a.merge b = b.merge a := by
  unfold Output.merge
  rw [h1, h2, combOpt_comm h.redeemScript, combOpt_comm h.witnessScript, extend_comm h.bip32,
    combOpt_comm h.tapInternalKey, combOpt_comm h.tapTree, extend_comm h.tapKeyOrigins, combOpt_comm h.spInfo,
    combOpt_comm h.spLabel, extend_comm h.proprietaries, extend_comm h.unknowns]

theorem inputCombine_assoc {a b c d : Input L}
    (h : (a.nonWitnessUtxo = none ∧ b.nonWitnessUtxo = none ∧ c.nonWitnessUtxo = none) ∨
      (a.witnessUtxo = none ∧ b.witnessUtxo = none ∧ c.witnessUtxo = none)) :
    (∃ m, a.combine b = .ok m ∧ m.combine c = .ok d) ↔ (∃ m, b.combine c = .ok m ∧ a.combine m = .ok d) := by
  have := Input.merge_assoc a b c h
  simp only [inputCombine_ok]
  constructor
  · rintro ⟨m, ⟨h1, h2, rfl⟩, h3, h4, rfl⟩
    have h3 : a.previousTxid = c.previousTxid := h3
    have h4 : a.spentOutputIndex = c.spentOutputIndex := h4
    exact ⟨_, ⟨h1 ▸ h3, h2 ▸ h4, rfl⟩, h1, h2, this⟩
  · rintro ⟨m, ⟨h1, h2, rfl⟩, h3, h4, rfl⟩
    have h3 : a.previousTxid = b.previousTxid := h3
    have h4 : a.spentOutputIndex = b.spentOutputIndex := h4
    exact ⟨_, ⟨h3, h4, rfl⟩, h3.trans h1, h4.trans h2, this.symm⟩

theorem outputCombine_assoc {a b c d : Output L} :
    (∃ m, a.combine b = .ok m ∧ m.combine c = .ok d) ↔ (∃ m, b.combine c = .ok m ∧ a.combine m = .ok d) := by
  have := Output.merge_assoc a b c
  simp only [outputCombine_ok]
  constructor
  · rintro ⟨m, ⟨h1, h2, rfl⟩, h3, h4, rfl⟩
    have h3 : a.amount = c.amount := h3
    have h4 : a.scriptPubkey = c.scriptPubkey := h4
    exact ⟨_, ⟨h1 ▸ h3, h2 ▸ h4, rfl⟩, h1, h2, this⟩
  · rintro ⟨m, ⟨h1, h2, rfl⟩, h3, h4, rfl⟩
    have h3 : a.amount = b.amount := h3
    have h4 : a.scriptPubkey = b.scriptPubkey := h4
    exact ⟨_, ⟨h3, h4, rfl⟩, h3.trans h1, h4.trans h2, this.symm⟩

theorem mergeOpt_self (a : Option KeySource) : mergeOpt a a = some a := by
  cases a with
  | none => rfl
  | some a => simp only [mergeOpt, ksMerge_iff.mpr (.theirs (List.suffix_refl a.2)), Option.map_some]

theorem mergeOpt_again {a b c : Option KeySource} (h : mergeOpt a b = some c) : mergeOpt c b = some c := by
  cases a with
  | none => cases h; exact mergeOpt_self b
  | some a =>
    cases b with
    | none => cases h; rfl
    | some b =>
      simp only [mergeOpt, Option.map_eq_some_iff] at h
      obtain ⟨c, h, rfl⟩ := h
      cases ksMerge_iff.mp h with
      | mine h1 h2 => simp only [mergeOpt, h, Option.map_some]
      | theirs h1 => exact mergeOpt_self _

theorem mergeOpt_comm {a b c : Option KeySource}
    (hc : ∀ s t, a = some s → b = some t → s = t ∨ s.2.length ≠ t.2.length) (h : mergeOpt a b = some c) :
    mergeOpt b a = some c := by
  cases a with
  | none => cases h; cases b <;> rfl
  | some a =>
    cases b with
    | none => cases h; rfl
    | some b =>
      simp only [mergeOpt, Option.map_eq_some_iff] at h ⊢
      obtain ⟨c, h, rfl⟩ := h
      refine ⟨c, ?_, rfl⟩
      rcases hc a b rfl rfl with rfl | hne
      · exact h
      · rw [ksMerge_iff] at h ⊢
        cases h with
        | mine h1 h2 => exact .theirs h2
        | theirs h1 => have := h1.length_le; exact .mine (by omega) h1

/-- A map exists for any pointwise merge. -/
theorem mergeXpubs_total {m n : BMap L.xpub.T KeySource} (h : ∀ x, ∃ c, mergeOpt (m.get x) (n.get x) = some c) :
    ∃ r : BMap L.xpub.T KeySource, ∀ x, mergeOpt (m.get x) (n.get x) = some (r.get x) := by
  obtain ⟨l, hl⟩ := n
  have key : ∀ (l : List (L.xpub.T × KeySource)) (hs : KSorted l) (m : BMap L.xpub.T KeySource),
      (∀ x, ∃ c, mergeOpt (m.get x) (getL x l) = some c) → ∃ r, mergeXpubs m l = .ok r := by
    intro l
    induction l with
    | nil => intro hs m _; exact ⟨m, rfl⟩
    | cons a rest ih =>
      obtain ⟨x, b⟩ := a
      intro hs m h
      have hx := h x
      simp only [getL, if_true] at hx
      have : ∃ c, mergeOpt (m.get x) (some b) = some (some c) := by
        cases hm : m.get x with
        | none => exact ⟨b, rfl⟩
        | some a =>
          rw [hm] at hx
          obtain ⟨c, hx⟩ := hx
          simp only [mergeOpt, Option.map_eq_some_iff] at hx ⊢
          obtain ⟨c, h1, h2⟩ := hx
          exact ⟨c, c, h1, rfl⟩
      obtain ⟨c, hc⟩ := this
      obtain ⟨r, hr⟩ := ih hs.tail (m.insert x c) (by
        intro y
        rw [BMap.get_insert]
        by_cases hy : y = x
        · subst hy
          rw [if_pos rfl, getL_none_of_lt hs.lt_of_mem]
          exact ⟨_, rfl⟩
        · have := h y
          simp only [getL, if_neg hy] at this
          rw [if_neg hy]; exact this)
      exact ⟨r, mergeXpubs_cons.mpr ⟨c, hc, hr⟩⟩
  obtain ⟨r, hr⟩ := key l hl m h
  exact ⟨r, (mergeXpubs_ok hl).mp hr⟩

theorem globalCombine_assoc {a b c d : Global L} :
    (∃ m, a.combine b = .ok m ∧ m.combine c = .ok d) ↔ (∃ m, b.combine c = .ok m ∧ a.combine m = .ok d) := by
  simp only [globalCombine_ok]
  constructor
  · rintro ⟨m, ⟨h1, h2, h3, h4⟩, h5, h6, h7, h8⟩
    rw [h4] at h5 h6
    have hx : ∀ x, ∃ y, mergeOpt (b.xpubs.get x) (c.xpubs.get x) = some y ∧ mergeOpt (a.xpubs.get x) y = some (d.xpubs.get x) :=
      fun x => (mergeOpt_assoc _ _ _ _).mp ⟨_, h3 x, h7 x⟩
    obtain ⟨r, hr⟩ := mergeXpubs_total (m := b.xpubs) (n := c.xpubs) (fun x => ⟨_, (hx x).choose_spec.1⟩)
    refine ⟨{ b with
      xpubs := r
      spEcdhShares := b.spEcdhShares.extend c.spEcdhShares
      spDleqProofs := b.spDleqProofs.extend c.spDleqProofs
      proprietaries := b.proprietaries.extend c.proprietaries
      unknowns := b.unknowns.extend c.unknowns },
      ⟨h1 ▸ h5, h2 ▸ h6, hr, rfl⟩, h1, h2, ?_, ?_⟩
    · intro x
      obtain ⟨y, e1, e2⟩ := hx x
      rw [hr x] at e1
      cases e1
      exact e2
    · rw [h8, h4]
      simp only [BMap.extend_assoc]
  · rintro ⟨m, ⟨h1, h2, h3, h4⟩, h5, h6, h7, h8⟩
    rw [h4] at h5 h6
    have hx : ∀ x, ∃ y, mergeOpt (a.xpubs.get x) (b.xpubs.get x) = some y ∧ mergeOpt y (c.xpubs.get x) = some (d.xpubs.get x) :=
      fun x => (mergeOpt_assoc _ _ _ _).mpr ⟨_, h3 x, h7 x⟩
    obtain ⟨r, hr⟩ := mergeXpubs_total (m := a.xpubs) (n := b.xpubs) (fun x => ⟨_, (hx x).choose_spec.1⟩)
    refine ⟨{ a with
      xpubs := r
      spEcdhShares := a.spEcdhShares.extend b.spEcdhShares
      spDleqProofs := a.spDleqProofs.extend b.spDleqProofs
      proprietaries := a.proprietaries.extend b.proprietaries
      unknowns := a.unknowns.extend b.unknowns },
      ⟨h5, h6, hr, rfl⟩, h5.trans h1, h6.trans h2, ?_, ?_⟩
    · intro x
      obtain ⟨y, e1, e2⟩ := hx x
      rw [hr x] at e1
      cases e1
      exact e2
    · rw [h8, h4]
      simp only [BMap.extend_assoc]

/-! ### Merging pairs -/

section
variable {ex ey : List UInt8}
open Spec

theorem merged_append {x y z x' y' z' : List Pair} (h : Merged ex ey x y z) (h' : Merged ex ey x' y' z') :
    Merged ex ey (x ++ x') (y ++ y') (z ++ z') := by
  refine ⟨?_, ?_, ?_⟩
  · intro p hp
    rcases List.mem_append.mp hp with hp | hp
    · rcases h.from_either p hp with h | h <;> simp [h]
    · rcases h'.from_either p hp with h | h <;> simp [h]
  · intro p hp hn
    rcases List.mem_append.mp hp with hp | hp
    · obtain ⟨q, h1, h2⟩ := h.left p hp hn; exact ⟨q, by simp [h1], h2⟩
    · obtain ⟨q, h1, h2⟩ := h'.left p hp hn; exact ⟨q, by simp [h1], h2⟩
  · intro p hp hn
    rcases List.mem_append.mp hp with hp | hp
    · obtain ⟨q, h1, h2⟩ := h.right p hp hn; exact ⟨q, by simp [h1], h2⟩
    · obtain ⟨q, h1, h2⟩ := h'.right p hp hn; exact ⟨q, by simp [h1], h2⟩

theorem merged_nil : Merged ex ey [] [] [] := ⟨by simp, by simp, by simp⟩

theorem merged_flatten_cons {x y z : List Pair} {xs ys zs : List (List Pair)} (h : Merged ex ey x y z)
    (h' : Merged ex ey xs.flatten ys.flatten zs.flatten) :
    Merged ex ey (x :: xs).flatten (y :: ys).flatten (z :: zs).flatten := by
  simp only [List.flatten_cons]; exact merged_append h h'

theorem merged_bare (t : UInt8) (v w : Bytes) : Merged ex ey [bare t v] [bare t w] [bare t v] :=
  ⟨by simp, by simp, by simp [bare]⟩

theorem merged_opt {α : Type} (t : UInt8) (c : Codec α) (a b : Option α) :
    Merged ex ey (emitOpt t c a) (emitOpt t c b) (emitOpt t c (combOpt a b)) := by
  cases a <;> cases b <;> refine ⟨?_, ?_, ?_⟩ <;> simp [emitOpt, combOpt, bare]

/-- A field not taken from the other side at all. -/
theorem merged_keep {α : Type} (t : UInt8) (c : Codec α) (a b : Option α) (h : t ∈ ey) :
    Merged ex ey (emitOpt t c a) (emitOpt t c b) (emitOpt t c a) := by
  refine ⟨fun p hp => .inl hp, fun p hp _ => ⟨p, hp, rfl⟩, ?_⟩
  intro p hp hn
  cases b with
  | none => simp [emitOpt] at hp
  | some b =>
    simp only [emitOpt, List.mem_singleton] at hp
    subst hp
    exact absurd h hn

/-- A field that may be dropped. -/
theorem merged_drop {α : Type} (t : UInt8) (c : Codec α) (a b d : Option α) (hx : t ∈ ex) (hy : t ∈ ey)
    (hd : d = a ∨ d = b ∨ d = none) :
    Merged ex ey (emitOpt t c a) (emitOpt t c b) (emitOpt t c d) := by
  refine ⟨?_, ?_, ?_⟩
  · intro p hp
    rcases hd with rfl | rfl | rfl
    · exact .inl hp
    · exact .inr hp
    · simp [emitOpt] at hp
  · intro p hp hn
    cases a with
    | none => simp [emitOpt] at hp
    | some b =>
      simp only [emitOpt, List.mem_singleton] at hp
      subst hp
      exact absurd hx hn
  · intro p hp hn
    cases b with
    | none => simp [emitOpt] at hp
    | some b =>
      simp only [emitOpt, List.mem_singleton] at hp
      subst hp
      exact absurd hy hn

theorem merged_maps {K V : Type} [OrdKey K] [DecidableEq K] (kf : K → RawKey) (vf : V → Bytes) (m n r : BMap K V)
    (h : ∀ k v, r.get k = some v → m.get k = some v ∨ n.get k = some v)
    (hm : ∀ k v, m.get k = some v → ∃ w, r.get k = some w) (hn : ∀ k v, n.get k = some v → ∃ w, r.get k = some w) :
    Merged ex ey (m.l.map fun kv => ⟨kf kv.1, vf kv.2⟩) (n.l.map fun kv => ⟨kf kv.1, vf kv.2⟩)
      (r.l.map fun kv => ⟨kf kv.1, vf kv.2⟩) := by
  refine ⟨?_, ?_, ?_⟩
  · intro p hp
    obtain ⟨⟨k, v⟩, hkv, rfl⟩ := List.mem_map.mp hp
    rcases h k v (BMap.mem_iff_get.mp hkv) with h | h
    · exact .inl (List.mem_map.mpr ⟨(k, v), BMap.mem_iff_get.mpr h, rfl⟩)
    · exact .inr (List.mem_map.mpr ⟨(k, v), BMap.mem_iff_get.mpr h, rfl⟩)
  · intro p hp _
    obtain ⟨⟨k, v⟩, hkv, rfl⟩ := List.mem_map.mp hp
    obtain ⟨w, hw⟩ := hm k v (BMap.mem_iff_get.mp hkv)
    exact ⟨_, List.mem_map.mpr ⟨(k, w), BMap.mem_iff_get.mpr hw, rfl⟩, rfl⟩
  · intro p hp _
    obtain ⟨⟨k, v⟩, hkv, rfl⟩ := List.mem_map.mp hp
    obtain ⟨w, hw⟩ := hn k v (BMap.mem_iff_get.mp hkv)
    exact ⟨_, List.mem_map.mpr ⟨(k, w), BMap.mem_iff_get.mpr hw, rfl⟩, rfl⟩

theorem merged_extend {K V : Type} [OrdKey K] [DecidableEq K] (kf : K → RawKey) (vf : V → Bytes) (m n : BMap K V) :
    Merged ex ey (m.l.map fun kv => ⟨kf kv.1, vf kv.2⟩) (n.l.map fun kv => ⟨kf kv.1, vf kv.2⟩)
      ((m.extend n).l.map fun kv => ⟨kf kv.1, vf kv.2⟩) := by
  apply merged_maps
  · intro k v h
    rw [BMap.get_extend] at h
    cases e : n.get k with
    | none => rw [e] at h; exact .inl h
    | some w => rw [e] at h; exact .inr h
  · intro k v h
    rw [BMap.get_extend, h]
    cases n.get k with
    | none => exact ⟨_, rfl⟩
    | some w => exact ⟨_, rfl⟩
  · intro k v h
    rw [BMap.get_extend, h]
    exact ⟨_, rfl⟩

theorem merged_sp {V : Type} (t : UInt8) (ser : V → Bytes) (m n : BMap L.compressed.T V) :
    Merged ex ey (emitSp L t ser m) (emitSp L t ser n) (emitSp L t ser (m.extend n)) := by
  unfold emitSp
  split
  · exact merged_extend (fun k : L.compressed.T => ⟨t, k.bytes⟩) ser m n
  · exact merged_nil

theorem merged_map {K V : Type} [OrdKey K] [DecidableEq K] (t : UInt8) (ck : Codec K) (cv : Codec V) (m n : BMap K V) :
    Merged ex ey (emitMap t ck cv m) (emitMap t ck cv n) (emitMap t ck cv (m.extend n)) :=
  merged_extend (fun k => ⟨t, ck.ser k⟩) cv.ser m n
theorem merged_prop (m n : BMap PropKey Bytes) : Merged ex ey (emitProp m) (emitProp n) (emitProp (m.extend n)) :=
  merged_extend (fun k => k.toKey) (fun b => b) m n
theorem merged_unknown (m n : BMap RawKey Bytes) :
    Merged ex ey (emitUnknown m) (emitUnknown n) (emitUnknown (m.extend n)) :=
  merged_extend (fun k => k) (fun b => b) m n

theorem merged_spInfo (a b : Option Bytes) :
    Merged ex ey (emitSpInfo L a) (emitSpInfo L b) (emitSpInfo L (combOpt a b)) := by
  unfold emitSpInfo
  split
  · exact merged_opt _ _ _ _
  · exact merged_nil
theorem merged_spLabel (a b : Option UInt32) :
    Merged ex ey (emitSpLabel L a) (emitSpLabel L b) (emitSpLabel L (combOpt a b)) := by
  unfold emitSpLabel
  split
  · exact merged_opt _ _ _ _
  · exact merged_nil

theorem combUtxos_fst (a b : Option Tx × Option TxOut) :
    (combUtxos a b).1 = a.1 ∨ (combUtxos a b).1 = b.1 ∨ (combUtxos a b).1 = none := by
  obtain ⟨n, w⟩ := a
  obtain ⟨n', w'⟩ := b
  cases n <;> cases w <;> cases w' <;> simp [combUtxos, combOpt]
  all_goals cases n' <;> simp
theorem combUtxos_snd (a b : Option Tx × Option TxOut) : (combUtxos a b).2 = combOpt a.2 b.2 := by
  obtain ⟨n, w⟩ := a
  obtain ⟨n', w'⟩ := b
  cases w <;> cases w' <;> rfl

theorem merged_input (a b : Input L) : Merged [0x00] [0x00, 0x03] a.getPairs b.getPairs (a.merge b).getPairs := by
  unfold Input.getPairs Input.merge
  rw [combUtxos_snd]
  repeat' apply merged_flatten_cons
  all_goals first
    | exact merged_bare _ _ _
    | exact merged_opt _ _ _ _
    | exact merged_map _ _ _ _ _
    | exact merged_prop _ _
    | exact merged_unknown _ _
    | exact merged_sp _ _ _ _
    | exact merged_nil
    | (apply merged_keep; decide)
    | (refine merged_drop _ _ _ _ _ ?_ ?_ (combUtxos_fst _ _) <;> decide)

theorem merged_output (a b : Output L) : Merged [] [] a.getPairs b.getPairs (a.merge b).getPairs := by
  unfold Output.getPairs Output.merge
  repeat' apply merged_flatten_cons
  all_goals first
    | exact merged_bare _ _ _
    | exact merged_opt _ _ _ _
    | exact merged_map _ _ _ _ _
    | exact merged_prop _ _
    | exact merged_unknown _ _
    | exact merged_spInfo _ _
    | exact merged_spLabel _ _
    | exact merged_nil

theorem merged_xpubs {a b c : BMap L.xpub.T KeySource} (hx : ∀ x, mergeOpt (a.get x) (b.get x) = some (c.get x)) :
    Merged ex ey (a.l.map (fun kv => (⟨⟨PSBT_GLOBAL_XPUB, kv.1.bytes⟩, keySourceCodec.ser kv.2⟩ : Pair)))
      (b.l.map (fun kv => ⟨⟨PSBT_GLOBAL_XPUB, kv.1.bytes⟩, keySourceCodec.ser kv.2⟩))
      (c.l.map (fun kv => ⟨⟨PSBT_GLOBAL_XPUB, kv.1.bytes⟩, keySourceCodec.ser kv.2⟩)) := by
  apply merged_maps (fun k : L.xpub.T => ⟨PSBT_GLOBAL_XPUB, k.bytes⟩) keySourceCodec.ser
  · intro k v hv
    have := hx k
    rw [hv] at this
    revert this
    cases a.get k with
    | none => intro h; simp only [mergeOpt, Option.some.injEq] at h; exact .inr h
    | some s =>
      cases b.get k with
      | none => intro h; simp only [mergeOpt, Option.some.injEq] at h; exact .inl (congrArg some h)
      | some t =>
        simp only [mergeOpt, Option.map_eq_some_iff, Option.some.injEq, exists_eq_right]
        intro h
        cases ksMerge_iff.mp h with
        | mine => exact .inl rfl
        | theirs => exact .inr rfl
  · intro k v hv
    have := hx k
    rw [hv] at this
    revert this
    cases b.get k with
    | none => intro h; simp only [mergeOpt, Option.some.injEq] at h; exact ⟨v, h.symm⟩
    | some t =>
      simp only [mergeOpt, Option.map_eq_some_iff]
      rintro ⟨w, -, h⟩
      exact ⟨w, h.symm⟩
  · intro k v hv
    have := hx k
    rw [hv] at this
    revert this
    cases a.get k with
    | none => intro h; simp only [mergeOpt, Option.some.injEq] at h; exact ⟨v, h.symm⟩
    | some t =>
      simp only [mergeOpt, Option.map_eq_some_iff]
      rintro ⟨w, -, h⟩
      exact ⟨w, h.symm⟩

theorem merged_global {a b c : Global L} (h : a.combine b = .ok c) : Merged [] [0x03] a.getPairs b.getPairs c.getPairs := by
  obtain ⟨-, -, hx, hc⟩ := globalCombine_ok.mp h
  have hxp := merged_xpubs (ex := []) (ey := [0x03]) hx
  rw [hc]
  unfold Global.getPairs
  repeat' apply merged_flatten_cons
  all_goals first
    | exact hxp
    | exact merged_bare _ _ _
    | exact merged_map _ _ _ _ _
    | exact merged_prop _ _
    | exact merged_unknown _ _
    | exact merged_sp _ _ _ _
    | exact merged_nil
    | (apply merged_keep; decide)

end

end Psbt.V2
