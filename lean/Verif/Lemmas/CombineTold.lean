/- What the loops of combining complain about. -/
import Verif.Spec.CombineTold
import Verif.Lemmas.Combine
import Verif.Lemmas.V0Combine
namespace Psbt.V2
open Psbt Psbt.Spec

variable {L : Lib}

theorem ksMerge_none {s t : KeySource} : ksMerge s t = none ↔ Contradict s t := by
  have h : ∀ {c}, ksMerge s t = some c → ¬ Contradict s t := by
    intro c h hc
    cases ksMerge_iff.mp h with
    | mine _ h' => exact hc.2 h'
    | theirs h' => exact hc.1 h'
  constructor
  · intro hn
    refine ⟨fun hs => ?_, fun hs => ?_⟩
    · rw [ksMerge_iff.mpr (.theirs hs)] at hn; cases hn
    · by_cases hl : t.2.length < s.2.length
      · rw [ksMerge_iff.mpr (.mine hl hs)] at hn; cases hn
      · have he : t.2 = s.2 := hs.eq_of_length (by have := hs.length_le; omega)
        rw [ksMerge_iff.mpr (.theirs (he ▸ List.suffix_refl _))] at hn; cases hn
  · intro hc
    cases hk : ksMerge s t with
    | none => rfl
    | some c => exact absurd hc (h hk)

/-- How the loop ends for contradictory sources. -/
def clashEnd (x : L.xpub.T) (s t : KeySource) : Fail (GlobalCombErr L) :=
  if t.2.length < s.2.length then .panic "attempt to subtract with overflow" else .err (.inconsistentKeySources x)

theorem mergeXpubs_step (m : BMap L.xpub.T KeySource) (x : L.xpub.T) (t : KeySource) (rest : List (L.xpub.T × KeySource)) :
    (∃ c, mergeXpubs m ((x, t) :: rest) = mergeXpubs (m.insert x c) rest ∧ ∀ s, m.get x = some s → ¬ Contradict s t) ∨
    (∃ s, m.get x = some s ∧ Contradict s t ∧ mergeXpubs m ((x, t) :: rest) = .error (clashEnd x s t)) := by
  obtain ⟨fp1, d1⟩ := t
  rw [mergeXpubs]
  cases hm : m.get x with
  | none => exact .inl ⟨_, rfl, by simp⟩
  | some a =>
    obtain ⟨fp2, d2⟩ := a
    simp only [test1_iff]
    by_cases h1 : (d1 = d2 ∧ fp1 = fp2) ∨ (d1.length < d2.length ∧ d1 <:+ d2)
    · refine .inl ⟨(fp2, d2), ?_, ?_⟩
      · rw [if_pos h1, BMap.insert_get_self m hm]
      · rintro s hs ⟨-, h⟩
        cases hs
        rcases h1 with ⟨rfl, -⟩ | ⟨-, h1⟩
        · exact h (List.suffix_refl _)
        · exact h h1
    · rw [if_neg h1]
      by_cases h2 : d1.length < d2.length
      · refine .inr ⟨_, rfl, ⟨fun h => ?_, fun h => h1 (.inr ⟨h2, h⟩)⟩, ?_⟩
        · have := h.length_le; simp only at this; omega
        · rw [if_pos h2, clashEnd, if_pos h2]
      · rw [if_neg h2]
        by_cases h3 : d2 = d1.drop (d1.length - d2.length)
        · refine .inl ⟨_, by rw [if_pos h3], ?_⟩
          rintro s hs ⟨h, -⟩
          cases hs
          exact h (suffix_iff_drop.mpr ⟨Nat.le_of_not_lt h2, h3⟩)
        · refine .inr ⟨_, rfl, ⟨fun h => h3 (suffix_iff_drop.mp h).2, fun h => ?_⟩, ?_⟩
          · have he : d1 = d2 := List.IsSuffix.eq_of_length h (by have := h.length_le; simp only at this; omega)
            subst he
            simp at h3
          · rw [if_neg h3, clashEnd, if_neg h2]

/-- The loop fails at the first key with contradictory sources. -/
theorem mergeXpubs_fails {m : BMap L.xpub.T KeySource} {l : List (L.xpub.T × KeySource)} (hs : KSorted l) (f : Fail (GlobalCombErr L)) :
    mergeXpubs m l = .error f ↔ ∃ l1 x t l2 s, l = l1 ++ (x, t) :: l2 ∧ m.get x = some s ∧ Contradict s t ∧
      (∀ y t' s', (y, t') ∈ l1 → m.get y = some s' → ¬ Contradict s' t') ∧ f = clashEnd x s t := by
  induction l generalizing m with
  | nil => simp [mergeXpubs]
  | cons a rest ih =>
    obtain ⟨x, t⟩ := a
    rcases mergeXpubs_step m x t rest with ⟨c, he, hc⟩ | ⟨s, hm, hc, he⟩
    · rw [he, ih hs.tail]
      have hg : ∀ y t', (y, t') ∈ rest → (m.insert x c).get y = m.get y := by
        intro y t' hy
        rw [BMap.get_insert, if_neg]
        rintro rfl
        have := hs.lt_of_mem _ hy
        simp [OrdKey.irrefl] at this
      constructor
      · rintro ⟨l1, y, t', l2, s, rfl, h1, h2, h3, h4⟩
        refine ⟨(x, t) :: l1, y, t', l2, s, rfl, ?_, h2, ?_, h4⟩
        · rw [← hg y t' (by simp)]; exact h1
        · intro z tz sz hz hmz
          rcases List.mem_cons.mp hz with h | h
          · cases h; exact hc _ hmz
          · exact h3 z tz sz h (by rw [hg z tz (by simp [h])]; exact hmz)
      · rintro ⟨l1, y, t', l2, s, hl, h1, h2, h3, h4⟩
        cases l1 with
        | nil =>
          simp only [List.nil_append, List.cons.injEq, Prod.mk.injEq] at hl
          obtain ⟨⟨rfl, rfl⟩, rfl⟩ := hl
          exact absurd h2 (hc _ h1)
        | cons b l1 =>
          simp only [List.cons_append, List.cons.injEq] at hl
          obtain ⟨rfl, rfl⟩ := hl
          refine ⟨l1, y, t', l2, s, rfl, ?_, h2, ?_, h4⟩
          · rw [hg y t' (by simp)]; exact h1
          · intro z tz sz hz hmz
            exact h3 z tz sz (List.mem_cons_of_mem _ hz) (by rw [← hg z tz (by simp [hz])]; exact hmz)
    · rw [he]
      constructor
      · intro h
        cases h
        exact ⟨[], x, t, rest, s, rfl, hm, hc, by simp, rfl⟩
      · rintro ⟨l1, y, t', l2, s', hl, h1, h2, h3, rfl⟩
        cases l1 with
        | nil =>
          simp only [List.nil_append, List.cons.injEq, Prod.mk.injEq] at hl
          obtain ⟨⟨rfl, rfl⟩, rfl⟩ := hl
          rw [hm] at h1
          cases h1
          rfl
        | cons b l1 =>
          simp only [List.cons_append, List.cons.injEq] at hl
          obtain ⟨rfl, rfl⟩ := hl
          exact absurd hc (h3 x t s List.mem_cons_self hm)

theorem ksorted_before {l1 l2 : List (L.xpub.T × KeySource)} {x : L.xpub.T} {t : KeySource} (hs : KSorted (l1 ++ (x, t) :: l2)) :
    ∀ y t', (y, t') ∈ l1 → OrdKey.lt y x = true := by
  induction l1 with
  | nil => intro y t' h; cases h
  | cons a l1 ih =>
    intro y t' h
    rcases List.mem_cons.mp h with rfl | h
    · exact hs.lt_of_mem (x, t) (by simp)
    · exact ih hs.tail y t' h

theorem ksorted_after {l1 l2 : List (L.xpub.T × KeySource)} {x : L.xpub.T} {t : KeySource} (hs : KSorted (l1 ++ (x, t) :: l2)) :
    ∀ y t', (y, t') ∈ l2 → OrdKey.lt x y = true := by
  induction l1 with
  | nil => intro y t' h; exact hs.lt_of_mem (y, t') h
  | cons a l1 ih => exact ih hs.tail

theorem mergeXpubs_clash {m n : BMap L.xpub.T KeySource} (f : Fail (GlobalCombErr L)) :
    mergeXpubs m n.l = .error f ↔ ∃ x s t, FirstClash m n x s t ∧ f = clashEnd x s t := by
  rw [mergeXpubs_fails n.sorted]
  constructor
  · rintro ⟨l1, x, t, l2, s, hl, h1, h2, h3, h4⟩
    have hs := n.sorted
    rw [hl] at hs
    refine ⟨x, s, t, ⟨⟨h1, ?_, h2⟩, ?_⟩, h4⟩
    · exact BMap.mem_iff_get.mp (by rw [hl]; simp)
    · rintro y s' t' hy ⟨g1, g2, g3⟩
      have hmem := BMap.mem_iff_get.mpr g2
      rw [hl] at hmem
      rcases List.mem_append.mp hmem with h | h
      · exact h3 y t' s' h g1 g3
      · rcases List.mem_cons.mp h with h | h
        · cases h; simp [OrdKey.irrefl] at hy
        · have := OrdKey.asymm (ksorted_after hs y t' h)
          rw [hy] at this; cases this
  · rintro ⟨x, s, t, ⟨⟨h1, h2, h3⟩, h4⟩, h5⟩
    obtain ⟨l1, l2, hl⟩ := List.append_of_mem (BMap.mem_iff_get.mpr h2)
    have hs := n.sorted
    rw [hl] at hs
    refine ⟨l1, x, t, l2, s, hl, h1, h3, ?_, h5⟩
    intro y t' s' hy hm hc
    exact h4 y s' t' (ksorted_before hs y t' hy) ⟨hm, BMap.mem_iff_get.mp (by rw [hl]; simp [hy]), hc⟩

theorem mergeXpubs_ok_iff {m n : BMap L.xpub.T KeySource} : (∃ r, mergeXpubs m n.l = .ok r) ↔ ∀ x s t, ¬ Clash m n x s t := by
  constructor
  · rintro ⟨r, h⟩ x s t ⟨h1, h2, h3⟩
    have := (mergeXpubs_ok n.sorted).mp h x
    rw [show getL x n.l = n.get x from rfl, h1, h2] at this
    simp only [mergeOpt, ksMerge_none.mpr h3] at this
    cases this
  · intro h
    cases hm : mergeXpubs m n.l with
    | ok r => exact ⟨r, rfl⟩
    | error f =>
      obtain ⟨x, s, t, ⟨hc, -⟩, -⟩ := (mergeXpubs_clash f).mp hm
      exact absurd hc (h x s t)

/-- A zip fails at the first pair that fails. -/
theorem combineZip_error {ε α : Type} {f : α → α → Except ε α} {as bs : List α} {e : ε} : combineZip f as bs = .error e ↔
    ∃ (k : Nat) (a b : α), as[k]? = some a ∧ bs[k]? = some b ∧ f a b = .error e ∧
      ∀ k' < k, ∀ a' b', as[k']? = some a' → bs[k']? = some b' → ∃ c, f a' b' = .ok c := by
  induction as generalizing bs with
  | nil => simp [combineZip]
  | cons a as ih =>
    cases bs with
    | nil => simp [combineZip]
    | cons b bs =>
      rw [combineZip]
      constructor
      · intro h
        cases hf : f a b with
        | error e' => rw [hf] at h; cases h; exact ⟨0, a, b, rfl, rfl, hf, by omega⟩
        | ok c =>
          rw [hf] at h
          simp only [ok_bind] at h
          cases hz : combineZip f as bs with
          | ok cs => rw [hz] at h; cases h
          | error e' =>
            rw [hz] at h
            cases h
            obtain ⟨k, a', b', h1, h2, h3, h4⟩ := ih.mp hz
            refine ⟨k + 1, a', b', h1, h2, h3, ?_⟩
            intro k' hk a'' b'' g1 g2
            cases k' with
            | zero => cases g1; cases g2; exact ⟨c, hf⟩
            | succ k' => exact h4 k' (by omega) a'' b'' g1 g2
      · rintro ⟨k, a', b', h1, h2, h3, h4⟩
        cases k with
        | zero =>
          cases h1; cases h2
          rw [h3]; rfl
        | succ k =>
          obtain ⟨c, hc⟩ := h4 0 (by omega) a b rfl rfl
          rw [hc, ok_bind, ih.mpr ⟨k, a', b', h1, h2, h3, fun k' hk a'' b'' g1 g2 => h4 (k' + 1) (by omega) a'' b'' g1 g2⟩]
          rfl

theorem combineZip_fine {ε α : Type} {f : α → α → Except ε α} {as bs : List α} : (∃ cs, combineZip f as bs = .ok cs) ↔
    ∀ (k : Nat) a b, as[k]? = some a → bs[k]? = some b → ∃ c, f a b = .ok c := by
  constructor
  · rintro ⟨cs, h⟩ k a b h1 h2
    induction as generalizing bs cs k with
    | nil => simp at h1
    | cons a' as ih =>
      cases bs with
      | nil => simp at h2
      | cons b' bs =>
        rw [combineZip] at h
        obtain ⟨c, hc, h⟩ := bind_ok.mp h
        obtain ⟨cs', hcs, -⟩ := bind_ok.mp h
        cases k with
        | zero => cases h1; cases h2; exact ⟨c, hc⟩
        | succ k => exact ih cs' hcs k h1 h2
  · intro h
    cases hz : combineZip f as bs with
    | ok cs => exact ⟨cs, rfl⟩
    | error e =>
      obtain ⟨k, a, b, h1, h2, h3, -⟩ := combineZip_error.mp hz
      obtain ⟨c, hc⟩ := h k a b h1 h2
      rw [h3] at hc; cases hc

theorem inputCombine_fine {i j : Input L} : (∃ c, i.combine j = .ok c) ↔
    i.previousTxid = j.previousTxid ∧ i.spentOutputIndex = j.spentOutputIndex := by
  unfold Input.combine
  by_cases h1 : i.previousTxid = j.previousTxid
  · by_cases h2 : i.spentOutputIndex = j.spentOutputIndex <;> simp [h1, h2]
  · simp [h1]

theorem inputCombine_error {i j : Input L} {e : InputCombErr} : i.combine j = .error e ↔
    (i.previousTxid ≠ j.previousTxid ∧ e = .previousTxid i.previousTxid j.previousTxid) ∨
    (i.previousTxid = j.previousTxid ∧ i.spentOutputIndex ≠ j.spentOutputIndex ∧
      e = .spentOutputIndex i.spentOutputIndex j.spentOutputIndex) := by
  unfold Input.combine
  by_cases h1 : i.previousTxid = j.previousTxid
  · by_cases h2 : i.spentOutputIndex = j.spentOutputIndex <;> simp [h1, h2, eq_comm]
  · simp [h1, eq_comm]

theorem outputCombine_fine {i j : Output L} : (∃ c, i.combine j = .ok c) ↔
    i.amount = j.amount ∧ i.scriptPubkey = j.scriptPubkey := by
  unfold Output.combine
  by_cases h1 : i.amount = j.amount
  · by_cases h2 : i.scriptPubkey = j.scriptPubkey <;> simp [h1, h2]
  · simp [h1]

theorem outputCombine_error {i j : Output L} {e : OutputCombErr} : i.combine j = .error e ↔
    (i.amount ≠ j.amount ∧ e = .amount i.amount j.amount) ∨
    (i.amount = j.amount ∧ i.scriptPubkey ≠ j.scriptPubkey ∧ e = .scriptPubkey i.scriptPubkey j.scriptPubkey) := by
  unfold Output.combine
  by_cases h1 : i.amount = j.amount
  · by_cases h2 : i.scriptPubkey = j.scriptPubkey <;> simp [h1, h2, eq_comm]
  · simp [h1, eq_comm]

end Psbt.V2
