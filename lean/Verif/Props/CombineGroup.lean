/- C28: exactly when the grouping matters, for any numbers of inputs and outputs. -/
import Verif.Props.CombineOrder
namespace Psbt.V2
variable {L : Lib}

theorem zip_total {ε α : Type} {f : α → α → Except ε α} : ∀ bs cs : List α, (∃ ns, combineZip f bs cs = .ok ns) ↔
    ∀ (k : Nat) b c, bs[k]? = some b → cs[k]? = some c → ∃ n, f b c = .ok n
  | [], cs => by cases cs <;> simp [combineZip]
  | b :: bs, [] => by simp [combineZip]
  | b :: bs, c :: cs => by
    have ih := zip_total (f := f) bs cs
    constructor
    · rintro ⟨ns, h⟩ k x y e1 e2
      obtain ⟨n, -, h⟩ := zipAt h e1 e2
      exact ⟨n, h⟩
    · intro h
      obtain ⟨n, hn⟩ := h 0 b c rfl rfl
      obtain ⟨ns, hns⟩ := ih.mpr fun k x y e1 e2 => h (k + 1) x y (by simpa using e1) (by simpa using e2)
      exact ⟨n :: ns, by simp only [combineZip, hn, hns, ok_bind]⟩

def Grouped {ε α : Type} (f : α → α → Except ε α) (as bs cs : List α) (k : Nat) : Prop :=
  (∀ a b c, as[k]? = some a → bs[k]? = some b → cs[k]? = some c →
    ∃ m n d, f a b = .ok m ∧ f m c = .ok d ∧ f b c = .ok n ∧ f a n = .ok d) ∧
  (∀ a c, as[k]? = some a → bs[k]? = none → cs[k]? = some c → f a c = .ok a) ∧
  (∀ b c, as[k]? = none → bs[k]? = some b → cs[k]? = some c → ∃ n, f b c = .ok n)

theorem zip_group {ε α : Type} {f : α → α → Except ε α} : ∀ {as bs cs ms ds : List α}, combineZip f as bs = .ok ms →
    combineZip f ms cs = .ok ds → ((∃ ns, combineZip f bs cs = .ok ns ∧ combineZip f as ns = .ok ds) ↔ ∀ k, Grouped f as bs cs k)
  | [], bs, cs, ms, ds, h1, h2 => by
    cases h1
    cases h2
    have := zip_total (f := f) bs cs
    constructor
    · rintro ⟨ns, h, -⟩ k
      exact ⟨fun _ _ _ e => by simp at e, fun _ _ e => by simp at e, fun b c _ e1 e2 => this.mp ⟨ns, h⟩ k b c e1 e2⟩
    · intro h
      obtain ⟨ns, hn⟩ := this.mpr fun k b c e1 e2 => (h k).2.2 b c (by simp) e1 e2
      exact ⟨ns, hn, rfl⟩
  | a :: as, [], cs, ms, ds, h1, h2 => by
    cases h1
    have key : combineZip f (a :: as) cs = .ok (a :: as) ↔ ∀ k, Grouped f (a :: as) [] cs k := by
      rw [combineZip_ok]
      constructor
      · rintro ⟨-, h⟩ k
        exact ⟨fun _ _ _ _ e => by simp at e, fun x c e1 _ e2 => (h k x x e1 e1).1 c e2, fun _ _ _ e => by simp at e⟩
      · intro h
        refine ⟨rfl, fun k x y e1 e2 => ?_⟩
        cases Option.some.inj (e1.symm.trans e2)
        exact ⟨fun c hc => (h k).2.1 x c e1 (by simp) hc, fun _ => rfl⟩
    rw [← key, h2]
    constructor
    · rintro ⟨ns, h, h'⟩
      have : ns = [] := by cases cs <;> cases h <;> rfl
      subst this
      cases h'
      rfl
    · intro h
      cases h
      exact ⟨[], by cases cs <;> rfl, rfl⟩
  | a :: as, b :: bs, [], ms, ds, h1, h2 => by
    have : ds = ms := by cases ms <;> cases h2 <;> rfl
    subst this
    exact ⟨fun _ k => ⟨fun _ _ _ _ _ e => by simp at e, fun _ _ _ _ e => by simp at e, fun _ _ _ _ e => by simp at e⟩,
      fun _ => ⟨b :: bs, rfl, h1⟩⟩
  | a :: as, b :: bs, c :: cs, ms, ds, h1, h2 => by
    simp only [combineZip, bind_ok] at h1
    obtain ⟨m, h3, ms', h4, h5⟩ := h1
    cases h5
    simp only [combineZip, bind_ok] at h2
    obtain ⟨d, h5, ds', h6, h7⟩ := h2
    cases h7
    have ih := zip_group h4 h6
    constructor
    · rintro ⟨ns, g1, g2⟩ k
      simp only [combineZip, bind_ok] at g1
      obtain ⟨n, g3, ns', g4, g5⟩ := g1
      cases g5
      simp only [combineZip, bind_ok] at g2
      obtain ⟨d', g5, ds'', g6, g7⟩ := g2
      cases g7
      cases k with
      | zero =>
        refine ⟨fun x y z e1 e2 e3 => ?_, fun _ _ _ e => by simp at e, fun _ _ e => by simp at e⟩
        simp only [List.getElem?_cons_zero, Option.some.injEq] at e1 e2 e3
        subst e1 e2 e3
        exact ⟨m, n, d, h3, h5, g3, g5⟩
      | succ k =>
        have := ih.mp ⟨ns', g4, g6⟩ k
        simpa only [Grouped, List.getElem?_cons_succ] using this
    · intro h
      obtain ⟨m', n, d', e1, e2, e3, e4⟩ := (h 0).1 a b c rfl rfl rfl
      cases e1.symm.trans h3
      cases e2.symm.trans h5
      obtain ⟨ns, g1, g2⟩ := ih.mpr fun k => by
        have := h (k + 1)
        simpa only [Grouped, List.getElem?_cons_succ] using this
      exact ⟨n :: ns, by simp only [combineZip, e3, g1, ok_bind], by simp only [combineZip, e4, g2, ok_bind]⟩

/-- C28, exactly, for any numbers of inputs and outputs: if three PSBTs can be combined from the left, combining from the right gives
the same if and only if nowhere the grouping of the UTXOs matters, the third adds nothing to inputs and outputs of the first that the
second does not have, and the inputs and outputs which only the second and third have are about the same. -/
theorem C28_exact_partial {a b c r : Psbt L} (h : (a.combine b >>= fun ab => ab.combine c) = .ok r) :
    (b.combine c >>= fun bc => a.combine bc) = .ok r ↔
    (∀ (k : Nat) i j l, a.inputs[k]? = some i → b.inputs[k]? = some j → c.inputs[k]? = some l →
      ¬ Spec.GroupingMatters i.nonWitnessUtxo i.witnessUtxo j.nonWitnessUtxo j.witnessUtxo l.nonWitnessUtxo l.witnessUtxo) ∧
    (∀ (k : Nat) i l, a.inputs[k]? = some i → b.inputs[k]? = none → c.inputs[k]? = some l → i.combine l = .ok i) ∧
    (∀ (k : Nat) i l, a.outputs[k]? = some i → b.outputs[k]? = none → c.outputs[k]? = some l → i.combine l = .ok i) ∧
    (∀ (k : Nat) j l, a.inputs[k]? = none → b.inputs[k]? = some j → c.inputs[k]? = some l →
      j.previousTxid = l.previousTxid ∧ j.spentOutputIndex = l.spentOutputIndex) ∧
    (∀ (k : Nat) j l, a.outputs[k]? = none → b.outputs[k]? = some j → c.outputs[k]? = some l →
      j.amount = l.amount ∧ j.scriptPubkey = l.scriptPubkey) := by
  simp only [bind_ok, combine_ok] at h ⊢
  obtain ⟨m, ⟨g1, i1, o1⟩, g2, i2, o2⟩ := h
  have hI := zip_group i1 i2
  have hO := zip_group o1 o2
  have hG := (globalCombine_assoc (a := a.global) (b := b.global) (c := c.global) (d := r.global)).mp ⟨_, g1, g2⟩
  have split : (∃ n : Psbt L, (b.global.combine c.global = .ok n.global ∧ combineZip Input.combine b.inputs c.inputs = .ok n.inputs ∧
        combineZip Output.combine b.outputs c.outputs = .ok n.outputs) ∧ a.global.combine n.global = .ok r.global ∧
        combineZip Input.combine a.inputs n.inputs = .ok r.inputs ∧ combineZip Output.combine a.outputs n.outputs = .ok r.outputs) ↔
      (∀ k, Grouped Input.combine a.inputs b.inputs c.inputs k) ∧ ∀ k, Grouped Output.combine a.outputs b.outputs c.outputs k := by
    rw [← hI, ← hO]
    constructor
    · rintro ⟨n, ⟨-, x1, x2⟩, -, y1, y2⟩
      exact ⟨⟨_, x1, y1⟩, ⟨_, x2, y2⟩⟩
    · rintro ⟨⟨is, x1, y1⟩, ⟨os, x2, y2⟩⟩
      obtain ⟨g, z1, z2⟩ := hG
      exact ⟨⟨g, is, os⟩, ⟨z1, x1, x2⟩, z2, y1, y2⟩
  rw [split]
  constructor
  · rintro ⟨hi, ho⟩
    refine ⟨fun k i j l e1 e2 e3 => ?_, fun k i l e1 e2 e3 => (hi k).2.1 i l e1 e2 e3, fun k i l e1 e2 e3 => (ho k).2.1 i l e1 e2 e3,
      fun k j l e1 e2 e3 => ?_, fun k j l e1 e2 e3 => ?_⟩
    · obtain ⟨m, n, d, x1, x2, x3, x4⟩ := (hi k).1 i j l e1 e2 e3
      apply merge_assoc_iff.mp
      rw [← (inputCombine_ok.mp x1).2.2, ← (inputCombine_ok.mp x2).2.2, ← (inputCombine_ok.mp x3).2.2, ← (inputCombine_ok.mp x4).2.2]
    · obtain ⟨n, hn⟩ := (hi k).2.2 j l e1 e2 e3
      exact ⟨(inputCombine_ok.mp hn).1, (inputCombine_ok.mp hn).2.1⟩
    · obtain ⟨n, hn⟩ := (ho k).2.2 j l e1 e2 e3
      exact ⟨(outputCombine_ok.mp hn).1, (outputCombine_ok.mp hn).2.1⟩
  · rintro ⟨hu, h1, h2, h3, h4⟩
    refine ⟨fun k => ⟨fun i j l e1 e2 e3 => ?_, h1 k, fun j l e1 e2 e3 => ?_⟩, fun k => ⟨fun i j l e1 e2 e3 => ?_, h2 k, fun j l e1 e2 e3 => ?_⟩⟩
    · obtain ⟨x, x1, x2⟩ := zipAt i1 e1 e2
      obtain ⟨y, y1, y2⟩ := zipAt i2 x1 e3
      have := merge_assoc_iff.mpr (hu k i j l e1 e2 e3)
      refine ⟨x, j.merge l, y, x2, y2, ?_⟩
      obtain ⟨p1, p2, rfl⟩ := inputCombine_ok.mp x2
      obtain ⟨q1, q2, rfl⟩ := inputCombine_ok.mp y2
      have q1 : i.previousTxid = l.previousTxid := q1
      have q2 : i.spentOutputIndex = l.spentOutputIndex := q2
      exact ⟨inputCombine_ok.mpr ⟨p1 ▸ q1, p2 ▸ q2, rfl⟩, inputCombine_ok.mpr ⟨p1, p2, this⟩⟩
    · exact ⟨_, inputCombine_ok.mpr ⟨(h3 k j l e1 e2 e3).1, (h3 k j l e1 e2 e3).2, rfl⟩⟩
    · obtain ⟨x, x1, x2⟩ := zipAt o1 e1 e2
      obtain ⟨y, y1, y2⟩ := zipAt o2 x1 e3
      obtain ⟨n, n1, n2⟩ := outputCombine_assoc.mp ⟨x, x2, y2⟩
      exact ⟨x, n, y, x2, y2, n1, n2⟩
    · exact ⟨_, outputCombine_ok.mpr ⟨(h4 k j l e1 e2 e3).1, (h4 k j l e1 e2 e3).2, rfl⟩⟩

/-- Different numbers of inputs: the third PSBT has what the second lacks. If it says nothing new, the grouping does not matter. -/
example : ((cP [cIn 1, cIn 2]).combine (cP [cIn 1]) >>= fun x => x.combine (cP [cIn 1, cIn 2])) = .ok (cP [cIn 1, cIn 2]) ∧
    ((cP [cIn 1]).combine (cP [cIn 1, cIn 2]) >>= fun x => (cP [cIn 1, cIn 2]).combine x) = .ok (cP [cIn 1, cIn 2]) := by
  have h1 : (cP [cIn 1, cIn 2]).combine (cP [cIn 1]) = .ok (cP [cIn 1, cIn 2]) := combine?_some (by decide +kernel)
  have h2 : (cP [cIn 1, cIn 2]).combine (cP [cIn 1, cIn 2]) = .ok (cP [cIn 1, cIn 2]) := combine?_some (by decide +kernel)
  have h : ((cP [cIn 1, cIn 2]).combine (cP [cIn 1]) >>= fun x => x.combine (cP [cIn 1, cIn 2])) = .ok (cP [cIn 1, cIn 2]) := by
    rw [h1]; exact h2
  refine ⟨h, (C28_exact_partial h).mpr ⟨?_, ?_, ?_, ?_, ?_⟩⟩
  · intro k i j l e1 e2 e3
    have : j = cIn 1 := by simpa [cP] using List.mem_of_getElem? e2
    rcases (show i = cIn 1 ∨ i = cIn 2 by simpa [cP] using List.mem_of_getElem? e1) with rfl | rfl <;> subst this <;>
      (rintro (⟨hw, -⟩ | ⟨-, hw, -⟩) <;> exact hw rfl)
  · intro k i l e1 _ e3
    cases Option.some.inj (e1.symm.trans e3)
    exact inputCombine_ok.mpr ⟨rfl, rfl, (Input.merge_self i).symm⟩
  · intro k i l e1 _ e3
    cases Option.some.inj (e1.symm.trans e3)
    exact outputCombine_ok.mpr ⟨rfl, rfl, (Output.merge_self i).symm⟩
  · intro k j l e1 _ e3
    rw [e1] at e3; cases e3
  · intro k j l e1 _ e3
    rw [e1] at e3; cases e3

end Psbt.V2
