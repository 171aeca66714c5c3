/- C130: updaters of a PSBT v2 can work in any order, or on copies that are combined. -/
import Verif.Spec.V2Updaters
import Verif.Props.V2Roles
import Verif.Props.V2Combine
import Verif.Props.V2Resequence
namespace Psbt.V2
open Psbt Psbt.Spec

variable {L : Lib}

/-- The number set last. -/
def wanted : List (UInt32 × Nat) → Nat → Option UInt32
  | [], _ => none
  | (n, k) :: ns, j => (wanted ns j).or (if j = k then some n else none)

theorem wanted_none {ns : List (UInt32 × Nat)} {j : Nat} (h : j ∉ ns.map (·.2)) : wanted ns j = none := by
  induction ns with
  | nil => rfl
  | cons x ns ih =>
    simp only [List.map_cons, List.mem_cons, not_or] at h
    simp [wanted, ih h.2, h.1]

theorem wanted_iff {ns : List (UInt32 × Nat)} (hn : (ns.map (·.2)).Nodup) {j : Nat} {n : UInt32} :
    wanted ns j = some n ↔ (n, j) ∈ ns := by
  induction ns with
  | nil => simp [wanted]
  | cons x ns ih =>
    simp only [List.map_cons, List.nodup_cons] at hn
    have ih := ih hn.2
    obtain ⟨m, k⟩ := x
    by_cases e : j = k
    · subst e
      have h1 : (n, j) ∉ ns := fun h => hn.1 (List.mem_map.mpr ⟨_, h, rfl⟩)
      simp only [wanted, wanted_none hn.1, Option.none_or, List.mem_cons, h1, or_false, if_true, Option.some.injEq, Prod.mk.injEq,
        and_true]
      exact eq_comm
    · simp [wanted, e, ih]

theorem wanted_append (ms ns : List (UInt32 × Nat)) (j : Nat) : wanted (ms ++ ns) j = (wanted ns j).or (wanted ms j) := by
  induction ms with
  | nil => simp [wanted]
  | cons x ms ih => simp [wanted, ih, Option.or_assoc]

theorem setInTurn_ok {p q : Psbt L} {ns : List (UInt32 × Nat)} : setInTurn p ns = .ok q ↔
    (∀ x ∈ ns, x.2 < p.inputs.length ∧ x.2 < p.global.inputCount.toNat) ∧ q.global = p.global ∧ q.outputs = p.outputs ∧
    ∀ j : Nat, q.inputs[j]? = p.inputs[j]?.map fun i => { i with sequence := (wanted ns j).or i.sequence } := by
  induction ns generalizing p with
  | nil =>
    simp only [setInTurn, Except.ok.injEq, List.not_mem_nil, false_implies, implies_true, true_and, wanted, Option.none_or]
    constructor
    · rintro rfl; exact ⟨rfl, rfl, fun j => by simp⟩
    · rintro ⟨h1, h2, h3⟩
      have : q.inputs = p.inputs := List.ext_getElem? fun j => by rw [h3]; simp
      cases p; cases q; simp_all
  | cons x ns ih =>
    obtain ⟨n, k⟩ := x
    simp only [setInTurn, bind_ok]
    have step : ∀ r : Psbt L, Updater.setSequence p n k = .ok r → r.inputs.length = p.inputs.length := by
      intro r hr
      obtain ⟨-, -, -, -, h⟩ := (C21_set_sequence_iff _ _ _ _).mp hr
      have : r.inputs.map (·.previousTxid) = p.inputs.map (·.previousTxid) := by
        apply List.ext_getElem?
        intro j
        rw [List.getElem?_map, List.getElem?_map, h j, Option.map_map]
        congr 1; funext i; simp only [Function.comp]; split <;> rfl
      simpa using congrArg List.length this
    have calc' : ∀ (r : Psbt L) (j : Nat), (∀ j, r.inputs[j]? = p.inputs[j]?.map fun i => if j = k then { i with sequence := some n } else i) →
        (r.inputs[j]?.map fun i => { i with sequence := (wanted ns j).or i.sequence }) =
        p.inputs[j]?.map fun i => { i with sequence := (wanted ((n, k) :: ns) j).or i.sequence } := by
      intro r j h
      rw [h j, Option.map_map]
      congr 1; funext i
      by_cases e : j = k
      · subst e; cases hw : wanted ns j <;> simp [wanted, Function.comp, hw]
      · cases hw : wanted ns j <;> simp [wanted, Function.comp, hw, e]
    constructor
    · rintro ⟨r, hr, hq⟩
      have hl := step r hr
      obtain ⟨h1, h2, h3, h4, h5⟩ := (C21_set_sequence_iff _ _ _ _).mp hr
      obtain ⟨g1, g2, g3, g4⟩ := ih.mp hq
      rw [hl, h3] at g1
      refine ⟨?_, g2.trans h3, g3.trans h4, fun j => ?_⟩
      · intro x hx
        rcases List.mem_cons.mp hx with rfl | hx
        · exact ⟨h1, h2⟩
        · exact g1 x hx
      · rw [g4 j]; exact calc' r j h5
    · rintro ⟨h1, h2, h3, h4⟩
      have hk := h1 (n, k) (by simp)
      let r : Psbt L := { p with inputs := p.inputs.set k { p.inputs[k] with sequence := some n } }
      have hr : Updater.setSequence p n k = .ok r := (C21_set_sequence_iff _ _ _ _).mpr ⟨hk.1, hk.2, rfl, rfl, fun j => by
        show (p.inputs.set k _)[j]? = _
        rw [List.getElem?_set]
        by_cases e : k = j
        · subst e; simp [hk.1]
        · have e' : ¬ j = k := fun h => e h.symm
          simp [e, e']⟩
      have hl := step r hr
      obtain ⟨-, -, -, -, h5⟩ := (C21_set_sequence_iff _ _ _ _).mp hr
      refine ⟨r, hr, ih.mpr ⟨fun x hx => ?_, h2, h3, fun j => ?_⟩⟩
      · rw [hl]; exact h1 x (List.mem_cons_of_mem _ hx)
      · rw [h4 j]; exact (calc' r j h5).symm

/-- C130. The sequence numbers of different inputs can be set in any order. -/
theorem C130_v2_any_order {ms ns : List (UInt32 × Nat)} (h : ms.Perm ns) (hn : (ms.map (·.2)).Nodup) (p q : Psbt L) :
    setInTurn p ms = .ok q ↔ setInTurn p ns = .ok q := by
  have hn' : (ns.map (·.2)).Nodup := (h.map _).nodup_iff.mp hn
  have hw : ∀ j, wanted ms j = wanted ns j := by
    intro j
    apply Option.ext
    intro n
    rw [wanted_iff hn, wanted_iff hn', h.mem_iff]
  simp only [setInTurn_ok, hw, h.mem_iff]

theorem merge_sequence (i : Input L) (x y : Option UInt32) :
    ({ i with sequence := x } : Input L).merge { i with sequence := y } = { i with sequence := x.or y } := by
  cases i; simp only [Input.merge, combOpt_self, combUtxos_self, BMap.extend_self, combOpt_eq]

/-- C130. Two people set sequence numbers of different inputs, each on a copy of a PSBT. The copies can be combined; the combined
PSBT is what setting all the numbers on one PSBT gives, exactly if the second replaced no number that was there before. -/
theorem C130_v2_copies_iff {ms ns : List (UInt32 × Nat)} (hd : ∀ x ∈ ms, ∀ y ∈ ns, x.2 ≠ y.2) {p a b : Psbt L}
    (ha : setInTurn p ms = .ok a) (hb : setInTurn p ns = .ok b) :
    ∃ c d, a.combine b = .ok c ∧ setInTurn p (ms ++ ns) = .ok d ∧
      (c = d ↔ ∀ (k : Nat) i j, p.inputs[k]? = some i → b.inputs[k]? = some j → i.sequence ≠ none → j.sequence = i.sequence) := by
  obtain ⟨a1, a2, a3, a4⟩ := setInTurn_ok.mp ha
  obtain ⟨b1, b2, b3, b4⟩ := setInTurn_ok.mp hb
  have hdis : ∀ j, wanted ms j = none ∨ wanted ns j = none := by
    intro j
    by_cases e1 : j ∈ ms.map (·.2)
    · refine .inr (wanted_none fun e2 => ?_)
      obtain ⟨x, x1, x2⟩ := List.mem_map.mp e1
      obtain ⟨y, y1, y2⟩ := List.mem_map.mp e2
      exact hd x x1 y y1 (x2.trans y2.symm)
    · exact .inl (wanted_none e1)
  let s (j : Nat) (i : Input L) : Input L := { i with sequence := ((wanted ms j).or i.sequence).or ((wanted ns j).or i.sequence) }
  let t (j : Nat) (i : Input L) : Input L := { i with sequence := (wanted (ms ++ ns) j).or i.sequence }
  let c : Psbt L := { p with inputs := p.inputs.mapIdx s }
  let d : Psbt L := { p with inputs := p.inputs.mapIdx t }
  have hc : a.combine b = .ok c := by
    refine combine_ok.mpr ⟨?_, combineZip_ok.mpr ⟨?_, ?_⟩, ?_⟩
    · rw [a2, b2]
      exact globalCombine_ok.mpr ⟨rfl, rfl, fun x => mergeOpt_self _, by simp only [c, BMap.extend_self]⟩
    · show (p.inputs.mapIdx s).length = _
      rw [List.length_mapIdx]
      have : a.inputs.map (·.previousTxid) = p.inputs.map (·.previousTxid) := by
        apply List.ext_getElem?
        intro j
        rw [List.getElem?_map, List.getElem?_map, a4 j, Option.map_map]
        rfl
      simpa using (congrArg List.length this).symm
    · intro k x z e1 e2
      change (p.inputs.mapIdx s)[k]? = _ at e2
      rw [List.getElem?_mapIdx] at e2
      cases e : p.inputs[k]? with
      | none => rw [e] at e2; cases e2
      | some i =>
        rw [e] at e2; cases e2
        rw [a4 k, e] at e1; cases e1
        rw [b4 k, e]
        refine ⟨fun y hy => ?_, fun h => (by cases h)⟩
        cases hy
        exact inputCombine_ok.mpr ⟨rfl, rfl, (merge_sequence i _ _).symm⟩
    · rw [a3, b3]
      exact combineZip_self fun o _ => outputCombine_ok.mpr ⟨rfl, rfl, (Output.merge_self o).symm⟩
  have hd' : setInTurn p (ms ++ ns) = .ok d := setInTurn_ok.mpr ⟨fun x hx => (List.mem_append.mp hx).elim (a1 x) (b1 x), rfl, rfl, fun j => by
    show (p.inputs.mapIdx t)[j]? = _
    rw [List.getElem?_mapIdx]⟩
  refine ⟨c, d, hc, hd', ?_⟩
  have key : ∀ (j : Nat) (i : Input L), s j i = t j i ↔ (i.sequence ≠ none → (wanted ns j).or i.sequence = i.sequence) := by
    intro j i
    have : s j i = t j i ↔ ((wanted ms j).or i.sequence).or ((wanted ns j).or i.sequence) = (wanted (ms ++ ns) j).or i.sequence :=
      ⟨fun h => congrArg Input.sequence h, fun h => by simp only [s, t, h]⟩
    rw [this, wanted_append]
    rcases hdis j with h | h
    · rw [h]; cases i.sequence <;> cases wanted ns j <;> simp [eq_comm]
    · rw [h]; cases i.sequence <;> cases wanted ms j <;> simp
  constructor
  · intro h k i j e1 e2 hi
    rw [b4 k, e1] at e2; cases e2
    refine (key k i).mp ?_ hi
    have : (p.inputs.mapIdx s)[k]? = (p.inputs.mapIdx t)[k]? := congrArg (fun r : Psbt L => r.inputs[k]?) h
    rw [List.getElem?_mapIdx, List.getElem?_mapIdx, e1] at this
    exact Option.some.inj this
  · intro h
    have : p.inputs.mapIdx s = p.inputs.mapIdx t := by
      apply List.ext_getElem?
      intro k
      rw [List.getElem?_mapIdx, List.getElem?_mapIdx]
      cases e : p.inputs[k]? with
      | none => rfl
      | some i =>
        exact congrArg some ((key k i).mpr (h k i _ e (by rw [b4 k, e]; rfl)))
    simp only [c, d, this]

-- Two inputs that state no numbers.
example : ([((7 : UInt32), 0), (8, 1)] : List (UInt32 × Nat)).Perm [(8, 1), (7, 0)] ∧ (([(7, 0), (8, 1)] : List (UInt32 × Nat)).map (·.2)).Nodup ∧
    (∃ q, setInTurn rQ [(7, 0), (8, 1)] = .ok q) := ⟨.swap _ _ _, by decide, ⟨_, rfl⟩⟩
example : rQ.inputs.map (·.sequence) = [none, none] ∧ (∃ a, setInTurn rQ [(7, 0)] = .ok a ∧ a.inputs.map (·.sequence) = [some 7, none]) ∧
    (∃ a b c, setInTurn rQ [(7, 0)] = .ok a ∧ setInTurn a [(8, 1)] = .ok b ∧ setInTurn a [(9, 0)] = .ok c ∧
      -- the second person replaces the number 7, and it is back after combining
      (∃ d, b.combine c = .ok d ∧ d.inputs.map (·.sequence) = [some 7, some 8])) := by
  refine ⟨by decide +kernel, ⟨_, rfl, by decide +kernel⟩, ⟨_, _, _, rfl, rfl, rfl, ?_⟩⟩
  exact ⟨_, rfl, by decide +kernel⟩

end Psbt.V2
