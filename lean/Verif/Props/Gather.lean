/- C120: any number of copies of a PSBT can be combined in any order and grouping. -/
import Verif.Lemmas.Gather
namespace Psbt
open Spec (Records NoConflict HasType InputFits Gathering)

/-- Deciding `NoConflict` and `HasType` for concrete maps. -/
theorem noConflict_of {l m : List Pair} {x y : Records} (hx : ∀ q : Pair, q ∈ l ↔ x q.key.ty q.key.key q.value)
    (hy : ∀ q : Pair, q ∈ m ↔ y q.key.ty q.key.key q.value) (h : ∀ p ∈ l, ∀ q ∈ m, p.key = q.key → p.value = q.value) : NoConflict x y :=
  fun t k v w h1 h2 => h ⟨⟨t, k⟩, v⟩ ((hx ⟨⟨t, k⟩, v⟩).mpr h1) ⟨⟨t, k⟩, w⟩ ((hy ⟨⟨t, k⟩, w⟩).mpr h2) rfl
theorem hasType_of {l : List Pair} {x : Records} (hx : ∀ q : Pair, q ∈ l ↔ x q.key.ty q.key.key q.value) (t : UInt8) :
    HasType x t ↔ ∃ q ∈ l, q.key.ty = t := by
  constructor
  · rintro ⟨k, v, h⟩; exact ⟨⟨⟨t, k⟩, v⟩, (hx _).mpr h, rfl⟩
  · rintro ⟨q, hq, rfl⟩; exact ⟨_, _, (hx q).mp hq⟩
def fits (l m : List Pair) : Prop := (∀ p ∈ l, ∀ q ∈ m, p.key = q.key → p.value = q.value) ∧
  ((∃ q ∈ l, q.key.ty = 0x03) ↔ ∃ q ∈ m, q.key.ty = 0x03) ∧
  ((∃ q ∈ l, q.key.ty = 0x01) → (∃ q ∈ l, q.key.ty = 0x00) ∨ (∃ q ∈ m, q.key.ty = 0x00) → ∃ q ∈ m, q.key.ty = 0x01)
instance (l m : List Pair) : Decidable (fits l m) := inferInstanceAs (Decidable (_ ∧ _ ∧ _))
theorem fits_of {l m : List Pair} {x y : Records} (hx : ∀ q : Pair, q ∈ l ↔ x q.key.ty q.key.key q.value)
    (hy : ∀ q : Pair, q ∈ m ↔ y q.key.ty q.key.key q.value) (h : fits l m) : InputFits x y := by
  refine ⟨noConflict_of hx hy h.1, ?_, ?_⟩
  · rw [hasType_of hx, hasType_of hy]; exact h.2.1
  · rw [hasType_of hx, hasType_of hx, hasType_of hy, hasType_of hy]; exact h.2.2
theorem mem_zip_of {α β : Type} {l : List α} {m : List β} {n : Nat} {a : α} {b : β} (h1 : l[n]? = some a) (h2 : m[n]? = some b) :
    (a, b) ∈ l.zip m :=
  List.mem_of_getElem? (i := n) (List.getElem?_zip_eq_some.mpr ⟨h1, h2⟩)

namespace V2
variable {L : Lib}

/-- C120. Copies of a PSBT v2 that do not contradict each other can be combined, however many there are, in every order and
in all groupings, and the result has the records of all copies and no others. -/
theorem C120_v2_records (t : Gathering (Psbt L)) (h1 : ∀ p ∈ t.copies, Spec.UnknownsApart p)
    (h2 : ∀ p ∈ t.copies, ∀ q ∈ t.copies, Spec.Together p q) : ∃ r, Spec.gather t = .ok r ∧ Spec.UnionOf t.copies r := by
  obtain ⟨r, e, u, -⟩ := gather_union (P := fun _ => True) (fun _ _ _ _ _ _ => trivial) t (fun _ _ => trivial) h1 h2
  exact ⟨r, e, u⟩

/-- C120. The result does not depend on the order, on the grouping, or on whether a copy is combined in again. -/
theorem C120_v2_any_order {t u : Gathering (Psbt L)} (hc : ∀ p, p ∈ t.copies ↔ p ∈ u.copies) (h1 : ∀ p ∈ t.copies, Spec.WF p)
    (h2 : ∀ p ∈ t.copies, ∀ q ∈ t.copies, Spec.Together p q) : Spec.gather t = Spec.gather u := by
  have hs : ∀ p : Psbt L, Spec.WF p → Sound p := fun p h => ⟨h.global, h.inputs, h.outputs, h.inputCount, h.outputCount⟩
  obtain ⟨a, ea, ua, -, sa⟩ := gather_union (P := Sound) (fun _ _ _ x y h => Sound.combine h x y) t (fun p hp => hs p (h1 p hp))
    (fun p hp => C102_v2_parsed (h1 p hp)) h2
  obtain ⟨b, eb, ub, -, sb⟩ := gather_union (P := Sound) (fun _ _ _ x y h => Sound.combine h x y) u (fun p hp => hs p (h1 p ((hc p).mpr hp)))
    (fun p hp => C102_v2_parsed (h1 p ((hc p).mpr hp))) fun p hp q hq => h2 p ((hc p).mpr hp) q ((hc q).mpr hq)
  have ub' : Spec.UnionOf t.copies b :=
    ⟨by simpa only [hc] using ub.global, fun p hp => ub.inputCount p ((hc p).mp hp), fun p hp => ub.outputCount p ((hc p).mp hp),
     by simpa only [hc] using ub.inputs, by simpa only [hc] using ub.outputs⟩
  rw [ea, eb, union_unique (copies_some t) sa sb ua ub']

/-- C120. A PSBT v2 is determined by the records of its maps. -/
theorem C120_v2_determined {p q : Psbt L} (hp : Spec.WF p) (hq : Spec.WF q) (h : Spec.UnionOf [q] p) : p = q :=
  union_unique ⟨q, List.mem_singleton.mpr rfl⟩ ⟨hp.global, hp.inputs, hp.outputs, hp.inputCount, hp.outputCount⟩
    ⟨hq.global, hq.inputs, hq.outputs, hq.inputCount, hq.outputCount⟩ h (union_one q)

/-! Three copies: two with different signatures, one with an unknown record and a script. -/

def goes (p q : Psbt L) : Prop :=
  fits p.global.getPairs q.global.getPairs ∧ p.inputs.length = q.inputs.length ∧ p.outputs.length = q.outputs.length ∧
  (∀ x ∈ p.inputs.zip q.inputs, fits x.1.getPairs x.2.getPairs) ∧ ∀ x ∈ p.outputs.zip q.outputs,
    ∀ a ∈ x.1.getPairs, ∀ b ∈ x.2.getPairs, a.key = b.key → a.value = b.value
instance (p q : Psbt L) : Decidable (goes p q) := inferInstanceAs (Decidable (_ ∧ _ ∧ _ ∧ _ ∧ _))
theorem together_of {p q : Psbt L} (h : goes p q) : Spec.Together p q where
  global := noConflict_of (C60_global_pairs _) (C60_global_pairs _) h.1.1
  fallback := by rw [hasType_of (C60_global_pairs _), hasType_of (C60_global_pairs _)]; exact h.1.2.1
  inputCount := h.2.1
  outputCount := h.2.2.1
  inputs n i j hi hj := fits_of (C60_input_pairs i) (C60_input_pairs j) (h.2.2.2.1 (i, j) (mem_zip_of hi hj))
  outputs n i j hi hj := noConflict_of (C60_output_pairs i) (C60_output_pairs j) (h.2.2.2.2 (i, j) (mem_zip_of hi hj))

def g1 : Psbt (Demo.lib false) := { demo with inputs := [{ demoInput with
  partialSigs := demoInput.partialSigs.insert (Demo.val 33 (by decide) 0x31) ⟨Demo.val 8 (by decide) 9, ⟨1, by decide⟩⟩ }] }
def g2 : Psbt (Demo.lib false) := { demo with inputs := [{ demoInput with
  partialSigs := demoInput.partialSigs.insert (Demo.val 33 (by decide) 0x32) ⟨Demo.val 8 (by decide) 8, ⟨1, by decide⟩⟩ }] }
def g3 : Psbt (Demo.lib false) := { demo with
  global := { demoGlobal with unknowns := demoGlobal.unknowns.insert ⟨0xEE, [1]⟩ [2] }
  outputs := [{ demoOutput with witnessScript := some [0x51] }] }
def gOne : Gathering (Psbt (Demo.lib false)) := .join (.copy g1) (.join (.copy g2) (.copy g3))
def gOther : Gathering (Psbt (Demo.lib false)) := .join (.join (.copy g3) (.copy g1)) (.join (.copy g2) (.copy g1))

theorem gOne_wf : ∀ p ∈ gOne.copies, Spec.WF p := by
  have h : ∀ p ∈ gOne.copies, Psbt.deserialize (Demo.lib false) p.serialize = .ok p := by decide +kernel
  exact fun p hp => wf_of_deserialize (h p hp)
theorem gOne_together : ∀ p ∈ gOne.copies, ∀ q ∈ gOne.copies, Spec.Together p q := by
  have h : ∀ p ∈ gOne.copies, ∀ q ∈ gOne.copies, goes p q := by decide +kernel
  exact fun p hp q hq => together_of (h p hp q hq)
example : ∃ r, Spec.gather gOne = .ok r ∧ Spec.gather gOther = .ok r ∧ r.inputs.map (·.partialSigs.l.length) = [3] ∧
    r.outputs.map (·.witnessScript) = [some [0x51]] := by
  have e := C120_v2_any_order (t := gOne) (u := gOther) (fun p => by
    simp only [gOne, gOther, Gathering.copies, List.cons_append, List.nil_append, List.mem_cons, List.not_mem_nil, or_false]
    exact ⟨fun h => by rcases h with h | h | h <;> simp [h], fun h => by rcases h with h | h | h | h <;> simp [h]⟩) gOne_wf gOne_together
  obtain ⟨r, hr, -⟩ := C120_v2_records gOne (fun p hp => C102_v2_parsed (gOne_wf p hp)) gOne_together
  have hd : (Spec.gather gOne).toOption.map (fun r => (r.inputs.map (·.partialSigs.l.length), r.outputs.map (·.witnessScript))) =
    some ([3], [some [0x51]]) := by decide +kernel
  rw [hr] at hd
  simp only [Except.toOption, Option.map_some, Option.some.injEq, Prod.mk.injEq] at hd
  exact ⟨r, hr, e ▸ hr, hd.1, hd.2⟩

end V2
namespace V0
variable {L : Lib}

/-- C120. Copies of a PSBT v0 that do not contradict each other can be combined, however many there are, in every order and
in all groupings; the result has the records of all copies and no others and is about the same transaction. -/
theorem C120_v0_records (t : Gathering (Psbt L)) (h1 : ∀ p ∈ t.copies, Spec.V0.UnknownsApart p)
    (h2 : ∀ p ∈ t.copies, ∀ q ∈ t.copies, Spec.V0.Together p q) :
    ∃ r, Spec.V0.gather t = .ok r ∧ Spec.V0.UnionOf t.copies r ∧ ∀ p ∈ t.copies, r.unsignedTx = p.unsignedTx := by
  obtain ⟨r, e, u, x, -⟩ := gather_union (P := fun _ => True) (fun _ _ _ _ _ _ => trivial) t (fun _ _ => trivial) h1 h2
  exact ⟨r, e, u, x⟩

/-- C120. The result does not depend on the order, on the grouping, or on whether a copy is combined in again. -/
theorem C120_v0_any_order {t u : Gathering (Psbt L)} (hc : ∀ p, p ∈ t.copies ↔ p ∈ u.copies) (h1 : ∀ p ∈ t.copies, Spec.V0.WF p)
    (h2 : ∀ p ∈ t.copies, ∀ q ∈ t.copies, Spec.V0.Together p q) : Spec.V0.gather t = Spec.V0.gather u := by
  obtain ⟨a, ea, ua, -, -, sa⟩ := gather_union (P := RecordsSound) (fun _ _ _ x y h => RecordsSound.combine x y h) t
    (fun p hp => recordsSound (h1 p hp)) (fun p hp => C102_v0_parsed (h1 p hp)) h2
  obtain ⟨b, eb, ub, -, -, sb⟩ := gather_union (P := RecordsSound) (fun _ _ _ x y h => RecordsSound.combine x y h) u
    (fun p hp => recordsSound (h1 p ((hc p).mpr hp))) (fun p hp => C102_v0_parsed (h1 p ((hc p).mpr hp)))
    fun p hp q hq => h2 p ((hc p).mpr hp) q ((hc q).mpr hq)
  have ub' : Spec.V0.UnionOf t.copies b :=
    ⟨by simpa only [hc] using ub.global, fun p hp => ub.inputCount p ((hc p).mp hp), fun p hp => ub.outputCount p ((hc p).mp hp),
     by simpa only [hc] using ub.inputs, by simpa only [hc] using ub.outputs⟩
  rw [ea, eb, union_unique (copies_some t) sa sb ua ub']

/-- C120. A PSBT v0 is determined by the records of its maps. -/
theorem C120_v0_determined {p q : Psbt L} (hp : Spec.V0.WF p) (hq : Spec.V0.WF q) (h : Spec.V0.UnionOf [q] p) : p = q :=
  union_unique ⟨q, List.mem_singleton.mpr rfl⟩ (recordsSound hp) (recordsSound hq) h (union_one q)

/-! Three copies: two with different signatures, one with an unknown record and a script. -/

def goes (p q : Psbt L) : Prop :=
  p.unsignedTx = q.unsignedTx ∧ (∀ a ∈ p.getPairs, ∀ b ∈ q.getPairs, a.key = b.key → a.value = b.value) ∧
  p.inputs.length = q.inputs.length ∧ p.outputs.length = q.outputs.length ∧
  (∀ x ∈ p.inputs.zip q.inputs, fits x.1.getPairs x.2.getPairs) ∧ ∀ x ∈ p.outputs.zip q.outputs,
    ∀ a ∈ x.1.getPairs, ∀ b ∈ x.2.getPairs, a.key = b.key → a.value = b.value
instance (p q : Psbt L) : Decidable (goes p q) := inferInstanceAs (Decidable (_ ∧ _ ∧ _ ∧ _ ∧ _ ∧ _))
theorem together_of {p q : Psbt L} (h : goes p q) : Spec.V0.Together p q where
  transaction := h.1
  global := noConflict_of (C60_v0_global_pairs _) (C60_v0_global_pairs _) h.2.1
  inputCount := h.2.2.1
  outputCount := h.2.2.2.1
  inputs n i j hi hj := fits_of (C60_v0_input_pairs i) (C60_v0_input_pairs j) (h.2.2.2.2.1 (i, j) (mem_zip_of hi hj))
  outputs n i j hi hj := noConflict_of (C60_v0_output_pairs i) (C60_v0_output_pairs j) (h.2.2.2.2.2 (i, j) (mem_zip_of hi hj))

def g1 : Psbt (Demo.lib false) := { demo with inputs := [{ demoInput with
  partialSigs := demoInput.partialSigs.insert (Demo.val 33 (by decide) 0x31) ⟨Demo.val 8 (by decide) 9, ⟨1, by decide⟩⟩ }, Input.default _] }
def g2 : Psbt (Demo.lib false) := { demo with inputs := [{ demoInput with
  partialSigs := demoInput.partialSigs.insert (Demo.val 33 (by decide) 0x32) ⟨Demo.val 8 (by decide) 8, ⟨1, by decide⟩⟩ },
  { Input.default _ with redeemScript := some [0x53] }] }
def g3 : Psbt (Demo.lib false) := { demo with
  unknown := demo.unknown.insert ⟨0xEE, [1]⟩ [2]
  outputs := [{ Output.default (Demo.lib false) with witnessScript := some [0x51] }] }
def gOne : Gathering (Psbt (Demo.lib false)) := .join (.copy g1) (.join (.copy g2) (.copy g3))
def gOther : Gathering (Psbt (Demo.lib false)) := .join (.join (.copy g3) (.copy g1)) (.join (.copy g2) (.copy g1))

theorem gOne_wf : ∀ p ∈ gOne.copies, Spec.V0.WF p := by
  have h : ∀ p ∈ gOne.copies, Psbt.deserialize (Demo.lib false) p.serialize = .ok p := by decide +kernel
  exact fun p hp => wf_of_deserialize (h p hp)
theorem gOne_together : ∀ p ∈ gOne.copies, ∀ q ∈ gOne.copies, Spec.V0.Together p q := by
  have h : ∀ p ∈ gOne.copies, ∀ q ∈ gOne.copies, goes p q := by decide +kernel
  exact fun p hp q hq => together_of (h p hp q hq)
example : ∃ r, Spec.V0.gather gOne = .ok r ∧ Spec.V0.gather gOther = .ok r ∧ r.inputs.map (·.partialSigs.l.length) = [3, 0] ∧
    r.outputs.map (·.witnessScript) = [some [0x51]] := by
  have e := C120_v0_any_order (t := gOne) (u := gOther) (fun p => by
    simp only [gOne, gOther, Gathering.copies, List.cons_append, List.nil_append, List.mem_cons, List.not_mem_nil, or_false]
    exact ⟨fun h => by rcases h with h | h | h <;> simp [h], fun h => by rcases h with h | h | h | h <;> simp [h]⟩) gOne_wf gOne_together
  obtain ⟨r, hr, -⟩ := C120_v0_records gOne (fun p hp => C102_v0_parsed (gOne_wf p hp)) gOne_together
  have hd : (Spec.V0.gather gOne).toOption.map (fun r => (r.inputs.map (·.partialSigs.l.length), r.outputs.map (·.witnessScript))) =
    some ([3, 0], [some [0x51]]) := by decide +kernel
  rw [hr] at hd
  simp only [Except.toOption, Option.map_some, Option.some.injEq, Prod.mk.injEq] at hd
  exact ⟨r, hr, e ▸ hr, hd.1, hd.2⟩
example : Spec.V0.UnionOf [g1] g1 := union_one g1

end V0
end Psbt
