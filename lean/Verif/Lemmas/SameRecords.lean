/- A map is determined by the set of its pairs. -/
import Verif.Props.V2Format
import Verif.Props.V0Format
import Verif.Lemmas.V2Psbt
import Verif.Lemmas.V0Psbt
namespace Psbt

theorem short_eq {α : Type} {l m : List α} (hl : l.length ≤ 1) (hm : m.length ≤ 1) (h : ∀ x, x ∈ l ↔ x ∈ m) : l = m := by
  cases l with
  | nil =>
    cases m with
    | nil => rfl
    | cons b m => exact absurd ((h b).mpr (by simp)) (by simp)
  | cons a l =>
    cases l with
    | cons _ _ => simp at hl
    | nil =>
      cases m with
      | nil => exact absurd ((h a).mp (by simp)) (by simp)
      | cons b m =>
        cases m with
        | cons _ _ => simp at hm
        | nil =>
          have := (h a).mp (by simp)
          simp only [List.mem_singleton] at this
          rw [this]

theorem nodup_of_map {α β : Type} {f : α → β} {l : List α} (h : (l.map f).Nodup) : l.Nodup := by
  rw [List.Nodup, List.pairwise_map] at h
  exact h.imp fun hf e => hf (by rw [e])

/-- The value of a field is determined by its pairs, whatever their order. -/
theorem LawfulSlot.same {F ε : Type} {isSlot : Pair → Prop} {step : F → Pair → Except ε F} {init : F}
    {emit : F → List Pair} {Inv : F → Prop} (hl : LawfulSlot isSlot step init emit Inv)
    (hc : CommSlot isSlot step ∨ ∀ f g, (∀ p, p ∈ emit f ↔ p ∈ emit g) → emit f = emit g)
    {f g : F} (hf : Inv f) (hg : Inv g) (h : ∀ p, p ∈ emit f ↔ p ∈ emit g) : f = g := by
  have r1 := hl.rt f hf
  have r2 := hl.rt g hg
  rcases hc with hc | hc
  · have n1 := nodup_of_map (hc.nodup (hl.emit_slot f hf) r1)
    have n2 := nodup_of_map (hc.nodup (hl.emit_slot g hg) r2)
    have hp : (emit f).Perm (emit g) := (List.perm_ext_iff_of_nodup n1 n2).mpr h
    have := hc.perm hp (hl.emit_slot f hf) r1
    rw [r2] at this
    exact (Except.ok.inj this).symm
  · rw [hc f g h, r2] at r1
    exact (Except.ok.inj r1).symm

/-- A map is determined by its pairs, whatever their order. -/
theorem SlotSys.same {M S ε : Type} [DecidableEq S] (Y : SlotSys M S ε)
    {order : List S} {emit : (s : S) → Y.F s → List Pair} {Inv : (s : S) → Y.F s → Prop} {m0 : M}
    (hn : order.Nodup) (ho : ∀ s, s ∈ order)
    (hl : ∀ s, LawfulSlot (fun p => Y.slotOf p = s) (Y.step s) (Y.get s m0) (emit s) (Inv s))
    (hc : ∀ s, CommSlot (fun p => Y.slotOf p = s) (Y.step s) ∨ ∀ f g, (∀ p, p ∈ emit s f ↔ p ∈ emit s g) → emit s f = emit s g)
    {m m' : M} (hm : ∀ s, Inv s (Y.get s m)) (hm' : ∀ s, Inv s (Y.get s m'))
    (h : ∀ p, p ∈ Y.pairs order emit m ↔ p ∈ Y.pairs order emit m') : m = m' := by
  refine Y.ext _ _ fun s => (hl s).same (hc s) (hm s) (hm' s) fun p => ?_
  have e1 := Y.ofSlot_pairs hn (fun s => (hl s).emit_slot _ (hm s)) s
  have e2 := Y.ofSlot_pairs hn (fun s => (hl s).emit_slot _ (hm' s)) s
  rw [if_pos (ho s)] at e1 e2
  rw [← e1, ← e2, Y.mem_ofSlot, Y.mem_ofSlot, h p]

namespace V2
variable {L : Lib}

theorem input_same {a b : Input L} (ha : Spec.InputWF a) (hb : Spec.InputWF b)
    (h : ∀ t k v, Spec.InputPair a t k v ↔ Spec.InputPair b t k v) : a = b := by
  refine (inSys L).same inOrder_nodup mem_inOrder (in_lawful L) (fun s => ?_) ((input_wf_iff a).mp ha).1 ((input_wf_iff b).mp hb).1 fun p => by
    rw [← in_pairs, ← in_pairs, C60_input_pairs, C60_input_pairs]; exact h _ _ _
  by_cases h1 : s = .previousTxid
  · subst h1; exact .inr fun f g => short_eq (by simp [inEmit]) (by simp [inEmit])
  by_cases h2 : s = .outputIndex
  · subst h2; exact .inr fun f g => short_eq (by simp [inEmit]) (by simp [inEmit])
  · refine .inl ((in_comm L s).mono fun p hp => ⟨⟨fun ht => ?_, fun ht => ?_⟩, hp⟩)
    · refine absurd (hp.symm.trans ?_) h1
      show inSlot L.sp p.key.ty = _
      rw [ht]; cases L.sp <;> decide
    · refine absurd (hp.symm.trans ?_) h2
      show inSlot L.sp p.key.ty = _
      rw [ht]; cases L.sp <;> decide

theorem output_same {a b : Output L} (ha : Spec.OutputWF a) (hb : Spec.OutputWF b)
    (h : ∀ t k v, Spec.OutputPair a t k v ↔ Spec.OutputPair b t k v) : a = b := by
  refine (outSys L).same outOrder_nodup mem_outOrder (out_lawful L) (fun s => ?_) ((output_wf_iff a).mp ha).1 ((output_wf_iff b).mp hb).1 fun p => by
    rw [← out_pairs, ← out_pairs, C60_output_pairs, C60_output_pairs]; exact h _ _ _
  by_cases h1 : s = .amount
  · subst h1; exact .inr fun f g => short_eq (by simp [outEmit]) (by simp [outEmit])
  by_cases h2 : s = .script
  · subst h2; exact .inr fun f g => short_eq (by simp [outEmit]) (by simp [outEmit])
  · refine .inl ((out_comm L s).mono fun p hp => ⟨⟨fun ht => ?_, fun ht => ?_⟩, hp⟩)
    · refine absurd (hp.symm.trans ?_) h1
      show outSlot L.sp p.key.ty = _
      rw [ht]; cases L.sp <;> decide
    · refine absurd (hp.symm.trans ?_) h2
      show outSlot L.sp p.key.ty = _
      rw [ht]; cases L.sp <;> decide

theorem filter_same {l m : List Pair} (P : Pair → Bool) (h : ∀ p, p ∈ l ↔ p ∈ m) : ∀ p, p ∈ l.filter P ↔ p ∈ m.filter P := by
  intro p; simp only [List.mem_filter, h p]

theorem emitCounts_same (f g : Option UInt64 × Option UInt64) (h : ∀ p, p ∈ emitCounts f ↔ p ∈ emitCounts g) :
    emitCounts f = emitCounts g := by
  have e : ∀ c, (emitCounts c).filter (fun p => decide (p.key.ty = PSBT_GLOBAL_INPUT_COUNT)) ++
      (emitCounts c).filter (fun p => decide (p.key.ty = PSBT_GLOBAL_OUTPUT_COUNT)) = emitCounts c ∧
      ((emitCounts c).filter (fun p => decide (p.key.ty = PSBT_GLOBAL_INPUT_COUNT))).length ≤ 1 ∧
      ((emitCounts c).filter (fun p => decide (p.key.ty = PSBT_GLOBAL_OUTPUT_COUNT))).length ≤ 1 := by
    rintro ⟨a, b⟩
    have hd : PSBT_GLOBAL_OUTPUT_COUNT ≠ PSBT_GLOBAL_INPUT_COUNT := by decide
    cases a <;> cases b <;> simp [emitCounts, bare, hd, hd.symm]
  rw [← (e f).1, ← (e g).1]
  rw [short_eq (e f).2.1 (e g).2.1 (filter_same _ h), short_eq (e f).2.2 (e g).2.2 (filter_same _ h)]

theorem accOf_inj {a b : Global L} (h : accOf a = accOf b) : a = b := by
  cases a; cases b
  simp only [accOf, GlobalAcc.mk.injEq, Option.some.injEq, Prod.mk.injEq] at h
  obtain ⟨rfl, rfl, rfl, rfl, ⟨rfl, rfl⟩, rfl, rfl, rfl, rfl, rfl⟩ := h
  rfl

theorem global_same {a b : Global L} (ha : Spec.GlobalWF a) (hb : Spec.GlobalWF b)
    (h : ∀ t k v, Spec.GlobalPair a t k v ↔ Spec.GlobalPair b t k v) : a = b := by
  refine accOf_inj ((glSys L).same glOrder_nodup mem_glOrder (gl_lawful L) (fun s => ?_) ((global_wf_iff a).mp ha).1
    ((global_wf_iff b).mp hb).1 fun p => by rw [← gl_pairs, ← gl_pairs, C60_global_pairs, C60_global_pairs]; exact h _ _ _)
  by_cases h1 : s = .counts
  · subst h1; exact .inr emitCounts_same
  · exact .inl ((gl_comm L s h1).mono fun p hp => ⟨trivial, hp⟩)

end V2

namespace V0
variable {L : Lib}

theorem input_same {a b : Input L} (ha : Spec.V0.InputWF a) (hb : Spec.V0.InputWF b)
    (h : ∀ t k v, Spec.V0.InputPair a t k v ↔ Spec.V0.InputPair b t k v) : a = b :=
  (inSys L).same inOrder_nodup mem_inOrder (in_lawful L) (fun s => .inl ((in_comm L s).mono fun _ hp => ⟨trivial, hp⟩))
    ((input_wf_iff a).mp ha) ((input_wf_iff b).mp hb) fun p => by
      rw [← in_pairs, ← in_pairs, C60_v0_input_pairs, C60_v0_input_pairs]; exact h _ _ _

theorem output_same {a b : Output L} (ha : Spec.V0.OutputWF a) (hb : Spec.V0.OutputWF b)
    (h : ∀ t k v, Spec.V0.OutputPair a t k v ↔ Spec.V0.OutputPair b t k v) : a = b :=
  (outSys L).same outOrder_nodup mem_outOrder (out_lawful L) (fun s => .inl ((out_comm L s).mono fun _ hp => ⟨trivial, hp⟩))
    ((output_wf_iff a).mp ha) ((output_wf_iff b).mp hb) fun p => by
      rw [← out_pairs, ← out_pairs, C60_v0_output_pairs, C60_v0_output_pairs]; exact h _ _ _

/-- What the records of the global map of a PSBT v0 satisfy. -/
structure GlobalSound (p : Psbt L) : Prop where
  version : p.version = 0
  unsigned : ∀ i ∈ p.unsignedTx.input, i.witness = []
  sizes : ∀ q ∈ p.getPairs, Spec.PairOk q
  props : ∀ k v, p.proprietary.get k = some v → Spec.PropOk k
  unknowns : ∀ k v, p.unknown.get k = some v → k.ty ∉ Spec.V0.globalTypes

theorem global_same {a b : Psbt L} (ha : GlobalSound a) (hb : GlobalSound b)
    (h : ∀ t k v, Spec.V0.GlobalPair a t k v ↔ Spec.V0.GlobalPair b t k v) : accOf a = accOf b :=
  (glSys L).same glOrder_nodup mem_glOrder (gl_lawful L) (fun s => .inl ((gl_comm L s).mono fun _ hp => ⟨trivial, hp⟩))
    ((gl_wf_iff a).mp ⟨ha.version, ha.unsigned, ha.sizes, ha.props, ha.unknowns⟩)
    ((gl_wf_iff b).mp ⟨hb.version, hb.unsigned, hb.sizes, hb.props, hb.unknowns⟩) fun p => by
      rw [← gl_pairs, ← gl_pairs, C60_v0_global_pairs, C60_v0_global_pairs]; exact h _ _ _

end V0
end Psbt
