/- C11-C16, C54, C56: more about the binary form of PSBT v2. -/
import Verif.Props.V2Parse
namespace Psbt.V2
open Psbt

section
variable {L : Lib} {ps qs : List Pair} {r r' : Bytes}

/-! ### C11: duplicate keys

The full statement - an accepted map never contains the same key twice - is false of the code, for the fields whose
"already seen" test looks at a placeholder value or at the wrong variable. The counterexamples come first, then what
does hold. -/

/-- C11 fails for the input count: two input counts (1, then 0) before the output count are accepted, the last wins. -/
theorem C11_global_counterexample :
    ∃ g, Global.decode (Demo.lib false) (Spec.mapBytes
      [⟨⟨0xFB, []⟩, [2, 0, 0, 0]⟩, ⟨⟨0x02, []⟩, [2, 0, 0, 0]⟩, ⟨⟨0x04, []⟩, [1]⟩, ⟨⟨0x04, []⟩, [0]⟩, ⟨⟨0x05, []⟩, [0]⟩]) =
      .ok (g, []) ∧ g.inputCount = 0 :=
  ⟨{ Global.new (Demo.lib false) with inputCount := 0, outputCount := 0 }, by decide +kernel, rfl⟩

/-- C11 fails for the previous txid: a map with an all-zero txid followed by another txid is accepted. -/
theorem C11_input_counterexample :
    ∃ i, Input.decode (Demo.lib false) (Spec.mapBytes
      [⟨⟨0x0e, []⟩, List.replicate 32 0⟩, ⟨⟨0x0e, []⟩, List.replicate 32 1⟩, ⟨⟨0x0f, []⟩, [0, 0, 0, 0]⟩]) = .ok (i, []) :=
  ⟨{ Input.placeholder (Demo.lib false) with previousTxid := Demo.rep 32 1, spentOutputIndex := 0 }, by decide +kernel⟩

/-- C11 fails for the amount: a map with amount 0 followed by amount 1 is accepted. -/
theorem C11_output_counterexample :
    ∃ o, Output.decode (Demo.lib false) (Spec.mapBytes
      [⟨⟨0x03, []⟩, List.replicate 8 0⟩, ⟨⟨0x03, []⟩, [1, 0, 0, 0, 0, 0, 0, 0]⟩, ⟨⟨0x04, []⟩, [0x51]⟩]) = .ok (o, []) :=
  ⟨{ Output.placeholder (Demo.lib false) with amount := 1, scriptPubkey := [0x51] }, by decide +kernel⟩

theorem key_slot_gl (p q : Pair) (h : p.key = q.key) : (glSys L).slotOf p = (glSys L).slotOf q := by
  simp only [glSys, h]
theorem key_slot_in (p q : Pair) (h : p.key = q.key) : (inSys L).slotOf p = (inSys L).slotOf q := by
  simp only [inSys, h]
theorem key_slot_out (p q : Pair) (h : p.key = q.key) : (outSys L).slotOf p = (outSys L).slotOf q := by
  simp only [outSys, h]

/-- C11, partially: an accepted global map contains no key twice, except possibly the input count. (Missing: a
repeated input count is rejected only when an output count precedes it.) -/
theorem C11_global_partial {g : Global L} (hp : ∀ p ∈ ps, Spec.PairOk p)
    (h : Global.decode L (Spec.mapBytes ps ++ r) = .ok (g, r')) :
    ((ps.filter fun p => decide (p.key.ty ≠ 0x04)).map Pair.key).Nodup := by
  simp only [mapBytes_fun] at *
  have hp' : ∀ p ∈ ps, PairFits p := fun p hq => (pairFits_iff p).mpr (hp p hq)
  obtain ⟨rfl, a, h1, _⟩ := Global.decode_pairs hp' h
  rw [gl_ins] at h1
  have h2 := (glSys L).nodup_good (Q := fun _ => True) (fun s => decide (s ≠ .counts))
    (fun s hs => gl_comm L s (by simpa using hs)) key_slot_gl (by simp) h1
  rw [(glSys L).foldlM_iff] at h1
  -- output counts: at most one
  have hoc : ∀ (l : List Pair) (c c' : Option UInt64 × Option UInt64), l.foldlM insCounts c = .ok c' →
      (l.filter fun p => decide (p.key.ty ≠ 0x04)).length ≤ 1 := by
    intro l
    induction l with
    | nil => simp
    | cons p l ih =>
      intro c c' e
      simp only [List.foldlM_cons, bind_ok] at e
      obtain ⟨c1, e1, e2⟩ := e
      by_cases ht : p.key.ty = 0x04
      · simp only [List.filter_cons, ht, ne_eq, not_true_eq_false, decide_false, Bool.false_eq_true, if_false]
        exact ih _ _ e2
      · rw [insCounts_ok] at e1
        obtain ⟨_, _, n, _, e1⟩ := e1
        simp only [ht, if_false] at e1
        subst e1
        cases l with
        | nil => simp [ht]
        | cons q l =>
          simp only [List.foldlM_cons, bind_ok] at e2
          obtain ⟨c2, e3, _⟩ := e2
          rw [insCounts_ok] at e3
          cases e3.2.1
  have h3 := hoc _ _ _ (h1 .counts)
  apply (glSys L).nodup_of_slots key_slot_gl
  intro s
  by_cases hs : s = .counts
  · subst hs
    have : (glSys L).ofSlot .counts (ps.filter fun p => decide (p.key.ty ≠ 0x04)) =
        ((glSys L).ofSlot .counts ps).filter fun p => decide (p.key.ty ≠ 0x04) := by
      simp only [SlotSys.ofSlot, List.filter_filter]
      congr 1; funext p; rw [Bool.and_comm]
    rw [this]
    generalize ((glSys L).ofSlot .counts ps).filter (fun p => decide (p.key.ty ≠ 0x04)) = l at h3
    match l, h3 with
    | [], _ => simp
    | [x], _ => simp
    | _ :: _ :: _, h3 => simp at h3
  · have : (glSys L).ofSlot s (ps.filter fun p => decide (p.key.ty ≠ 0x04)) =
        (glSys L).ofSlot s (ps.filter fun p => decide ((glSys L).slotOf p ≠ .counts)) := by
      simp only [SlotSys.ofSlot, List.filter_filter]
      apply List.filter_congr
      intro p _
      by_cases hps : (glSys L).slotOf p = s
      · have h4 : (glSys L).slotOf p ≠ .counts := by rw [hps]; exact hs
        have h5 : p.key.ty ≠ 0x04 := fun h => h4 ((glSlot_inv L.sp _).2.2.1.mpr (.inl h))
        simp [h5, hps, hs]
      · simp [hps]
    rw [this]
    exact (h2.sublist ((List.filter_sublist).map _))

/-- C11, partially: an accepted input map contains no key twice, except possibly the previous txid and the output
index; and those neither if no pair gives them the placeholder values (all-zero txid, index 0xffffffff). -/
theorem C11_input_partial {i : Input L} (hp : ∀ p ∈ ps, Spec.PairOk p)
    (h : Input.decode L (Spec.mapBytes ps ++ r) = .ok (i, r')) :
    ((ps.filter fun p => decide (p.key.ty ≠ 0x0e ∧ p.key.ty ≠ 0x0f)).map Pair.key).Nodup ∧
    ((∀ p ∈ ps, (p.key.ty = 0x0e → p.value ≠ List.replicate 32 0) ∧ (p.key.ty = 0x0f → p.value ≠ List.replicate 4 0xff)) →
      (ps.map Pair.key).Nodup) := by
  simp only [mapBytes_fun] at *
  have hp' : ∀ p ∈ ps, PairFits p := fun p hq => (pairFits_iff p).mpr (hp p hq)
  obtain ⟨rfl, h1⟩ := Input.decode_pairs hp' h
  rw [in_ins] at h1
  constructor
  · -- restrict to the other slots
    have h2 := (inSys L).nodup_good (Q := fun _ => True) (fun s => decide (s ≠ .previousTxid ∧ s ≠ .outputIndex))
      (fun s hs => by
        have hs' := of_decide_eq_true hs
        refine (in_comm L s).mono ?_
        rintro p ⟨-, rfl⟩
        refine ⟨⟨fun h => absurd ((inSlot_inv L.sp _).1.mpr h) hs'.1, fun h => absurd ((inSlot_inv L.sp _).2.1.mpr h) hs'.2⟩,
          rfl⟩) key_slot_in (by simp) h1
    have : (ps.filter fun p => decide (p.key.ty ≠ 0x0e ∧ p.key.ty ≠ 0x0f)) =
        ps.filter fun p => decide ((inSys L).slotOf p ≠ .previousTxid ∧ (inSys L).slotOf p ≠ .outputIndex) := by
      apply List.filter_congr
      intro p _
      rw [decide_eq_decide, ne_eq, ne_eq, ne_eq, ne_eq]
      rw [← (inSlot_inv L.sp p.key.ty).1, ← (inSlot_inv L.sp p.key.ty).2.1]
      exact Iff.rfl
    rw [this]; exact h2
  · intro hq
    refine (inSys L).nodup (Q := InQ) (in_comm L) key_slot_in ?_ h1
    intro p hpm
    exact ⟨(hq p hpm).1, (hq p hpm).2⟩

/-- C11, partially: an accepted output map contains no key twice, except possibly amount and script; and those neither
if no pair gives them the placeholder values (amount zero, empty script). -/
theorem C11_output_partial {o : Output L} (hp : ∀ p ∈ ps, Spec.PairOk p)
    (h : Output.decode L (Spec.mapBytes ps ++ r) = .ok (o, r')) :
    ((ps.filter fun p => decide (p.key.ty ≠ 0x03 ∧ p.key.ty ≠ 0x04)).map Pair.key).Nodup ∧
    ((∀ p ∈ ps, (p.key.ty = 0x03 → p.value ≠ List.replicate 8 0) ∧ (p.key.ty = 0x04 → p.value ≠ [])) →
      (ps.map Pair.key).Nodup) := by
  simp only [mapBytes_fun] at *
  have hp' : ∀ p ∈ ps, PairFits p := fun p hq => (pairFits_iff p).mpr (hp p hq)
  obtain ⟨rfl, h1⟩ := Output.decode_pairs hp' h
  rw [out_ins] at h1
  constructor
  · have h2 := (outSys L).nodup_good (Q := fun _ => True) (fun s => decide (s ≠ .amount ∧ s ≠ .script))
      (fun s hs => by
        have hs' := of_decide_eq_true hs
        refine (out_comm L s).mono ?_
        rintro p ⟨-, rfl⟩
        refine ⟨⟨fun h => absurd ((outSlot_inv L.sp _).1.mpr h) hs'.1, fun h => absurd ((outSlot_inv L.sp _).2.1.mpr h) hs'.2⟩,
          rfl⟩) key_slot_out (by simp) h1
    have : (ps.filter fun p => decide (p.key.ty ≠ 0x03 ∧ p.key.ty ≠ 0x04)) =
        ps.filter fun p => decide ((outSys L).slotOf p ≠ .amount ∧ (outSys L).slotOf p ≠ .script) := by
      apply List.filter_congr
      intro p _
      rw [decide_eq_decide, ne_eq, ne_eq, ne_eq, ne_eq]
      rw [← (outSlot_inv L.sp p.key.ty).1, ← (outSlot_inv L.sp p.key.ty).2.1]
      exact Iff.rfl
    rw [this]; exact h2
  · intro hq
    refine (outSys L).nodup (Q := OutQ) (out_comm L) key_slot_out ?_ h1
    intro p hpm
    exact ⟨(hq p hpm).1, (hq p hpm).2⟩

/-! ### C12: order of the pairs -/

/-- C12 fails for the global map: the input count must come before the output count. -/
theorem C12_global_counterexample :
    (∃ g, Global.decode (Demo.lib false) (Spec.mapBytes
      [⟨⟨0xFB, []⟩, [2, 0, 0, 0]⟩, ⟨⟨0x02, []⟩, [2, 0, 0, 0]⟩, ⟨⟨0x04, []⟩, [0]⟩, ⟨⟨0x05, []⟩, [0]⟩]) = .ok (g, [])) ∧
    Global.decode (Demo.lib false) (Spec.mapBytes
      [⟨⟨0xFB, []⟩, [2, 0, 0, 0]⟩, ⟨⟨0x02, []⟩, [2, 0, 0, 0]⟩, ⟨⟨0x05, []⟩, [0]⟩, ⟨⟨0x04, []⟩, [0]⟩]) =
      .error (.insertPair (.duplicateKey ⟨0x04, []⟩)) :=
  ⟨⟨Global.new _, by decide +kernel⟩, by decide +kernel⟩

/-- C12 fails for inputs when the placeholder values occur: two previous txids, one all-zero. -/
theorem C12_input_counterexample :
    (∃ i, Input.decode (Demo.lib false) (Spec.mapBytes
      [⟨⟨0x0e, []⟩, List.replicate 32 0⟩, ⟨⟨0x0e, []⟩, List.replicate 32 1⟩, ⟨⟨0x0f, []⟩, [0, 0, 0, 0]⟩]) = .ok (i, [])) ∧
    Input.decode (Demo.lib false) (Spec.mapBytes
      [⟨⟨0x0e, []⟩, List.replicate 32 1⟩, ⟨⟨0x0e, []⟩, List.replicate 32 0⟩, ⟨⟨0x0f, []⟩, [0, 0, 0, 0]⟩]) =
      .error (.insertPair (.duplicateKey ⟨0x0e, []⟩)) :=
  ⟨C11_input_counterexample, by decide +kernel⟩

/-- C12, partially: a global map accepted in one order is accepted with the same result in every other order that keeps
the input count before the output count. -/
theorem C12_global_partial {g : Global L} (hp : ∀ p ∈ ps, Spec.PairOk p) (hpq : List.Perm ps qs)
    (hc : (ps.filter fun p => decide (p.key.ty = 0x04 ∨ p.key.ty = 0x05)) =
      qs.filter fun p => decide (p.key.ty = 0x04 ∨ p.key.ty = 0x05))
    (h : Global.decode L (Spec.mapBytes ps ++ r) = .ok (g, r')) :
    Global.decode L (Spec.mapBytes qs ++ r) = .ok (g, r') := by
  simp only [mapBytes_fun] at *
  have hp' : ∀ p ∈ ps, PairFits p := fun p hq => (pairFits_iff p).mpr (hp p hq)
  have hq' : ∀ p ∈ qs, PairFits p := fun p hq => hp' p (hpq.mem_iff.mpr hq)
  obtain ⟨rfl, a, h1, h2⟩ := Global.decode_pairs hp' h
  rw [Global.decode_of_pairs hq']
  refine ⟨a, ?_, h2⟩
  rw [gl_ins] at h1 ⊢
  refine (glSys L).perm_of (Q := fun _ => True) hpq ?_ (by simp) h1
  intro s
  by_cases hs : s = .counts
  · right
    subst hs
    have : ∀ l : List Pair, (glSys L).ofSlot .counts l = l.filter fun p => decide (p.key.ty = 0x04 ∨ p.key.ty = 0x05) := by
      intro l
      simp only [SlotSys.ofSlot]
      apply List.filter_congr
      intro p _
      rw [decide_eq_decide]
      exact (glSlot_inv L.sp _).2.2.1
    rw [this, this, hc]
  · exact .inl (gl_comm L s hs)

/-- C12, partially: an input map accepted in one order is accepted with the same result in every order, if no pair gives
the txid or index their placeholder values. -/
theorem C12_input_partial {i : Input L} (hp : ∀ p ∈ ps, Spec.PairOk p) (hpq : List.Perm ps qs)
    (hz : ∀ p ∈ ps, (p.key.ty = 0x0e → p.value ≠ List.replicate 32 0) ∧ (p.key.ty = 0x0f → p.value ≠ List.replicate 4 0xff))
    (h : Input.decode L (Spec.mapBytes ps ++ r) = .ok (i, r')) :
    Input.decode L (Spec.mapBytes qs ++ r) = .ok (i, r') := by
  simp only [mapBytes_fun] at *
  have hp' : ∀ p ∈ ps, PairFits p := fun p hq => (pairFits_iff p).mpr (hp p hq)
  have hq' : ∀ p ∈ qs, PairFits p := fun p hq => hp' p (hpq.mem_iff.mpr hq)
  obtain ⟨rfl, -⟩ := Input.decode_pairs hp' h
  rw [Input.decode_of_pairs hp'] at h
  rw [Input.decode_of_pairs hq']
  refine ⟨?_, h.2⟩
  have h1 := h.1
  rw [in_ins] at h1 ⊢
  exact (inSys L).perm (Q := InQ) (in_comm L) hpq (fun p hpm => ⟨(hz p hpm).1, (hz p hpm).2⟩) h1

/-- C12, partially: an output map accepted in one order is accepted with the same result in every order, if no pair
gives amount or script their placeholder values. -/
theorem C12_output_partial {o : Output L} (hp : ∀ p ∈ ps, Spec.PairOk p) (hpq : List.Perm ps qs)
    (hz : ∀ p ∈ ps, (p.key.ty = 0x03 → p.value ≠ List.replicate 8 0) ∧ (p.key.ty = 0x04 → p.value ≠ []))
    (h : Output.decode L (Spec.mapBytes ps ++ r) = .ok (o, r')) :
    Output.decode L (Spec.mapBytes qs ++ r) = .ok (o, r') := by
  simp only [mapBytes_fun] at *
  have hp' : ∀ p ∈ ps, PairFits p := fun p hq => (pairFits_iff p).mpr (hp p hq)
  have hq' : ∀ p ∈ qs, PairFits p := fun p hq => hp' p (hpq.mem_iff.mpr hq)
  obtain ⟨rfl, -⟩ := Output.decode_pairs hp' h
  rw [Output.decode_of_pairs hp'] at h
  rw [Output.decode_of_pairs hq']
  refine ⟨?_, h.2⟩
  have h1 := h.1
  rw [out_ins] at h1 ⊢
  exact (outSys L).perm (Q := OutQ) (out_comm L) hpq (fun p hpm => ⟨(hz p hpm).1, (hz p hpm).2⟩) h1

example : (∀ p ∈ demoInput.getPairs, (p.key.ty = 0x0e → p.value ≠ List.replicate 32 0) ∧
    (p.key.ty = 0x0f → p.value ≠ List.replicate 4 0xff)) ∧ 5 ≤ demoInput.getPairs.length := by decide
example : List.Perm demoInput.getPairs demoInput.getPairs.reverse := (List.reverse_perm _).symm

/-! ### C13: unknown and proprietary entries -/

/-- C13. Every pair of a key type without meaning ends up unchanged among the unknown entries of the result, every
proprietary pair among the proprietary ones; both are written out again unchanged; and nothing else is there. -/
theorem C13_global {g : Global L} (hp : ∀ p ∈ ps, Spec.PairOk p)
    (h : Global.decode L (Spec.mapBytes ps ++ r) = .ok (g, r')) :
    (∀ p ∈ ps, p.key.ty ∉ Spec.globalTypes L.sp → g.unknowns.get p.key = some p.value ∧ p ∈ g.getPairs) ∧
    (∀ p ∈ ps, p.key.ty = 0xFC → (∃ k, k.toKey = p.key ∧ g.proprietaries.get k = some p.value) ∧ p ∈ g.getPairs) ∧
    (∀ k v, g.unknowns.get k = some v → ⟨k, v⟩ ∈ ps) ∧
    (∀ k v, g.proprietaries.get k = some v → ⟨k.toKey, v⟩ ∈ ps) := by
  simp only [mapBytes_fun] at *
  have hp' : ∀ p ∈ ps, PairFits p := fun p hq => (pairFits_iff p).mpr (hp p hq)
  obtain ⟨rfl, a, h1, h2⟩ := Global.decode_pairs hp' h
  rw [gl_ins, (glSys L).foldlM_iff] at h1
  rw [GlobalAcc.finish_ok] at h2
  have eu : glGet L .unknown a = g.unknowns := by rcases h2.1 with rfl | ⟨rfl, -⟩ <;> rfl
  have ep : glGet L .proprietary a = g.proprietaries := by rcases h2.1 with rfl | ⟨rfl, -⟩ <;> rfl
  have hu := isKeyed_insUnknown (ε := InsErr) (fun p => (glSys L).slotOf p = .unknown)
  have hpr := isKeyed_glProp (fun p => (glSys L).slotOf p = .proprietary)
  have fu : ((glSys L).ofSlot .unknown ps).foldlM (insUnknown (ε := InsErr)) BMap.empty = .ok g.unknowns := by
    rw [← eu]; exact h1 .unknown
  have fp : ((glSys L).ofSlot .proprietary ps).foldlM insGlobalProp BMap.empty = .ok g.proprietaries := by
    rw [← ep]; exact h1 .proprietary
  have mem1 : ∀ k v, g.unknowns.get k = some v → (⟨k, v⟩ : Pair) ∈ g.getPairs := by
    intro k v hk
    have : (⟨k, v⟩ : Pair) ∈ emitUnknown g.unknowns := List.mem_map.mpr ⟨(k, v), BMap.mem_iff_get.mpr hk, rfl⟩
    simp only [Global.getPairs, List.mem_flatten]
    exact ⟨_, by simp, this⟩
  have mem2 : ∀ k v, g.proprietaries.get k = some v → (⟨k.toKey, v⟩ : Pair) ∈ g.getPairs := by
    intro k v hk
    have : (⟨k.toKey, v⟩ : Pair) ∈ emitProp g.proprietaries := List.mem_map.mpr ⟨(k, v), BMap.mem_iff_get.mpr hk, rfl⟩
    simp only [Global.getPairs, List.mem_flatten]
    exact ⟨_, by simp, this⟩
  refine ⟨?_, ?_, ?_, ?_⟩
  · intro p hpm ht
    obtain ⟨k, v, e1, e2⟩ := hu.get_of_mem ((glSys L).slot_ofSlot .unknown ps) fu
      ((glSys L).mem_ofSlot.mpr ⟨hpm, (glSlot_unknown _ _).mpr ht⟩)
    simp only [parseUnknown, Option.some.injEq, Prod.mk.injEq] at e1
    obtain ⟨rfl, rfl⟩ := e1
    exact ⟨e2, mem1 _ _ e2⟩
  · intro p hpm ht
    obtain ⟨k, v, e1, e2⟩ := hpr.get_of_mem ((glSys L).slot_ofSlot .proprietary ps) fp
      ((glSys L).mem_ofSlot.mpr ⟨hpm, (glSlot_inv _ _).2.2.2.2.mpr ht⟩)
    rw [parseProp_some] at e1
    obtain ⟨e1, rfl⟩ := e1
    have hk := (PropKey.ofKey_ok e1).1
    refine ⟨⟨k, hk.symm, e2⟩, ?_⟩
    have := mem2 _ _ e2
    rwa [← hk] at this
  · intro k v hk
    rcases hu.mem_of_get ((glSys L).slot_ofSlot .unknown ps) fu hk with h3 | ⟨p, hpm, h3⟩
    · simp at h3
    · simp only [parseUnknown, Option.some.injEq, Prod.mk.injEq] at h3
      obtain ⟨rfl, rfl⟩ := h3
      exact ((glSys L).mem_ofSlot.mp hpm).1
  · intro k v hk
    rcases hpr.mem_of_get ((glSys L).slot_ofSlot .proprietary ps) fp hk with h3 | ⟨p, hpm, h3⟩
    · simp at h3
    · rw [parseProp_some] at h3
      obtain ⟨e1, rfl⟩ := h3
      rw [← (PropKey.ofKey_ok e1).1]
      exact ((glSys L).mem_ofSlot.mp hpm).1

/-- C13, for input maps. -/
theorem C13_input {i : Input L} (hp : ∀ p ∈ ps, Spec.PairOk p)
    (h : Input.decode L (Spec.mapBytes ps ++ r) = .ok (i, r')) :
    (∀ p ∈ ps, p.key.ty ∉ Spec.inputTypes L.sp → i.unknowns.get p.key = some p.value ∧ p ∈ i.getPairs) ∧
    (∀ p ∈ ps, p.key.ty = 0xFC → (∃ k, k.toKey = p.key ∧ i.proprietaries.get k = some p.value) ∧ p ∈ i.getPairs) ∧
    (∀ k v, i.unknowns.get k = some v → ⟨k, v⟩ ∈ ps) ∧
    (∀ k v, i.proprietaries.get k = some v → ⟨k.toKey, v⟩ ∈ ps) := by
  simp only [mapBytes_fun] at *
  have hp' : ∀ p ∈ ps, PairFits p := fun p hq => (pairFits_iff p).mpr (hp p hq)
  obtain ⟨rfl, h1⟩ := Input.decode_pairs hp' h
  rw [in_ins, (inSys L).foldlM_iff] at h1
  have hu := isKeyed_insUnknown (ε := InsErr) (fun p => (inSys L).slotOf p = .unknown)
  have hpr := isKeyed_insProp (ε := InsErr) (fun p => (inSys L).slotOf p = .proprietary)
  have fu : ((inSys L).ofSlot .unknown ps).foldlM (insUnknown (ε := InsErr)) BMap.empty = .ok i.unknowns := h1 .unknown
  have fp : ((inSys L).ofSlot .proprietary ps).foldlM (insProp (ε := InsErr)) BMap.empty = .ok i.proprietaries :=
    h1 .proprietary
  have mem1 : ∀ k v, i.unknowns.get k = some v → (⟨k, v⟩ : Pair) ∈ i.getPairs := by
    intro k v hk
    have : (⟨k, v⟩ : Pair) ∈ emitUnknown i.unknowns := List.mem_map.mpr ⟨(k, v), BMap.mem_iff_get.mpr hk, rfl⟩
    simp only [Input.getPairs, List.mem_flatten]
    exact ⟨_, by simp, this⟩
  have mem2 : ∀ k v, i.proprietaries.get k = some v → (⟨k.toKey, v⟩ : Pair) ∈ i.getPairs := by
    intro k v hk
    have : (⟨k.toKey, v⟩ : Pair) ∈ emitProp i.proprietaries := List.mem_map.mpr ⟨(k, v), BMap.mem_iff_get.mpr hk, rfl⟩
    simp only [Input.getPairs, List.mem_flatten]
    exact ⟨_, by simp, this⟩
  refine ⟨?_, ?_, ?_, ?_⟩
  · intro p hpm ht
    obtain ⟨k, v, e1, e2⟩ := hu.get_of_mem ((inSys L).slot_ofSlot .unknown ps) fu
      ((inSys L).mem_ofSlot.mpr ⟨hpm, (inSlot_unknown _ _).mpr ht⟩)
    simp only [parseUnknown, Option.some.injEq, Prod.mk.injEq] at e1
    obtain ⟨rfl, rfl⟩ := e1
    exact ⟨e2, mem1 _ _ e2⟩
  · intro p hpm ht
    obtain ⟨k, v, e1, e2⟩ := hpr.get_of_mem ((inSys L).slot_ofSlot .proprietary ps) fp
      ((inSys L).mem_ofSlot.mpr ⟨hpm, (inSlot_inv _ _).2.2.mpr ht⟩)
    rw [parseProp_some] at e1
    obtain ⟨e1, rfl⟩ := e1
    have hk := (PropKey.ofKey_ok e1).1
    refine ⟨⟨k, hk.symm, e2⟩, ?_⟩
    have := mem2 _ _ e2
    rwa [← hk] at this
  · intro k v hk
    rcases hu.mem_of_get ((inSys L).slot_ofSlot .unknown ps) fu hk with h3 | ⟨p, hpm, h3⟩
    · simp at h3
    · simp only [parseUnknown, Option.some.injEq, Prod.mk.injEq] at h3
      obtain ⟨rfl, rfl⟩ := h3
      exact ((inSys L).mem_ofSlot.mp hpm).1
  · intro k v hk
    rcases hpr.mem_of_get ((inSys L).slot_ofSlot .proprietary ps) fp hk with h3 | ⟨p, hpm, h3⟩
    · simp at h3
    · rw [parseProp_some] at h3
      obtain ⟨e1, rfl⟩ := h3
      rw [← (PropKey.ofKey_ok e1).1]
      exact ((inSys L).mem_ofSlot.mp hpm).1

/-- C13, for output maps. -/
theorem C13_output {o : Output L} (hp : ∀ p ∈ ps, Spec.PairOk p)
    (h : Output.decode L (Spec.mapBytes ps ++ r) = .ok (o, r')) :
    (∀ p ∈ ps, p.key.ty ∉ Spec.outputTypes L.sp → o.unknowns.get p.key = some p.value ∧ p ∈ o.getPairs) ∧
    (∀ p ∈ ps, p.key.ty = 0xFC → (∃ k, k.toKey = p.key ∧ o.proprietaries.get k = some p.value) ∧ p ∈ o.getPairs) ∧
    (∀ k v, o.unknowns.get k = some v → ⟨k, v⟩ ∈ ps) ∧
    (∀ k v, o.proprietaries.get k = some v → ⟨k.toKey, v⟩ ∈ ps) := by
  simp only [mapBytes_fun] at *
  have hp' : ∀ p ∈ ps, PairFits p := fun p hq => (pairFits_iff p).mpr (hp p hq)
  obtain ⟨rfl, h1⟩ := Output.decode_pairs hp' h
  rw [out_ins, (outSys L).foldlM_iff] at h1
  have hu := isKeyed_insUnknown (ε := InsErr) (fun p => (outSys L).slotOf p = .unknown)
  have hpr := isKeyed_insProp (ε := InsErr) (fun p => (outSys L).slotOf p = .proprietary)
  have fu : ((outSys L).ofSlot .unknown ps).foldlM (insUnknown (ε := InsErr)) BMap.empty = .ok o.unknowns := h1 .unknown
  have fp : ((outSys L).ofSlot .proprietary ps).foldlM (insProp (ε := InsErr)) BMap.empty = .ok o.proprietaries :=
    h1 .proprietary
  have mem1 : ∀ k v, o.unknowns.get k = some v → (⟨k, v⟩ : Pair) ∈ o.getPairs := by
    intro k v hk
    have : (⟨k, v⟩ : Pair) ∈ emitUnknown o.unknowns := List.mem_map.mpr ⟨(k, v), BMap.mem_iff_get.mpr hk, rfl⟩
    simp only [Output.getPairs, List.mem_flatten]
    exact ⟨_, by simp, this⟩
  have mem2 : ∀ k v, o.proprietaries.get k = some v → (⟨k.toKey, v⟩ : Pair) ∈ o.getPairs := by
    intro k v hk
    have : (⟨k.toKey, v⟩ : Pair) ∈ emitProp o.proprietaries := List.mem_map.mpr ⟨(k, v), BMap.mem_iff_get.mpr hk, rfl⟩
    simp only [Output.getPairs, List.mem_flatten]
    exact ⟨_, by simp, this⟩
  refine ⟨?_, ?_, ?_, ?_⟩
  · intro p hpm ht
    obtain ⟨k, v, e1, e2⟩ := hu.get_of_mem ((outSys L).slot_ofSlot .unknown ps) fu
      ((outSys L).mem_ofSlot.mpr ⟨hpm, (outSlot_unknown _ _).mpr ht⟩)
    simp only [parseUnknown, Option.some.injEq, Prod.mk.injEq] at e1
    obtain ⟨rfl, rfl⟩ := e1
    exact ⟨e2, mem1 _ _ e2⟩
  · intro p hpm ht
    obtain ⟨k, v, e1, e2⟩ := hpr.get_of_mem ((outSys L).slot_ofSlot .proprietary ps) fp
      ((outSys L).mem_ofSlot.mpr ⟨hpm, (outSlot_inv _ _).2.2.mpr ht⟩)
    rw [parseProp_some] at e1
    obtain ⟨e1, rfl⟩ := e1
    have hk := (PropKey.ofKey_ok e1).1
    refine ⟨⟨k, hk.symm, e2⟩, ?_⟩
    have := mem2 _ _ e2
    rwa [← hk] at this
  · intro k v hk
    rcases hu.mem_of_get ((outSys L).slot_ofSlot .unknown ps) fu hk with h3 | ⟨p, hpm, h3⟩
    · simp at h3
    · simp only [parseUnknown, Option.some.injEq, Prod.mk.injEq] at h3
      obtain ⟨rfl, rfl⟩ := h3
      exact ((outSys L).mem_ofSlot.mp hpm).1
  · intro k v hk
    rcases hpr.mem_of_get ((outSys L).slot_ofSlot .proprietary ps) fp hk with h3 | ⟨p, hpm, h3⟩
    · simp at h3
    · rw [parseProp_some] at h3
      obtain ⟨e1, rfl⟩ := h3
      rw [← (PropKey.ofKey_ok e1).1]
      exact ((outSys L).mem_ofSlot.mp hpm).1

example : ∃ p ∈ demoInput.getPairs, p.key.ty ∉ Spec.inputTypes false := ⟨⟨⟨0x77, [1]⟩, [2]⟩, by decide, by decide⟩

end

/-! ### C14, C15, C16 -/

/-- C14. A parsed PSBT has as many inputs and outputs as its global counts say. -/
theorem C14_counts {L : Lib} {b : Bytes} {p : Psbt L} (h : Psbt.deserialize L b = .ok p) :
    p.inputs.length = p.global.inputCount.toNat ∧ p.outputs.length = p.global.outputCount.toNat :=
  ⟨(wf_of_deserialize h).inputCount.symm, (wf_of_deserialize h).outputCount.symm⟩

/-- C15. Every preimage in a parsed PSBT hashes to the key it is stored under. -/
theorem C15_preimages {L : Lib} {b : Bytes} {p : Psbt L} (h : Psbt.deserialize L b = .ok p) :
    ∀ i ∈ p.inputs,
      (∀ k pre, i.ripemd160Preimages.get k = some pre → L.ripemd160 pre = k) ∧
      (∀ k pre, i.sha256Preimages.get k = some pre → L.sha256 pre = k) ∧
      (∀ k pre, i.hash160Preimages.get k = some pre → L.hash160 pre = k) ∧
      (∀ k pre, i.hash256Preimages.get k = some pre → L.sha256d pre = k) := fun i hi =>
  have hw := (wf_of_deserialize h).inputs i hi
  ⟨hw.ripemd160, hw.sha256, hw.hash160, hw.hash256⟩

example : demoInput.sha256Preimages.get (Demo.pad 32 [2, 7, 7]) = some [7, 7] := by decide

/-- C16 fails: a global map that announces 2^63 inputs makes parsing panic, because the input vector is allocated
before any input is read. -/
theorem C16_counterexample :
    Psbt.deserialize (Demo.lib false) ([0x70, 0x73, 0x62, 0x74, 0xff] ++ Spec.mapBytes
      [⟨⟨0xFB, []⟩, [2, 0, 0, 0]⟩, ⟨⟨0x02, []⟩, [2, 0, 0, 0]⟩, ⟨⟨0x04, []⟩, [0xff, 0, 0, 0, 0, 0, 0, 0, 0x80]⟩,
       ⟨⟨0x05, []⟩, [0]⟩]) = .error (.panic "capacity overflow") := by decide +kernel

/-- C16, partially: parsing panics only if the announced number of inputs or outputs needs 2^63 bytes or more. -/
theorem C16_panics_only_on_huge_counts_partial {L : Lib} {b : Bytes} {why : String}
    (h : Psbt.deserialize L b = .error (.panic why)) :
    ∃ g r, Global.decode L (b.drop 5) = .ok (g, r) ∧
      (2 ^ 63 ≤ g.inputCount.toNat * L.inputSize ∨ 2 ^ 63 ≤ g.outputCount.toNat * L.outputSize) := by
  unfold Psbt.deserialize at h
  split at h
  · cases h
  · split at h
    · cases h
    · revert h
      simp only [orFail]
      cases hg : Global.decode L (List.drop 5 b) with
      | error e => intro h; cases h
      | ok x =>
        simp only [mapErr_of_ok, ok_bind]
        split
        · rename_i hc
          intro _
          rw [capacityOverflow_iff] at hc
          exact ⟨x.1, x.2, rfl, .inl (by omega)⟩
        · cases decodeN (Input.decode L) x.1.inputCount.toNat x.2 with
          | error e => intro h; cases h
          | ok y =>
            simp only [mapErr_of_ok, ok_bind]
            split
            · rename_i hc
              intro _
              rw [capacityOverflow_iff] at hc
              exact ⟨x.1, x.2, rfl, .inr (by omega)⟩
            · cases decodeN (Output.decode L) x.1.outputCount.toNat y.2 with
              | error e => intro h; cases h
              | ok z => intro h; cases h

/-! ### C54, C56 -/

/-- C54. A DLEQ proof is accepted exactly from 64 bytes, and is these bytes. -/
theorem C54_dleq_iff (b : Bytes) (d : FixedBytes 64) : dleqCodec.deser b = .ok d ↔ b.length = 64 ∧ b = d.1 := by
  simp only [dleqCodec]
  split
  · rename_i h
    simp only [Except.ok.injEq, h, true_and]
    exact ⟨fun e => by rw [← e], fun e => Subtype.ext e⟩
  · rename_i h; simp [h]

/-- C54. In a parsed PSBT no map has ECDH shares without DLEQ proofs or the reverse, no output has a label without silent
payment info, and the info is 66 bytes long. -/
theorem C54_consistent {L : Lib} {b : Bytes} {p : Psbt L} (h : Psbt.deserialize L b = .ok p) :
    (p.global.spEcdhShares = .empty ↔ p.global.spDleqProofs = .empty) ∧
    (∀ i ∈ p.inputs, (i.spEcdhShares = .empty ↔ i.spDleqProofs = .empty)) ∧
    (∀ o ∈ p.outputs, o.spV0Info = none → o.spV0Label = none) ∧
    (∀ o ∈ p.outputs, ∀ v, o.spV0Info = some v → v.length = 66) := by
  have hw := wf_of_deserialize h
  cases hsp : L.sp with
  | false =>
    refine ⟨?_, ?_, ?_, fun o ho => (hw.outputs o ho).info⟩
    · have := hw.global.spOff hsp; simp [this.1, this.2]
    · intro i hi; have := (hw.inputs i hi).spOff hsp; simp [this.1, this.2]
    · intro o ho _; exact ((hw.outputs o ho).spOff hsp).2
  | true =>
    refine ⟨hw.global.spOn hsp, fun i hi => (hw.inputs i hi).spOn hsp, ?_, fun o ho => (hw.outputs o ho).info⟩
    intro o ho hn
    have := (hw.outputs o ho).spOn hsp
    cases hl : o.spV0Label with
    | none => rfl
    | some l => exact absurd hn (this (by simp [hl]))

/-- A map with an ECDH share and no DLEQ proof is refused, with both it is accepted. -/
example : Input.decode (Demo.lib true) (serializeMap
    [⟨⟨0x0e, []⟩, List.replicate 32 1⟩, ⟨⟨0x0f, []⟩, [0, 0, 0, 0]⟩,
     ⟨⟨0x1D, List.replicate 33 2⟩, List.replicate 33 3⟩]) = .error .fieldMismatch := by decide +kernel
example : ∃ i, Input.decode (Demo.lib true) (serializeMap
    [⟨⟨0x0e, []⟩, List.replicate 32 1⟩, ⟨⟨0x0f, []⟩, [0, 0, 0, 0]⟩,
     ⟨⟨0x1D, List.replicate 33 2⟩, List.replicate 33 3⟩,
     ⟨⟨0x1E, List.replicate 33 2⟩, List.replicate 64 4⟩]) = .ok (i, []) := by
  refine ⟨{ Input.placeholder (Demo.lib true) with
    previousTxid := Demo.rep 32 1, spentOutputIndex := 0
    spEcdhShares := BMap.empty.insert (Demo.val 33 (by decide) 2) (Demo.val 33 (by decide) 3)
    spDleqProofs := BMap.empty.insert (Demo.val 33 (by decide) 2) (Demo.rep 64 4) }, by decide +kernel⟩

/-- C56. Serialisations of well-formed PSBTs are prefix-free; in particular different PSBTs have different
serialisations. -/
theorem C56_prefix_free {L : Lib} {p q : Psbt L} (hp : Spec.WF p) (hq : Spec.WF q) {r s : Bytes}
    (h : p.serialize ++ r = q.serialize ++ s) : p = q ∧ r = s := by
  have h1 := deserialize_serialize_append hp r
  have h2 := deserialize_serialize_append hq s
  rw [h, h2] at h1
  cases h1
  exact ⟨rfl, List.append_cancel_left h⟩

example : ∃ p q : Psbt (Demo.lib false), Spec.WF p ∧ Spec.WF q ∧ p ≠ q :=
  ⟨demo, { demo with global := { demo.global with txModifiableFlags := 0 } }, wf_of_deserialize demo_roundtrip,
   wf_of_deserialize (b := Psbt.serialize { demo with global := { demo.global with txModifiableFlags := 0 } })
    (by decide +kernel), by decide +kernel⟩

end Psbt.V2
