/- Round trips of the maps and of the complete PSBT v2. -/
import Verif.Lemmas.V2Global
import Verif.Lemmas.V2Input
import Verif.Lemmas.V2Output
import Verif.Lemmas.Limits
import Verif.Spec.V2
namespace Psbt.V2
open Psbt

theorem inSlot_unknown : ∀ sp t, inSlot sp t = .unknown ↔ t ∉ Spec.inputTypes sp :=
  fun sp => forall_u8 (by cases sp <;> decide +kernel)

theorem outSlot_unknown : ∀ sp t, outSlot sp t = .unknown ↔ t ∉ Spec.outputTypes sp :=
  fun sp => forall_u8 (by cases sp <;> decide +kernel)

theorem glSlot_unknown : ∀ sp t, glSlot sp t = .unknown ↔ t ∉ Spec.globalTypes sp :=
  fun sp => forall_u8 (by cases sp <;> decide +kernel)

theorem mem_pairs {M S ε : Type} (Y : SlotSys M S ε) {order : List S} (h : ∀ s, s ∈ order)
    {emit : (s : S) → Y.F s → List Pair} {m : M} {P : Pair → Prop} :
    (∀ p ∈ Y.pairs order emit m, P p) ↔ ∀ s, ∀ p ∈ emit s (Y.get s m), P p := by
  simp only [SlotSys.pairs, List.mem_flatMap]
  exact ⟨fun H s p hp => H p ⟨s, h s, hp⟩, fun H p ⟨s, _, hp⟩ => H s p hp⟩

theorem isEmpty_ne_iff {K V W : Type} [OrdKey K] [DecidableEq K] (a : BMap K V) (b : BMap K W) :
    a.isEmpty ≠ b.isEmpty ↔ ¬ (a = .empty ↔ b = .empty) := by
  rw [← BMap.isEmpty_iff, ← BMap.isEmpty_iff]
  cases a.isEmpty <;> cases b.isEmpty <;> simp

/-! ### Inputs -/

theorem Input.decode_ok {L : Lib} {b r : Bytes} {i : Input L} :
    Input.decode L b = .ok (i, r) ↔
      (∃ ps : List Pair, b = ps.flatMap encPair ++ 0 :: r ∧ (∀ p ∈ ps, PairFits p) ∧
        ps.foldlM Input.insertPair (Input.placeholder L) = .ok i) ∧
      i.previousTxid ≠ zeroTxid ∧ i.spentOutputIndex ≠ U32_MAX ∧
      (L.sp = true → (i.spEcdhShares = .empty ↔ i.spDleqProofs = .empty)) := by
  unfold Input.decode
  simp only [bind_ok]
  constructor
  · rintro ⟨⟨i', r'⟩, h1, h2⟩
    rw [decodeMap_ok] at h1
    obtain ⟨ps, h3, h4, h5⟩ := h1
    rw [foldlM_mapErr] at h5
    simp only at h2
    split at h2
    · cases h2
    · rename_i h6
      split at h2
      · cases h2
      · rename_i h7
        split at h2
        · cases h2
        · rename_i h8
          cases h2
          refine ⟨⟨ps, h3, h4, h5⟩, h6, h7, fun hsp => ?_⟩
          rw [isEmpty_ne_iff] at h8
          exact Decidable.not_not.mp fun h => h8 ⟨hsp, h⟩
  · rintro ⟨⟨ps, h3, h4, h5⟩, h6, h7, h8⟩
    refine ⟨(i, r), ?_, ?_⟩
    · rw [decodeMap_ok]
      exact ⟨ps, h3, h4, by rw [foldlM_mapErr]; exact h5⟩
    · simp only
      rw [if_neg h6, if_neg h7, if_neg]
      rintro ⟨hsp, h⟩
      rw [isEmpty_ne_iff] at h
      exact h (h8 hsp)

theorem zeroTxid_iff (t : Hash32) : t ≠ zeroTxid ↔ t.1 ≠ List.replicate 32 0 := by
  rw [ne_eq, ne_eq, Subtype.ext_iff]; rfl

theorem input_wf_iff {L : Lib} (i : Input L) :
    Spec.InputWF i ↔ (∀ s, InInv L s (inGet L s i)) ∧ i.previousTxid ≠ zeroTxid ∧ i.spentOutputIndex ≠ U32_MAX ∧
      (L.sp = true → (i.spEcdhShares = .empty ↔ i.spDleqProofs = .empty)) := by
  have hsz : (∀ p ∈ i.getPairs, Spec.PairOk p) ↔ ∀ s, ∀ p ∈ inEmit L s (inGet L s i), PairFits p := by
    rw [in_pairs]
    simp only [← pairFits_iff]
    exact mem_pairs (inSys L) mem_inOrder
  constructor
  · intro h
    refine ⟨?_, (zeroTxid_iff _).mpr h.txid, h.vout, h.spOn⟩
    have hz := hsz.mp h.sizes
    intro s
    cases s with
    | ripemd160 => exact ⟨hz .ripemd160, h.ripemd160⟩
    | sha256 => exact ⟨hz .sha256, h.sha256⟩
    | hash160 => exact ⟨hz .hash160, h.hash160⟩
    | hash256 => exact ⟨hz .hash256, h.hash256⟩
    | spEcdh => exact ⟨hz .spEcdh, fun e => (h.spOff e).1⟩
    | spDleq => exact ⟨hz .spDleq, fun e => (h.spOff e).2⟩
    | proprietary => exact ⟨hz .proprietary, fun k v e => (propFits_iff k).mpr (h.props k v e)⟩
    | unknown => exact ⟨hz .unknown, fun k v e => (inSlot_unknown _ _).mpr (h.unknowns k v e)⟩
    | _ => exact hz _
  · rintro ⟨h, h1, h2, h3⟩
    refine ⟨(zeroTxid_iff _).mp h1, h2, hsz.mpr ?_, (h .ripemd160).2, (h .sha256).2, (h .hash160).2, (h .hash256).2,
      fun k v e => (propFits_iff k).mp ((h .proprietary).2 k v e),
      fun k v e => (inSlot_unknown _ _).mp ((h .unknown).2 k v e),
      fun e => ⟨(h .spEcdh).2 e, (h .spDleq).2 e⟩, h3⟩
    intro s
    have hs := h s
    cases s with
    | ripemd160 => exact hs.1
    | sha256 => exact hs.1
    | hash160 => exact hs.1
    | hash256 => exact hs.1
    | spEcdh => exact hs.1
    | spDleq => exact hs.1
    | proprietary => exact hs.1
    | unknown => exact hs.1
    | _ => exact hs

theorem Input.wf_of_decode {L : Lib} {b r : Bytes} {i : Input L} (h : Input.decode L b = .ok (i, r)) :
    Spec.InputWF i := by
  rw [Input.decode_ok] at h
  obtain ⟨⟨ps, _, h2, h3⟩, h4⟩ := h
  rw [input_wf_iff]
  refine ⟨?_, h4⟩
  rw [in_ins] at h3
  exact (inSys L).inv (in_lawful L) h2 h3

theorem Input.rt {L : Lib} {i : Input L} (h : Spec.InputWF i) (r : Bytes) :
    Input.decode L (serializeMap i.getPairs ++ r) = .ok (i, r) := by
  rw [Input.decode_ok]
  have hw := (input_wf_iff i).mp h
  refine ⟨⟨i.getPairs, serializeMap_append _ _, ?_, ?_⟩, hw.2⟩
  · rw [in_pairs]
    exact (inSys L).fits (in_lawful L) hw.1
  · rw [in_pairs, in_ins]
    exact (inSys L).rt inOrder_nodup mem_inOrder (in_lawful L) hw.1

theorem Input.rt_iff {L : Lib} (i : Input L) (r : Bytes) :
    Input.decode L (serializeMap i.getPairs ++ r) = .ok (i, r) ↔ Spec.InputWF i :=
  ⟨Input.wf_of_decode, fun h => Input.rt h r⟩

/-! ### Outputs -/

theorem Output.decode_ok {L : Lib} {b r : Bytes} {o : Output L} :
    Output.decode L b = .ok (o, r) ↔
      (∃ ps : List Pair, b = ps.flatMap encPair ++ 0 :: r ∧ (∀ p ∈ ps, PairFits p) ∧
        ps.foldlM Output.insertPair (Output.placeholder L) = .ok o) ∧
      o.amount ≠ 0 ∧ (L.sp = false → o.scriptPubkey ≠ []) ∧
      (L.sp = true → o.spV0Label ≠ none → o.spV0Info ≠ none) := by
  unfold Output.decode
  simp only [bind_ok]
  constructor
  · rintro ⟨⟨i', r'⟩, h1, h2⟩
    rw [decodeMap_ok] at h1
    obtain ⟨ps, h3, h4, h5⟩ := h1
    rw [foldlM_mapErr] at h5
    simp only at h2
    split at h2
    · cases h2
    · rename_i h6
      split at h2
      · cases h2
      · rename_i h7
        split at h2
        · cases h2
        · rename_i h8
          cases h2
          refine ⟨⟨ps, h3, h4, h5⟩, h6, fun a b => h7 ⟨a, b⟩, fun hsp a b => ?_⟩
          exact h8 ⟨hsp, Option.ne_none_iff_isSome.mp a, by rw [b]; rfl⟩
  · rintro ⟨⟨ps, h3, h4, h5⟩, h6, h7, h8⟩
    refine ⟨(o, r), ?_, ?_⟩
    · rw [decodeMap_ok]
      exact ⟨ps, h3, h4, by rw [foldlM_mapErr]; exact h5⟩
    · simp only
      rw [if_neg h6, if_neg (fun ⟨a, b⟩ => h7 a b), if_neg]
      rintro ⟨hsp, h, h'⟩
      exact h8 hsp (Option.ne_none_iff_isSome.mpr h) (Option.isNone_iff_eq_none.mp h')

theorem output_wf_iff {L : Lib} (o : Output L) :
    Spec.OutputWF o ↔ (∀ s, OutInv L s (outGet L s o)) ∧ o.amount ≠ 0 ∧ (L.sp = false → o.scriptPubkey ≠ []) ∧
      (L.sp = true → o.spV0Label ≠ none → o.spV0Info ≠ none) := by
  have hsz : (∀ p ∈ o.getPairs, Spec.PairOk p) ↔ ∀ s, ∀ p ∈ outEmit L s (outGet L s o), PairFits p := by
    rw [out_pairs]
    simp only [← pairFits_iff]
    exact mem_pairs (outSys L) mem_outOrder
  constructor
  · intro h
    refine ⟨?_, h.amount, h.script, h.spOn⟩
    have hz := hsz.mp h.sizes
    intro s
    cases s with
    | spInfo => exact ⟨hz .spInfo, fun e => (h.spOff e).1, h.info⟩
    | spLabel => exact ⟨hz .spLabel, fun e => (h.spOff e).2⟩
    | proprietary => exact ⟨hz .proprietary, fun k v e => (propFits_iff k).mpr (h.props k v e)⟩
    | unknown => exact ⟨hz .unknown, fun k v e => (outSlot_unknown _ _).mpr (h.unknowns k v e)⟩
    | _ => exact hz _
  · rintro ⟨h, h1, h2, h3⟩
    refine ⟨h1, h2, hsz.mpr ?_, fun k v e => (propFits_iff k).mp ((h .proprietary).2 k v e),
      fun k v e => (outSlot_unknown _ _).mp ((h .unknown).2 k v e), (h .spInfo).2.2,
      fun e => ⟨(h .spInfo).2.1 e, (h .spLabel).2 e⟩, h3⟩
    intro s
    have hs := h s
    cases s with
    | spInfo => exact hs.1
    | spLabel => exact hs.1
    | proprietary => exact hs.1
    | unknown => exact hs.1
    | _ => exact hs

theorem Output.wf_of_decode {L : Lib} {b r : Bytes} {o : Output L} (h : Output.decode L b = .ok (o, r)) :
    Spec.OutputWF o := by
  rw [Output.decode_ok] at h
  obtain ⟨⟨ps, _, h2, h3⟩, h4⟩ := h
  rw [output_wf_iff]
  refine ⟨?_, h4⟩
  rw [out_ins] at h3
  exact (outSys L).inv (out_lawful L) h2 h3

theorem Output.rt {L : Lib} {o : Output L} (h : Spec.OutputWF o) (r : Bytes) :
    Output.decode L (serializeMap o.getPairs ++ r) = .ok (o, r) := by
  rw [Output.decode_ok]
  have hw := (output_wf_iff o).mp h
  refine ⟨⟨o.getPairs, serializeMap_append _ _, ?_, ?_⟩, hw.2⟩
  · rw [out_pairs]
    exact (outSys L).fits (out_lawful L) hw.1
  · rw [out_pairs, out_ins]
    exact (outSys L).rt outOrder_nodup mem_outOrder (out_lawful L) hw.1

/-! ### Global -/

theorem GlobalAcc.finish_ok {L : Lib} {a : GlobalAcc L} {g : Global L} :
    a.finish = .ok g ↔ (a = accOf g ∨ (a = { accOf g with txModifiableFlags := none } ∧ g.txModifiableFlags = 0)) ∧
      (L.sp = true → (g.spEcdhShares = .empty ↔ g.spDleqProofs = .empty)) := by
  constructor
  · intro h
    obtain ⟨v, tv, fl, tm, ⟨ic, oc⟩, xp, se, sd, pr, un⟩ := a
    simp only [GlobalAcc.finish, bind_ok, okOr_ok] at h
    obtain ⟨v', rfl, tv', rfl, ic', rfl, oc', rfl, h⟩ := h
    split at h
    · cases h
    · rename_i h8
      cases h
      constructor
      · cases tm with
        | none => right; exact ⟨rfl, rfl⟩
        | some f => left; rfl
      · intro hsp
        rw [isEmpty_ne_iff] at h8
        exact Decidable.not_not.mp fun h => h8 ⟨hsp, h⟩
  · rintro ⟨h | ⟨h, h0⟩, h3⟩
    · subst h
      apply finish_accOf
      intro hsp
      exact Decidable.not_not.mp fun h => (isEmpty_ne_iff _ _).mp h (h3 hsp)
    · subst h
      have : ¬ (L.sp = true ∧ g.spEcdhShares.isEmpty ≠ g.spDleqProofs.isEmpty) :=
        fun ⟨h1, h2⟩ => (isEmpty_ne_iff _ _).mp h2 (h3 h1)
      have h2 : GlobalAcc.finish { accOf g with txModifiableFlags := none } =
        if L.sp = true ∧ g.spEcdhShares.isEmpty ≠ g.spDleqProofs.isEmpty then
          .error .fieldMismatch else .ok { g with txModifiableFlags := 0 } := rfl
      rw [h2, if_neg this, ← h0]

theorem Global.decode_ok {L : Lib} {b r : Bytes} {g : Global L} :
    Global.decode L b = .ok (g, r) ↔
      ∃ (ps : List Pair) (a : GlobalAcc L), b = ps.flatMap encPair ++ 0 :: r ∧ (∀ p ∈ ps, PairFits p) ∧
        ps.foldlM GlobalAcc.insertPair (GlobalAcc.start L) = .ok a ∧ a.finish = .ok g := by
  unfold Global.decode
  simp only [bind_ok]
  constructor
  · rintro ⟨⟨a, r'⟩, h1, g', h2, h3⟩
    cases h3
    rw [decodeMap_ok] at h1
    obtain ⟨ps, h3, h4, h5⟩ := h1
    rw [foldlM_mapErr] at h5
    exact ⟨ps, a, h3, h4, h5, h2⟩
  · rintro ⟨ps, a, h3, h4, h5, h6⟩
    refine ⟨(a, r), ?_, g, h6, rfl⟩
    rw [decodeMap_ok]
    exact ⟨ps, h3, h4, by rw [foldlM_mapErr]; exact h5⟩

theorem global_wf_iff {L : Lib} (g : Global L) :
    Spec.GlobalWF g ↔ (∀ s, GlInv L s (glGet L s (accOf g))) ∧
      (L.sp = true → (g.spEcdhShares = .empty ↔ g.spDleqProofs = .empty)) := by
  have hsz : (∀ p ∈ g.getPairs, Spec.PairOk p) ↔ ∀ s, ∀ p ∈ glEmit L s (glGet L s (accOf g)), PairFits p := by
    rw [gl_pairs]
    simp only [← pairFits_iff]
    exact mem_pairs (glSys L) mem_glOrder
  constructor
  · intro h
    refine ⟨?_, h.spOn⟩
    have hz := hsz.mp h.sizes
    intro s
    cases s with
    | version =>
      refine ⟨hz .version, fun v e => ?_⟩
      cases e
      exact h.version
    | spEcdh => exact ⟨hz .spEcdh, fun e => (h.spOff e).1⟩
    | spDleq => exact ⟨hz .spDleq, fun e => (h.spOff e).2⟩
    | proprietary => exact ⟨hz .proprietary, fun k v e => (propFits_iff k).mpr (h.props k v e)⟩
    | unsignedTx => rfl
    | unknown => exact ⟨hz .unknown, fun k v e => (glSlot_unknown _ _).mpr (h.unknowns k v e)⟩
    | _ => exact hz _
  · rintro ⟨h, h3⟩
    refine ⟨?_, hsz.mpr ?_, fun k v e => (propFits_iff k).mp ((h .proprietary).2 k v e),
      fun k v e => (glSlot_unknown _ _).mp ((h .unknown).2 k v e),
      fun e => ⟨(h .spEcdh).2 e, (h .spDleq).2 e⟩, h3⟩
    · have : g.version = V2 := (h .version).2 g.version rfl
      rw [this]; rfl
    · intro s
      have hs := h s
      cases s with
      | version => exact hs.1
      | spEcdh => exact hs.1
      | spDleq => exact hs.1
      | proprietary => exact hs.1
      | unknown => exact hs.1
      | unsignedTx => intro p hp; cases hp
      | _ => exact hs

theorem Global.wf_of_decode {L : Lib} {b r : Bytes} {g : Global L} (h : Global.decode L b = .ok (g, r)) :
    Spec.GlobalWF g := by
  rw [Global.decode_ok] at h
  obtain ⟨ps, a, _, h2, h3, h4⟩ := h
  rw [global_wf_iff]
  rw [gl_ins] at h3
  have hi := (glSys L).inv (gl_lawful L) h2 h3
  rw [GlobalAcc.finish_ok] at h4
  refine ⟨?_, h4.2⟩
  rcases h4.1 with h5 | ⟨h5, h6⟩
  · rw [h5] at hi; exact hi
  · rw [h5] at hi
    intro s
    cases s with
    | txModifiable =>
      intro p hp
      simp only [accOf, glGet, glEmit, emitOpt, List.mem_singleton] at hp
      subst hp
      exact pairFits_bare_short _ (by simp [flagCodec])
    | version => exact hi .version
    | txVersion => exact hi .txVersion
    | fallback => exact hi .fallback
    | counts => exact hi .counts
    | xpub => exact hi .xpub
    | spEcdh => exact hi .spEcdh
    | spDleq => exact hi .spDleq
    | proprietary => exact hi .proprietary
    | unsignedTx => exact hi .unsignedTx
    | unknown => exact hi .unknown

theorem Global.rt {L : Lib} {g : Global L} (h : Spec.GlobalWF g) (r : Bytes) :
    Global.decode L (serializeMap g.getPairs ++ r) = .ok (g, r) := by
  rw [Global.decode_ok]
  have hw := (global_wf_iff g).mp h
  refine ⟨g.getPairs, accOf g, serializeMap_append _ _, ?_, ?_, GlobalAcc.finish_ok.mpr ⟨.inl rfl, hw.2⟩⟩
  · rw [gl_pairs]
    exact (glSys L).fits (gl_lawful L) hw.1
  · rw [gl_pairs, gl_ins]
    exact (glSys L).rt glOrder_nodup mem_glOrder (gl_lawful L) hw.1

/-! ### The complete PSBT -/

theorem decodeN_enc {ε α : Type} {dec : Bytes → Except ε (α × Bytes)} {enc : α → Bytes} {l : List α}
    (h : ∀ a ∈ l, ∀ r, dec (enc a ++ r) = .ok (a, r)) (r : Bytes) :
    decodeN dec l.length (l.flatMap enc ++ r) = .ok (l, r) := by
  induction l with
  | nil => rfl
  | cons a l ih =>
    simp only [List.flatMap_cons, List.append_assoc, List.length_cons, decodeN]
    rw [h a (by simp)]
    simp only [ok_bind]
    rw [ih (fun b hb => h b (by simp [hb]))]
    rfl

theorem decodeN_ok {ε α : Type} {dec : Bytes → Except ε (α × Bytes)} {P : α → Prop}
    (h : ∀ b a r, dec b = .ok (a, r) → P a) {n : Nat} {b r : Bytes} {l : List α}
    (e : decodeN dec n b = .ok (l, r)) : l.length = n ∧ ∀ a ∈ l, P a := by
  induction n generalizing b l with
  | zero => cases e; simp
  | succ n ih =>
    simp only [decodeN, bind_ok] at e
    obtain ⟨⟨a, r1⟩, h1, ⟨as, r2⟩, h2, h3⟩ := e
    cases h3
    obtain ⟨h4, h5⟩ := ih h2
    refine ⟨by simp [h4], ?_⟩
    intro x hx
    rcases List.mem_cons.mp hx with hx | hx
    · rw [hx]; exact h _ _ _ h1
    · exact h5 x hx

theorem orFail_ok {ε ε' α : Type} {f : ε → ε'} {r : Except ε α} {a : α} : orFail f r = .ok a ↔ r = .ok a := by
  cases r <;> simp [orFail, mapErr]

theorem capacityOverflow_iff (n s : Nat) : capacityOverflow n s = true ↔ ¬ n * s < 2 ^ 63 := by
  unfold capacityOverflow ISIZE_MAX
  rw [decide_eq_true_iff]
  generalize n * s = k
  omega

theorem deserialize_ok {L : Lib} {b : Bytes} {p : Psbt L} :
    Psbt.deserialize L b = .ok p ↔
      ∃ d r1 r2 r3, b = MAGIC ++ 0xff :: d ∧ Global.decode L d = .ok (p.global, r1) ∧
        p.global.inputCount.toNat * L.inputSize < 2 ^ 63 ∧
        decodeN (Input.decode L) p.global.inputCount.toNat r1 = .ok (p.inputs, r2) ∧
        p.global.outputCount.toNat * L.outputSize < 2 ^ 63 ∧
        decodeN (Output.decode L) p.global.outputCount.toNat r2 = .ok (p.outputs, r3) := by
  unfold Psbt.deserialize
  constructor
  · intro h
    split at h
    · cases h
    · rename_i hm
      split at h
      · cases h
      · rename_i hs
        simp only [ne_eq, Decidable.not_not] at hm hs
        simp only [bind_ok, orFail_ok] at h
        obtain ⟨⟨g, r1⟩, h1, h2⟩ := h
        simp only at h2
        split at h2
        · cases h2
        · rename_i hc1
          simp only [bind_ok, orFail_ok] at h2
          obtain ⟨⟨is, r2⟩, h3, h4⟩ := h2
          simp only at h4
          split at h4
          · cases h4
          · rename_i hc2
            simp only [bind_ok, orFail_ok] at h4
            obtain ⟨⟨os, r3⟩, h5, h6⟩ := h4
            cases h6
            rw [capacityOverflow_iff, Classical.not_not] at hc1 hc2
            refine ⟨b.drop 5, r1, r2, r3, ?_, h1, hc1, h3, hc2, h5⟩
            rw [← hm]
            rw [List.getElem?_eq_some_iff] at hs
            obtain ⟨hl, hs⟩ := hs
            rw [← hs]
            rw [List.getElem_cons_drop]
            simp
  · rintro ⟨d, r1, r2, r3, rfl, h1, hc1, h3, hc2, h5⟩
    rw [if_neg (by simp [MAGIC]), if_neg (by simp [MAGIC])]
    have hd : (MAGIC ++ 0xff :: d).drop 5 = d := rfl
    have n1 : ¬ capacityOverflow p.global.inputCount.toNat L.inputSize = true := by
      rw [capacityOverflow_iff, Classical.not_not]; exact hc1
    have n2 : ¬ capacityOverflow p.global.outputCount.toNat L.outputSize = true := by
      rw [capacityOverflow_iff, Classical.not_not]; exact hc2
    rw [hd, orFail_ok.mpr h1]
    simp only [ok_bind, if_neg n1, orFail_ok.mpr h3, if_neg n2, orFail_ok.mpr h5]

theorem wf_of_deserialize {L : Lib} {b : Bytes} {p : Psbt L} (h : Psbt.deserialize L b = .ok p) : Spec.WF p := by
  rw [deserialize_ok] at h
  obtain ⟨d, r1, r2, r3, rfl, h1, hc1, h3, hc2, h5⟩ := h
  obtain ⟨l1, w1⟩ := decodeN_ok (fun _ _ _ => Input.wf_of_decode) h3
  obtain ⟨l2, w2⟩ := decodeN_ok (fun _ _ _ => Output.wf_of_decode) h5
  exact ⟨Global.wf_of_decode h1, w1, w2, l1.symm, l2.symm, by rw [l1]; exact hc1, by rw [l2]; exact hc2⟩

theorem deserialize_serialize_append {L : Lib} {p : Psbt L} (h : Spec.WF p) (r : Bytes) :
    Psbt.deserialize L (p.serialize ++ r) = .ok p := by
  rw [deserialize_ok]
  refine ⟨serializeMap p.global.getPairs ++ (p.inputs.flatMap (fun i => serializeMap i.getPairs) ++
    (p.outputs.flatMap (fun o => serializeMap o.getPairs) ++ r)), _,
    p.outputs.flatMap (fun o => serializeMap o.getPairs) ++ r, r, ?_, Global.rt h.global _, ?_, ?_, ?_, ?_⟩
  · simp [Psbt.serialize, List.append_assoc]
  · rw [h.inputCount]; exact h.inputMem
  · rw [h.inputCount]
    exact decodeN_enc (fun i hi r => Input.rt (h.inputs i hi) r) _
  · rw [h.outputCount]; exact h.outputMem
  · rw [h.outputCount]
    exact decodeN_enc (fun i hi r => Output.rt (h.outputs i hi) r) _

end Psbt.V2
