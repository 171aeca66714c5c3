/-
From pairs to maps and from maps to PSBTs: every error of the parsers is a justified complaint, or one of those known to be
untrue.
-/
import Verif.Lemmas.RefusedTables0
namespace Psbt
open Spec

theorem fault_mono {ε : Type} {f : Field ε} {qs ps : List Pair} {p : Pair} {e : ε} (h : f.Fault qs p e)
    (hs : ∀ q ∈ qs, q ∈ ps) : f.Fault ps p e := by
  rcases h with h | ⟨q, hq, h⟩ | h
  · exact .inl h
  · exact .inr (.inl ⟨q, hs q hq, h⟩)
  · exact .inr (.inr h)

theorem sys_explained {M S ε : Type} [DecidableEq S] (Y : SlotSys M S ε) {ps : List Pair} {m0 m : M} {p : Pair} {e : ε}
    {P : List Pair → Pair → ε → Prop} (mono : ∀ qs ps p e, (∀ q ∈ qs, q ∈ ps) → P qs p e → P ps p e)
    (hx : ∀ s, Explains (fun q => Y.slotOf q = s) (Y.step s) (Y.get s m0) P) (hf : ps.foldlM Y.ins m0 = .ok m) (ho : PairOk p)
    (h : Y.ins m p = .error e) : P ps p e := by
  rw [Y.foldlM_iff] at hf
  unfold SlotSys.ins at h
  rw [bind_err] at h
  rcases h with h | ⟨_, _, h⟩
  · exact mono _ _ _ _ (fun q hq => (Y.mem_ofSlot.mp hq).1)
      (hx (Y.slotOf p) (Y.ofSlot (Y.slotOf p) ps) _ p e (Y.slot_ofSlot _ ps) rfl ho (hf _) h)
  · cases h

theorem pairsBytes_fun (ps : List Pair) : pairsBytes ps = ps.flatMap encPair := by
  unfold pairsBytes
  simp only [pairBytes_encPair]

/-- A map that cannot be read: at a pair, or at a tear. -/
theorem map_explained {M S ε E : Type} [DecidableEq S] (Y : SlotSys M S ε) {refused : ε → E} {torn : SerErr → E} {m0 : M}
    {ins : M → Pair → Except E M} (hi : ∀ m p, ins m p = mapErr refused (Y.ins m p))
    {P : List Pair → Pair → ε → Prop} (mono : ∀ qs ps p e, (∀ q ∈ qs, q ∈ ps) → P qs p e → P ps p e)
    (hx : ∀ s, Explains (fun q => Y.slotOf q = s) (Y.step s) (Y.get s m0) P) {b : Bytes} {e : E}
    (h : decodeMap ins torn m0 b = .error e) :
    (∃ ps p r x, b = pairsBytes ps ++ (pairBytes p.key.ty p.key.key p.value ++ r) ∧ (∀ q ∈ ps, PairOk q) ∧ PairOk p ∧
      P ps p x ∧ e = refused x) ∨ AtTear torn b e := by
  have hi' : ins = fun m p => mapErr refused (Y.ins m p) := by funext m p; exact hi m p
  obtain ⟨ps, m, r, rfl, h2, h3, h4⟩ := decodeMap_err h
  have ho : ∀ q ∈ ps, PairOk q := fun q hq => (pairFits_iff q).mp (h2 q hq)
  rcases h4 with ⟨p, r', rfl, h5, h6⟩ | ⟨c, h5, h6⟩
  · left
    rw [hi'] at h3 h6
    rw [foldlM_mapErr] at h3
    obtain ⟨x, h7, rfl⟩ := mapErr_err.mp h6
    exact ⟨ps, p, r', x, by rw [pairsBytes_fun, pairBytes_encPair], ho, (pairFits_iff p).mp h5,
      sys_explained Y mono hx h3 ((pairFits_iff p).mp h5) h7, rfl⟩
  · right
    exact ⟨ps, r, c, by rw [pairsBytes_fun], ho, h5, h6⟩

/-- A map that can be read. -/
theorem map_read {M S ε E : Type} [DecidableEq S] (Y : SlotSys M S ε) {refused : ε → E} {torn : SerErr → E} {m0 m : M}
    {ins : M → Pair → Except E M} (hi : ∀ m p, ins m p = mapErr refused (Y.ins m p)) {b r : Bytes}
    (h : decodeMap ins torn m0 b = .ok (m, r)) :
    ∃ ps, b = mapBytes ps ++ r ∧ (∀ q ∈ ps, PairOk q) ∧ ∀ s, (Y.ofSlot s ps).foldlM (Y.step s) (Y.get s m0) = .ok (Y.get s m) := by
  have hi' : ins = fun m p => mapErr refused (Y.ins m p) := by funext m p; exact hi m p
  obtain ⟨ps, h1, h2, h3⟩ := decodeMap_ok.mp h
  rw [hi', foldlM_mapErr, Y.foldlM_iff] at h3
  exact ⟨ps, by rw [mapBytes_fun, serializeMap_append]; exact h1, fun q hq => (pairFits_iff q).mp (h2 q hq), h3⟩

section
variable {M S ε : Type} [DecidableEq S] (Y : SlotSys M S ε) {s : S} {ps : List Pair} {t : UInt8}

theorem ofSlot_has (ht : ∀ p : Pair, Y.slotOf p = s ↔ p.key.ty = t) : Has t ps ↔ Y.ofSlot s ps ≠ [] := by
  constructor
  · rintro ⟨p, hp, h⟩ h0
    have : p ∈ Y.ofSlot s ps := Y.mem_ofSlot.mpr ⟨hp, (ht p).mpr h⟩
    rw [h0] at this; cases this
  · intro h
    obtain ⟨p, hp⟩ := List.exists_mem_of_ne_nil _ h
    have := Y.mem_ofSlot.mp hp
    exact ⟨p, this.1, (ht p).mp this.2⟩

theorem opt_has {α : Type} {isSlot : Pair → Prop} {step : Option α → Pair → Except ε (Option α)} {parse : Pair → Option α}
    (hi : IsOpt isSlot step parse) {qs : List Pair} {o : Option α} (hq : ∀ q ∈ qs, isSlot q) (hf : qs.foldlM step none = .ok o) :
    qs = [] ↔ o = none := by
  rcases hi.fold hq hf with ⟨h1, h2⟩ | ⟨q, v, h1, _, h2⟩
  · simp [h1, h2]
  · simp [h1, h2]

theorem keyed_has {K V : Type} [OrdKey K] [DecidableEq K] {isSlot : Pair → Prop} {step : BMap K V → Pair → Except ε (BMap K V)}
    {parse : Pair → Option (K × V)} (hi : IsKeyed isSlot step parse) {qs : List Pair} {m : BMap K V} (hq : ∀ q ∈ qs, isSlot q)
    (hf : qs.foldlM step BMap.empty = .ok m) : qs = [] ↔ m.isEmpty = true := by
  rw [BMap.isEmpty_iff]
  constructor
  · rintro rfl; cases hf; rfl
  · rintro rfl
    cases qs with
    | nil => rfl
    | cons q qs =>
      obtain ⟨k, v, _, h⟩ := hi.get_of_mem hq hf (List.mem_cons_self)
      simp at h

end

theorem not_iff_of_ne {a b : Bool} {A B : Prop} (ha : ¬ A ↔ a = true) (hb : ¬ B ↔ b = true) (h : a ≠ b) : ¬ (A ↔ B) := by
  intro hab
  apply h
  have : (a = true) ↔ (b = true) := ha.symm.trans ((not_congr hab).trans hb)
  cases a <;> cases b <;> simp_all

namespace V2

theorem either_mono {field mis : UInt8 → Field InsErr} (qs ps : List Pair) (p : Pair) (e : InsErr) (hs : ∀ q ∈ qs, q ∈ ps)
    (h : Either field mis qs p e) : Either field mis ps p e :=
  h.imp (fun h => fault_mono h hs) (fun h => fault_mono h hs)

theorem either_at {field mis : UInt8 → Field InsErr} {refused : InsErr → DecErr} {b : Bytes} {e : DecErr}
    (h : ∃ ps p r x, b = pairsBytes ps ++ (pairBytes p.key.ty p.key.key p.value ++ r) ∧ (∀ q ∈ ps, PairOk q) ∧ PairOk p ∧
      Either field mis ps p x ∧ e = refused x) : AtPair field refused b e ∨ AtPair mis refused b e := by
  obtain ⟨ps, p, r, x, h1, h2, h3, h4, h5⟩ := h
  rcases h4 with h4 | h4
  · exact .inl ⟨ps, p, r, x, h1, h2, h3, h4, h5⟩
  · exact .inr ⟨ps, p, r, x, h1, h2, h3, h4, h5⟩

theorem gl_ty_version (L : Lib) (x : UInt8) : glSlot L.sp x = .version ↔ x = 0xFB := by
  generalize L.sp = sp; revert x; cases sp <;> exact forall_u8 (by decide +kernel)
theorem gl_ty_txVersion (L : Lib) (x : UInt8) : glSlot L.sp x = .txVersion ↔ x = 0x02 := by
  generalize L.sp = sp; revert x; cases sp <;> exact forall_u8 (by decide +kernel)
theorem gl_ty_counts (L : Lib) (x : UInt8) (h : glSlot L.sp x = .counts) : x = 0x04 ∨ x = 0x05 := by
  revert h; generalize L.sp = sp; revert x; cases sp <;> exact forall_u8 (by decide +kernel)
theorem gl_ty_counts' (L : Lib) (x : UInt8) (h : x = 0x04 ∨ x = 0x05) : glSlot L.sp x = .counts := by
  revert h; generalize L.sp = sp; revert x; cases sp <;> exact forall_u8 (by decide +kernel)
theorem gl_ty_ecdh (L : Lib) (h : L.sp = true) (x : UInt8) : glSlot L.sp x = .spEcdh ↔ x = 0x07 := by
  rw [h]; revert x; exact forall_u8 (by decide +kernel)
theorem gl_ty_dleq (L : Lib) (h : L.sp = true) (x : UInt8) : glSlot L.sp x = .spDleq ↔ x = 0x08 := by
  rw [h]; revert x; exact forall_u8 (by decide +kernel)
theorem in_ty_txid (L : Lib) (x : UInt8) : inSlot L.sp x = .previousTxid ↔ x = 0x0e := by
  generalize L.sp = sp; revert x; cases sp <;> exact forall_u8 (by decide +kernel)
theorem in_ty_vout (L : Lib) (x : UInt8) : inSlot L.sp x = .outputIndex ↔ x = 0x0f := by
  generalize L.sp = sp; revert x; cases sp <;> exact forall_u8 (by decide +kernel)
theorem in_ty_ecdh (L : Lib) (h : L.sp = true) (x : UInt8) : inSlot L.sp x = .spEcdh ↔ x = 0x1d := by
  rw [h]; revert x; exact forall_u8 (by decide +kernel)
theorem in_ty_dleq (L : Lib) (h : L.sp = true) (x : UInt8) : inSlot L.sp x = .spDleq ↔ x = 0x1e := by
  rw [h]; revert x; exact forall_u8 (by decide +kernel)
theorem out_ty_amount (L : Lib) (x : UInt8) : outSlot L.sp x = .amount ↔ x = 0x03 := by
  generalize L.sp = sp; revert x; cases sp <;> exact forall_u8 (by decide +kernel)
theorem out_ty_script (L : Lib) (x : UInt8) : outSlot L.sp x = .script ↔ x = 0x04 := by
  generalize L.sp = sp; revert x; cases sp <;> exact forall_u8 (by decide +kernel)
theorem out_ty_info (L : Lib) (h : L.sp = true) (x : UInt8) : outSlot L.sp x = .spInfo ↔ x = 0x09 := by
  rw [h]; revert x; exact forall_u8 (by decide +kernel)
theorem out_ty_label (L : Lib) (h : L.sp = true) (x : UInt8) : outSlot L.sp x = .spLabel ↔ x = 0x0a := by
  rw [h]; revert x; exact forall_u8 (by decide +kernel)

theorem global_explained {L : Lib} {b : Bytes} {e : DecErr} (h : Global.decode L b = .error e) :
    MapFault (global2 L) .insertPair .deserPair (globalEnd2 L) b e ∨ AtPair (globalMisled L) .insertPair b e := by
  have hi : ∀ (m : GlobalAcc L) p, mapErr DecErr.insertPair (GlobalAcc.insertPair m p) = mapErr .insertPair ((glSys L).ins m p) := by
    intro m p; rw [gl_ins]
  unfold Global.decode at h
  rw [bind_err] at h
  rcases h with h | ⟨⟨a, r⟩, h1, h⟩
  · rcases map_explained (glSys L) hi either_mono (gl_explains L) h with h | h
    · rcases either_at h with h | h
      · exact .inl (.inl h)
      · exact .inr h
    · exact .inl (.inr (.inl h))
  · obtain ⟨ps, rfl, ho, hf⟩ := map_read (glSys L) hi h1
    left; right; right
    refine ⟨ps, r, rfl, ho, ?_⟩
    have hs := fun s => (glSys L).slot_ofSlot s ps
    simp only at h
    rw [bind_err] at h
    rcases h with h | ⟨_, _, h⟩
    · unfold GlobalAcc.finish at h
      rw [bind_err] at h
      rcases h with h | ⟨_, _, h⟩
      · obtain ⟨h2, rfl⟩ := okOr_err.mp h
        left
        refine ⟨fun hh => ?_, rfl⟩
        rw [ofSlot_has (glSys L) (s := .version) (fun p => gl_ty_version L p.key.ty)] at hh
        exact hh ((opt_has (isOpt_version _) (hs .version) (hf .version)).mpr h2)
      rw [bind_err] at h
      rcases h with h | ⟨_, _, h⟩
      · obtain ⟨h2, rfl⟩ := okOr_err.mp h
        right; left
        refine ⟨fun hh => ?_, rfl⟩
        rw [ofSlot_has (glSys L) (s := .txVersion) (fun p => gl_ty_txVersion L p.key.ty)] at hh
        exact hh ((opt_has (isOpt_fixed 4 decU32 _) (hs .txVersion) (hf .txVersion)).mpr h2)
      have hc := counts_before (hf .counts) (fun q hq => gl_ty_counts L _ (hs .counts q hq))
      have hmem : ∀ p ∈ ps, (p.key.ty = 0x04 ∨ p.key.ty = 0x05) → p ∈ (glSys L).ofSlot .counts ps := fun p hp h =>
        (glSys L).mem_ofSlot.mpr ⟨hp, gl_ty_counts' L _ h⟩
      rw [bind_err] at h
      rcases h with h | ⟨_, _, h⟩
      · obtain ⟨h2, rfl⟩ := okOr_err.mp h
        right; right; left
        exact ⟨fun ⟨p, hp, h⟩ => (hc.2.2.1 h2).2 p (hmem p hp (.inl h)) h, rfl⟩
      rw [bind_err] at h
      rcases h with h | ⟨_, _, h⟩
      · obtain ⟨h2, rfl⟩ := okOr_err.mp h
        right; right; right; left
        exact ⟨fun ⟨p, hp, h⟩ => (hc.2.2.2 h2).2 p (hmem p hp (.inr h)) h, rfl⟩
      split at h
      · rename_i hsp
        cases h
        right; right; right; right
        refine ⟨hsp.1, not_iff_of_ne ?_ ?_ hsp.2, rfl⟩
        · rw [ofSlot_has (glSys L) (s := .spEcdh) (fun p => gl_ty_ecdh L hsp.1 p.key.ty), Decidable.not_not]
          exact keyed_has (isKeyed_insSp L L.compressed.parse 33 _) (hs .spEcdh) (hf .spEcdh)
        · rw [ofSlot_has (glSys L) (s := .spDleq) (fun p => gl_ty_dleq L hsp.1 p.key.ty), Decidable.not_not]
          exact keyed_has (isKeyed_insSp L dleq? 64 _) (hs .spDleq) (hf .spDleq)
      · cases h
    · cases h

theorem input_explained {L : Lib} {b : Bytes} {e : DecErr} (h : Input.decode L b = .error e) :
    MapFault (input2 L) .insertPair .deserPair (inputEnd2 L) b e ∨
      (AtPair (inputMisled L) .insertPair b e ∨ AtEnd inputEndMisled b e) := by
  have hi : ∀ (m : Input L) p, mapErr DecErr.insertPair (Input.insertPair m p) = mapErr .insertPair ((inSys L).ins m p) := by
    intro m p; rw [in_ins]
  unfold Input.decode at h
  rw [bind_err] at h
  rcases h with h | ⟨⟨a, r⟩, h1, h⟩
  · rcases map_explained (inSys L) hi either_mono (in_explains L) h with h | h
    · rcases either_at h with h | h
      · exact .inl (.inl h)
      · exact .inr (.inl h)
    · exact .inl (.inr (.inl h))
  · obtain ⟨ps, rfl, ho, hf⟩ := map_read (inSys L) hi h1
    have hs := fun s => (inSys L).slot_ofSlot s ps
    simp only at h
    split at h
    · rename_i hz
      cases h
      have hh := ofSlot_has (inSys L) (ps := ps) (s := .previousTxid) (fun p => in_ty_txid L p.key.ty)
      rcases (isSentinel_txid _).fold (hs .previousTxid) (hf .previousTxid) with ⟨h2, _⟩ | ⟨qs, q, h2, h3, _⟩
      · exact .inl (.inr (.inr ⟨ps, r, rfl, ho, .inl ⟨fun h => hh.mp h h2, rfl⟩⟩))
      · have hq : q ∈ (inSys L).ofSlot .previousTxid ps := by rw [h2]; simp
        refine .inr (.inr ⟨ps, r, rfl, ho, .inl ⟨⟨q, ((inSys L).mem_ofSlot.mp hq).1, (in_ty_txid L _).mp (hs _ q hq), ?_⟩, rfl⟩⟩)
        have h4 := hashCodec_deser_ok.mp (parseVal_some.mp h3)
        exact h4.trans (congrArg Subtype.val hz)
    · split at h
      · rename_i hz
        cases h
        have hh := ofSlot_has (inSys L) (ps := ps) (s := .outputIndex) (fun p => in_ty_vout L p.key.ty)
        rcases (isSentinel_vout _).fold (hs .outputIndex) (hf .outputIndex) with ⟨h2, _⟩ | ⟨qs, q, h2, h3, _⟩
        · exact .inl (.inr (.inr ⟨ps, r, rfl, ho, .inr (.inl ⟨fun h => hh.mp h h2, rfl⟩)⟩))
        · have hq : q ∈ (inSys L).ofSlot .outputIndex ps := by rw [h2]; simp
          refine .inr (.inr ⟨ps, r, rfl, ho, .inr ⟨⟨q, ((inSys L).mem_ofSlot.mp hq).1, (in_ty_vout L _).mp (hs _ q hq), ?_⟩, rfl⟩⟩)
          have h4 := u32Codec_exact (parseVal_some.mp h3)
          rw [h4, show (inSys L).get .outputIndex a = U32_MAX from hz]
          decide
      · split at h
        · rename_i hsp
          cases h
          refine .inl (.inr (.inr ⟨ps, r, rfl, ho, .inr (.inr ⟨hsp.1, not_iff_of_ne ?_ ?_ hsp.2, rfl⟩)⟩))
          · rw [ofSlot_has (inSys L) (s := .spEcdh) (fun p => in_ty_ecdh L hsp.1 p.key.ty), Decidable.not_not]
            exact keyed_has (isKeyed_insSp L L.compressed.parse 33 _) (hs .spEcdh) (hf .spEcdh)
          · rw [ofSlot_has (inSys L) (s := .spDleq) (fun p => in_ty_dleq L hsp.1 p.key.ty), Decidable.not_not]
            exact keyed_has (isKeyed_insSp L dleq? 64 _) (hs .spDleq) (hf .spDleq)
        · cases h

theorem output_explained {L : Lib} {b : Bytes} {e : DecErr} (h : Output.decode L b = .error e) :
    MapFault (output2 L) .insertPair .deserPair (outputEnd2 L) b e ∨
      (AtPair (outputMisled L) .insertPair b e ∨ AtEnd outputEndMisled b e) := by
  have hi : ∀ (m : Output L) p, mapErr DecErr.insertPair (Output.insertPair m p) = mapErr .insertPair ((outSys L).ins m p) := by
    intro m p; rw [out_ins]
  unfold Output.decode at h
  rw [bind_err] at h
  rcases h with h | ⟨⟨a, r⟩, h1, h⟩
  · rcases map_explained (outSys L) hi either_mono (out_explains L) h with h | h
    · rcases either_at h with h | h
      · exact .inl (.inl h)
      · exact .inr (.inl h)
    · exact .inl (.inr (.inl h))
  · obtain ⟨ps, rfl, ho, hf⟩ := map_read (outSys L) hi h1
    have hs := fun s => (outSys L).slot_ofSlot s ps
    simp only at h
    split at h
    · rename_i hz
      cases h
      have hh := ofSlot_has (outSys L) (ps := ps) (s := .amount) (fun p => out_ty_amount L p.key.ty)
      rcases (isSentinel_amount _).fold (hs .amount) (hf .amount) with ⟨h2, _⟩ | ⟨qs, q, h2, h3, _⟩
      · exact .inl (.inr (.inr ⟨ps, r, rfl, ho, .inl ⟨fun h => hh.mp h h2, rfl⟩⟩))
      · have hq : q ∈ (outSys L).ofSlot .amount ps := by rw [h2]; simp
        refine .inr (.inr ⟨ps, r, rfl, ho, .inl ⟨⟨q, ((outSys L).mem_ofSlot.mp hq).1, (out_ty_amount L _).mp (hs _ q hq), ?_⟩, rfl⟩⟩)
        have h4 := amountCodec_exact (parseVal_some.mp h3)
        rw [h4, show (outSys L).get .amount a = (0 : UInt64) from hz]
        decide
    · split at h
      · rename_i hz
        cases h
        have hh := ofSlot_has (outSys L) (ps := ps) (s := .script) (fun p => out_ty_script L p.key.ty)
        rcases (isSentinel_spk _).fold (hs .script) (hf .script) with ⟨h2, _⟩ | ⟨qs, q, h2, h3, _⟩
        · exact .inl (.inr (.inr ⟨ps, r, rfl, ho, .inr (.inl ⟨hz.1, fun h => hh.mp h h2, rfl⟩)⟩))
        · have hq : q ∈ (outSys L).ofSlot .script ps := by rw [h2]; simp
          refine .inr (.inr ⟨ps, r, rfl, ho, .inr ⟨⟨q, ((outSys L).mem_ofSlot.mp hq).1, (out_ty_script L _).mp (hs _ q hq), ?_⟩, rfl⟩⟩)
          have h4 := parseVal_some.mp h3
          have h5 : q.value = a.scriptPubkey := by injection h4
          exact h5.trans hz.2
      · split at h
        · rename_i hsp
          cases h
          obtain ⟨h2, h3, h4⟩ := hsp
          refine .inl (.inr (.inr ⟨ps, r, rfl, ho, .inr (.inr ⟨h2, ?_, ?_, rfl⟩)⟩))
          · rw [ofSlot_has (outSys L) (s := .spLabel) (fun p => out_ty_label L h2 p.key.ty)]
            intro h0
            have := (opt_has (isOpt_label _) (hs .spLabel) (hf .spLabel)).mp h0
            rw [show a.spV0Label = none from this] at h3
            cases h3
          · rw [ofSlot_has (outSys L) (s := .spInfo) (fun p => out_ty_info L h2 p.key.ty), Decidable.not_not]
            refine (opt_has (isOpt_info _) (hs .spInfo) (hf .spInfo)).mpr ?_
            exact Option.isNone_iff_eq_none.mp h4
        · cases h

/-- Several maps, of which one cannot be read. -/
theorem decodeN_err {ε α : Type} {dec : Bytes → Except ε (α × Bytes)}
    (hd : ∀ b a r, dec b = .ok (a, r) → ∃ ps : List Pair, b = serializeMap ps ++ r ∧ (∀ p ∈ ps, PairFits p) ∧
      ∀ r', dec (serializeMap ps ++ r') = .ok (a, r')) {n : Nat} {b : Bytes} {e : ε} (h : decodeN dec n b = .error e) :
    ∃ (pss : List (List Pair)) (d : Bytes), b = pss.flatMap mapBytes ++ d ∧ (∀ ps ∈ pss, ∀ q ∈ ps, PairOk q) ∧
      pss.length < n ∧ dec d = .error e := by
  induction n generalizing b with
  | zero => cases h
  | succ n ih =>
    simp only [decodeN] at h
    rw [bind_err] at h
    rcases h with h | ⟨⟨a, r⟩, h1, h⟩
    · exact ⟨[], b, by simp, by simp, by simp, h⟩
    · simp only at h
      rw [bind_err] at h
      rcases h with h | ⟨_, _, h⟩
      · obtain ⟨ps, h2, h3, _⟩ := hd _ _ _ h1
        obtain ⟨pss, d, h4, h5, h6, h7⟩ := ih h
        refine ⟨ps :: pss, d, ?_, ?_, by simp; omega, h7⟩
        · rw [h2, h4, List.flatMap_cons, List.append_assoc, mapBytes_fun]
        · intro qs hq q hq'
          rcases List.mem_cons.mp hq with rfl | hq
          · exact (pairFits_iff q).mp (h3 q hq')
          · exact h5 qs hq q hq'
      · cases h

/-- Several maps that can be read. -/
theorem decodeN_read {ε α : Type} {dec : Bytes → Except ε (α × Bytes)}
    (hd : ∀ b a r, dec b = .ok (a, r) → ∃ ps : List Pair, b = serializeMap ps ++ r ∧ (∀ p ∈ ps, PairFits p) ∧
      ∀ r', dec (serializeMap ps ++ r') = .ok (a, r')) {n : Nat} {b r : Bytes} {l : List α} (h : decodeN dec n b = .ok (l, r)) :
    ∃ (pss : List (List Pair)), b = pss.flatMap mapBytes ++ r ∧ (∀ ps ∈ pss, ∀ q ∈ ps, PairOk q) ∧ pss.length = n := by
  induction n generalizing b l with
  | zero => cases h; exact ⟨[], by simp, by simp, rfl⟩
  | succ n ih =>
    simp only [decodeN, bind_ok] at h
    obtain ⟨⟨a, r1⟩, h1, ⟨as, r2⟩, h2, h3⟩ := h
    cases h3
    obtain ⟨ps, h4, h5, _⟩ := hd _ _ _ h1
    obtain ⟨pss, h6, h7, h8⟩ := ih h2
    refine ⟨ps :: pss, ?_, ?_, by simp [h8]⟩
    · simp only at h6
      rw [h4, h6, List.flatMap_cons, List.append_assoc, mapBytes_fun]
    · intro qs hq q hq'
      rcases List.mem_cons.mp hq with rfl | hq
      · exact (pairFits_iff q).mp (h5 q hq')
      · exact h7 qs hq q hq'

theorem orFail_err {ε ε' α : Type} {f : ε → ε'} {x : Except ε α} {e : ε'} :
    orFail f x = .error (.err e) ↔ ∃ e', x = .error e' ∧ e = f e' := by
  unfold orFail
  rw [mapErr_err]
  constructor
  · rintro ⟨e', h1, h2⟩; exact ⟨e', h1, by injection h2⟩
  · rintro ⟨e', h1, rfl⟩; exact ⟨e', h1, rfl⟩

/-- The numbers of inputs and outputs of a global map that has been read. -/
theorem global_counts {L : Lib} {b r : Bytes} {g : Global L} (h : Global.decode L b = .ok (g, r)) :
    ∃ ps, b = mapBytes ps ++ r ∧ (∀ q ∈ ps, PairOk q) ∧ Announces 0x04 ps g.inputCount.toNat ∧ Announces 0x05 ps g.outputCount.toNat := by
  rw [Global.decode_ok] at h
  obtain ⟨ps, a, h1, h2, h3, h4⟩ := h
  refine ⟨ps, by rw [mapBytes_fun, serializeMap_append]; exact h1, fun q hq => (pairFits_iff q).mp (h2 q hq), ?_⟩
  rw [gl_ins, (glSys L).foldlM_iff] at h3
  have hc := counts_before (h3 .counts) (fun q hq => gl_ty_counts L _ ((glSys L).slot_ofSlot .counts ps q hq))
  have key : a.counts.1 = some g.inputCount ∧ a.counts.2 = some g.outputCount := by
    unfold GlobalAcc.finish at h4
    simp only [bind_ok] at h4
    obtain ⟨_, _, _, _, c1, g1, c2, g2, h5⟩ := h4
    split at h5
    · cases h5
    · cases h5
      exact ⟨okOr_ok.mp g1, okOr_ok.mp g2⟩
  constructor
  · rcases hc.1 _ key.1 with h | ⟨q, hq, h⟩
    · cases h
    · exact ⟨q, ((glSys L).mem_ofSlot.mp hq).1, h⟩
  · rcases hc.2.1 _ key.2 with h | ⟨q, hq, h⟩
    · cases h
    · exact ⟨q, ((glSys L).mem_ofSlot.mp hq).1, h⟩

theorem head_of {b : Bytes} (h1 : b.take 4 = MAGIC) (h2 : b[4]? = some 0xff) : b = HEAD ++ b.drop 5 := by
  match b, h1, h2 with
  | a :: b :: c :: d :: e :: r, h1, h2 =>
    simp only [List.take_succ_cons, List.take_zero, MAGIC, List.cons.injEq, and_true] at h1
    simp at h2
    obtain ⟨rfl, rfl, rfl, rfl⟩ := h1
    subst h2
    rfl
  | [], h1, _ => simp [MAGIC] at h1
  | [_], h1, _ => simp [MAGIC] at h1
  | [_, _], h1, _ => simp [MAGIC] at h1
  | [_, _, _], h1, _ => simp [MAGIC] at h1
  | [_, _, _, _], _, h2 => simp at h2

theorem psbt_explained {L : Lib} {b : Bytes} {e : DeserErr} (h : Psbt.deserialize L b = .error (.err e)) :
    Fault2 L b e ∨ Misled2 L b e := by
  unfold Psbt.deserialize at h
  split at h
  · rename_i h1; cases h; exact .inl (.magic h1)
  · rename_i h1
    simp only [ne_eq, Decidable.not_not] at h1
    split at h
    · rename_i h2; cases h; exact .inl (.separator h1 h2)
    · rename_i h2
      simp only [ne_eq, Decidable.not_not] at h2
      have hb := head_of h1 h2
      rw [bind_err] at h
      rcases h with h | ⟨⟨g, d⟩, hg, h⟩
      · obtain ⟨x, h3, rfl⟩ := orFail_err.mp h
        rw [hb]
        rcases global_explained h3 with h | h
        · exact .inl (.placed (.global h))
        · exact .inr (.global h)
      · obtain ⟨gs, h3, h4, h5, h6⟩ := global_counts (orFail_ok.mp hg)
        rw [h3] at hb
        simp only at h
        split at h
        · cases h
        · rw [bind_err] at h
          rcases h with h | ⟨⟨is, d'⟩, hi, h⟩
          · obtain ⟨x, h7, rfl⟩ := orFail_err.mp h
            obtain ⟨pss, d', rfl, h8, h9, h10⟩ := decodeN_err Input.decode_shape h7
            rw [hb, ← List.append_assoc, ← List.append_assoc]
            have ho : ∀ m ∈ gs :: pss, ∀ q ∈ m, PairOk q := by
              intro m hm
              rcases List.mem_cons.mp hm with rfl | hm
              · exact h4
              · exact h8 m hm
            rcases input_explained h10 with h | h
            · exact .inl (.placed (.input ho h5 h9 h))
            · exact .inr (.input ho h5 h9 h)
          · obtain ⟨iss, rfl, h8, h9⟩ := decodeN_read Input.decode_shape (orFail_ok.mp hi)
            simp only at h
            split at h
            · cases h
            · rw [bind_err] at h
              rcases h with h | ⟨_, _, h⟩
              · obtain ⟨x, h7, rfl⟩ := orFail_err.mp h
                obtain ⟨oss, d'', rfl, h10, h11, h12⟩ := decodeN_err Output.decode_shape h7
                rw [hb, ← List.append_assoc, ← List.append_assoc, ← List.append_assoc]
                have ho : ∀ m ∈ gs :: iss ++ oss, ∀ q ∈ m, PairOk q := by
                  intro m hm
                  rcases List.mem_append.mp hm with hm | hm
                  · rcases List.mem_cons.mp hm with rfl | hm
                    · exact h4
                    · exact h8 m hm
                  · exact h10 m hm
                rw [← h9] at h5
                rcases output_explained h12 with h | h
                · exact .inl (.placed (.output ho h5 h6 h11 h))
                · exact .inr (.output ho h5 h6 h11 h)
              · cases h

end V2

namespace V0

theorem right_mono {field : UInt8 → Field Err} (qs ps : List Pair) (p : Pair) (e : Err) (hs : ∀ q ∈ qs, q ∈ ps)
    (h : Right field qs p e) : Right field ps p e := fault_mono h hs

theorem mapErr_id {ε α : Type} (x : Except ε α) : x = mapErr id x := by cases x <;> rfl

theorem global_explained {L : Lib} {b : Bytes} {e : Err} (h : decodeGlobal L b = .error e) :
    MapFault (global0 L) id .ser globalEnd0 (b.take 4000000) e := by
  have hi : ∀ (m : GlobalAcc L) p, GlobalAcc.insertPair m p = mapErr id ((glSys L).ins m p) := by
    intro m p; rw [gl_ins]; exact mapErr_id _
  unfold decodeGlobal at h
  rw [bind_err] at h
  rcases h with h | ⟨⟨a, r⟩, h1, h⟩
  · rcases map_explained (glSys L) hi right_mono (gl_explains L) h with h | h
    · exact .inl h
    · exact .inr (.inl h)
  · obtain ⟨ps, h2, ho, hf⟩ := map_read (glSys L) hi h1
    simp only at h
    split at h
    · rename_i hn
      cases h
      refine .inr (.inr ⟨ps, r, h2, ho, fun hh => ?_, rfl⟩)
      have ht : ∀ x : UInt8, glSlot x = .tx ↔ x = 0x00 := forall_u8 (by decide +kernel)
      rw [ofSlot_has (glSys L) (s := .tx) (fun p => ht p.key.ty)] at hh
      exact hh ((opt_has (isOpt_tx _) ((glSys L).slot_ofSlot .tx ps) (hf .tx)).mpr hn)
    · cases h

theorem input_explained {L : Lib} {b : Bytes} {e : Err} (h : Input.decode L b = .error e) :
    MapFault (input0 L) id .ser (fun _ _ => False) b e := by
  have hi : ∀ (m : Input L) p, Input.insertPair m p = mapErr id ((inSys L).ins m p) := by
    intro m p; rw [in_ins]; exact mapErr_id _
  rcases map_explained (inSys L) hi right_mono (in_explains L) h with h | h
  · exact .inl h
  · exact .inr (.inl h)

theorem output_explained {L : Lib} {b : Bytes} {e : Err} (h : Output.decode L b = .error e) :
    MapFault (output0 L) id .ser (fun _ _ => False) b e := by
  have hi : ∀ (m : Output L) p, Output.insertPair m p = mapErr id ((outSys L).ins m p) := by
    intro m p; rw [out_ins]; exact mapErr_id _
  rcases map_explained (outSys L) hi right_mono (out_explains L) h with h | h
  · exact .inl h
  · exact .inr (.inl h)

/-- The unsigned transaction of a global map that has been read. -/
theorem global_tx {L : Lib} {b r : Bytes} {p : Psbt L} (h : decodeGlobal L b = .ok (p, r)) :
    ∃ ps, b = mapBytes ps ++ r ∧ (∀ q ∈ ps, PairOk q) ∧ UnsignedTx ps p.unsignedTx ∧ ∀ i ∈ p.unsignedTx.input, i.witness = [] := by
  rw [decodeGlobal_ok] at h
  obtain ⟨ps, a, tx, h1, h2, _, h3, h4, rfl⟩ := h
  refine ⟨ps, by rw [mapBytes_fun, serializeMap_append]; exact h1, fun q hq => (pairFits_iff q).mp (h2 q hq), ?_⟩
  rw [gl_ins, (glSys L).foldlM_iff] at h3
  have ht : ∀ x : UInt8, glSlot x = .tx → x = 0x00 := forall_u8 (by decide +kernel)
  rcases (isOpt_tx _).fold ((glSys L).slot_ofSlot .tx ps) (h3 .tx) with ⟨_, h⟩ | ⟨q, v, h5, h6, h7⟩
  · rw [show (glSys L).get .tx a = a.tx from rfl, h4] at h; cases h
  · rw [show (glSys L).get .tx a = a.tx from rfl, h4] at h7
    cases h7
    have hq : q ∈ (glSys L).ofSlot .tx ps := by rw [h5]; simp
    obtain ⟨h8, h9⟩ := parseTx_some.mp h6
    obtain ⟨h10, _, h11⟩ := decTxLegacy_ok h9
    rw [List.append_nil] at h10
    exact ⟨⟨q, ((glSys L).mem_ofSlot.mp hq).1, key_ext (ht _ ((glSys L).mem_ofSlot.mp hq).2) h8,
      by rw [unsignedTxBytes_fun]; exact h10⟩, h11⟩

theorem checks_err {l : List TxIn} {e : Err} (hw : ∀ i ∈ l, i.witness = []) (h : txInChecks l = .error e) :
    (∃ i ∈ l, i.scriptSig ≠ []) ∧ e = .unsignedTxHasScriptSigs := by
  induction l with
  | nil => cases h
  | cons i l ih =>
    unfold txInChecks at h
    split at h
    · rename_i h1; cases h; exact ⟨⟨i, List.mem_cons_self, h1⟩, rfl⟩
    · split at h
      · rename_i h1; exact absurd (hw i List.mem_cons_self) h1
      · obtain ⟨⟨j, hj, h1⟩, h2⟩ := ih (fun j hj => hw j (List.mem_cons_of_mem _ hj)) h
        exact ⟨⟨j, List.mem_cons_of_mem _ hj, h1⟩, h2⟩

theorem psbt_explained {L : Lib} {b : Bytes} {e : Err} (h : Psbt.deserialize L b = .error (.err e)) : Fault0 L b e := by
  unfold Psbt.deserialize at h
  split at h
  · rename_i h1; cases h; exact .magic h1
  · rename_i h1
    simp only [ne_eq, Decidable.not_not] at h1
    split at h
    · rename_i h2; cases h; exact .separator h1 h2
    · rename_i h2
      simp only [ne_eq, Decidable.not_not] at h2
      have hb := V2.head_of h1 h2
      rw [bind_err] at h
      rcases h with h | ⟨⟨g, d⟩, hg, h⟩
      · obtain ⟨x, h3, rfl⟩ := V2.orFail_err.mp h
        rw [hb]
        exact .placed (.global (global_explained h3))
      · obtain ⟨gs, h3, h4, h5, h6⟩ := global_tx (V2.orFail_ok.mp hg)
        rw [h3] at hb
        simp only at h
        rw [bind_err] at h
        rcases h with h | ⟨_, _, h⟩
        · obtain ⟨x, h7, rfl⟩ := V2.orFail_err.mp h
          obtain ⟨h8, rfl⟩ := checks_err h6 h7
          rw [hb, ← List.append_assoc]
          exact .scriptSig h4 h5 h8
        · split at h
          · cases h
          · rw [bind_err] at h
            rcases h with h | ⟨⟨is, d'⟩, hi, h⟩
            · obtain ⟨x, h7, rfl⟩ := V2.orFail_err.mp h
              obtain ⟨pss, d', rfl, h8, h9, h10⟩ := V2.decodeN_err Input.decode_shape h7
              rw [hb, ← List.append_assoc, ← List.append_assoc]
              have ho : ∀ m ∈ gs :: pss, ∀ q ∈ m, PairOk q := by
                intro m hm
                rcases List.mem_cons.mp hm with rfl | hm
                · exact h4
                · exact h8 m hm
              exact .placed (.input ho ⟨_, h5, rfl⟩ h9 (input_explained h10))
            · obtain ⟨iss, rfl, h8, h9⟩ := V2.decodeN_read Input.decode_shape (V2.orFail_ok.mp hi)
              simp only at h
              split at h
              · cases h
              · rw [bind_err] at h
                rcases h with h | ⟨_, _, h⟩
                · obtain ⟨x, h7, rfl⟩ := V2.orFail_err.mp h
                  obtain ⟨oss, d'', rfl, h10, h11, h12⟩ := V2.decodeN_err Output.decode_shape h7
                  rw [hb, ← List.append_assoc, ← List.append_assoc, ← List.append_assoc]
                  have ho : ∀ m ∈ gs :: iss ++ oss, ∀ q ∈ m, PairOk q := by
                    intro m hm
                    rcases List.mem_append.mp hm with hm | hm
                    · rcases List.mem_cons.mp hm with rfl | hm
                      · exact h4
                      · exact h8 m hm
                    · exact h10 m hm
                  exact .placed (.output ho ⟨_, h5, h9⟩ ⟨_, h5, rfl⟩ h11 (output_explained h12))
                · cases h

end V0
end Psbt
