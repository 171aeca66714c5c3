/- Lemmas for C122: a build without silent payments has the same pairs, in another order. -/
import Verif.Props.V2Parse2
import Verif.Props.V2Format
import Verif.Lemmas.V2Format
import Verif.Lemmas.Encoding
import Verif.Lemmas.Gather
import Verif.Spec.Feature
namespace Psbt.V2
open Psbt

section maps
variable {K V : Type} [OrdKey K] [DecidableEq K]

theorem insertL_perm {k : K} {v : V} {l : List (K × V)} (h : getL k l = none) : List.Perm (insertL k v l) ((k, v) :: l) := by
  induction l with
  | nil => exact .refl _
  | cons a r ih =>
    obtain ⟨k', v'⟩ := a
    unfold getL at h
    unfold insertL
    split
    · exact .refl _
    · split
      · rename_i e
        rw [if_pos (by first | exact e | exact e.symm)] at h
        cases h
      · rename_i e
        rw [if_neg (by first | exact e | exact fun e' => e e'.symm)] at h
        exact ((ih h).cons _).trans (.swap _ _ _)

end maps

theorem withRecords_get {u : BMap RawKey Bytes} {l : List (RawKey × Bytes)} {k : RawKey} (h : k ∉ l.map Prod.fst) :
    (Spec.withRecords u l).get k = u.get k := by
  induction l generalizing u with
  | nil => rfl
  | cons a r ih =>
    rw [List.map_cons, List.mem_cons, not_or] at h
    show (Spec.withRecords (u.insert a.1 a.2) r).get k = _
    rw [ih h.2, BMap.get_insert_ne _ h.1]

theorem withRecords_perm {u : BMap RawKey Bytes} {l : List (RawKey × Bytes)} (hn : (l.map Prod.fst).Nodup)
    (hu : ∀ k ∈ l.map Prod.fst, u.get k = none) : List.Perm (Spec.withRecords u l).l (l ++ u.l) := by
  induction l generalizing u with
  | nil => exact .refl _
  | cons a r ih =>
    rw [List.map_cons, List.nodup_cons] at hn
    show List.Perm (Spec.withRecords (u.insert a.1 a.2) r).l _
    refine (ih hn.2 fun k hk => ?_).trans ?_
    · rw [BMap.get_insert_ne _ (fun e => hn.1 (by rw [← e]; exact hk))]
      exact hu k (List.mem_cons_of_mem _ hk)
    · have h1 : List.Perm (u.insert a.1 a.2).l ((a.1, a.2) :: u.l) := insertL_perm (hu a.1 List.mem_cons_self)
      exact (h1.append_left r).trans (List.perm_middle)

theorem withRecords_mem {u : BMap RawKey Bytes} {l : List (RawKey × Bytes)} (hn : (l.map Prod.fst).Nodup)
    (hu : ∀ k ∈ l.map Prod.fst, u.get k = none) {k : RawKey} {v : Bytes} :
    (Spec.withRecords u l).get k = some v ↔ (k, v) ∈ l ∨ u.get k = some v := by
  rw [← BMap.mem_iff_get, (withRecords_perm hn hu).mem_iff, List.mem_append, BMap.mem_iff_get]

theorem keys_nodup {K V : Type} [OrdKey K] [DecidableEq K] (m : BMap K V) {A : Type} {f : K → A} (hf : ∀ a b, f a = f b → a = b) :
    (m.l.map fun kv => f kv.1).Nodup := by
  obtain ⟨l, h⟩ := m
  induction l with
  | nil => exact List.nodup_nil
  | cons a r ih =>
    rw [List.map_cons, List.nodup_cons]
    refine ⟨fun hm => ?_, ih h.tail⟩
    obtain ⟨b, hb, e⟩ := List.mem_map.mp hm
    have := h.lt_of_mem b hb
    rw [hf _ _ e] at this
    rw [OrdKey.irrefl] at this
    cases this

section
variable {L : Lib}

theorem spRecords_keys {e d : UInt8} (hed : e ≠ d) (s : BMap L.compressed.T L.compressed.T) (t : BMap L.compressed.T (FixedBytes 64)) :
    ((Spec.shareRecords e s ++ Spec.proofRecords d t).map Prod.fst).Nodup ∧
    ∀ k ∈ (Spec.shareRecords e s ++ Spec.proofRecords d t).map Prod.fst, k.ty = e ∨ k.ty = d := by
  have h1 : (Spec.shareRecords e s).map Prod.fst = s.l.map fun kv => (⟨e, kv.1.bytes⟩ : RawKey) := by
    unfold Spec.shareRecords; rw [List.map_map]; rfl
  have h2 : (Spec.proofRecords d t).map Prod.fst = t.l.map fun kv => (⟨d, kv.1.bytes⟩ : RawKey) := by
    unfold Spec.proofRecords; rw [List.map_map]; rfl
  rw [List.map_append, h1, h2]
  have m1 : ∀ k ∈ s.l.map fun kv => (⟨e, kv.1.bytes⟩ : RawKey), k.ty = e := by
    intro k hk; obtain ⟨_, _, rfl⟩ := List.mem_map.mp hk; rfl
  have m2 : ∀ k ∈ t.l.map fun kv => (⟨d, kv.1.bytes⟩ : RawKey), k.ty = d := by
    intro k hk; obtain ⟨_, _, rfl⟩ := List.mem_map.mp hk; rfl
  constructor
  · refine List.nodup_append.mpr ⟨keys_nodup s (f := fun x => (⟨e, x.bytes⟩ : RawKey)) ?_,
      keys_nodup t (f := fun x => (⟨d, x.bytes⟩ : RawKey)) ?_, fun a ha b hb hab => ?_⟩
    · intro a b h; injection h with _ h; exact Foreign.T.ext' h
    · intro a b h; injection h with _ h; exact Foreign.T.ext' h
    · exact hed ((m1 a ha).symm.trans (hab ▸ m2 b hb))
  · intro k hk
    rcases List.mem_append.mp hk with h | h
    · exact .inl (m1 k h)
    · exact .inr (m2 k h)

theorem addressRecords_keys (i : Option Bytes) (l : Option UInt32) :
    ((Spec.addressRecords i l).map Prod.fst).Nodup ∧ ∀ k ∈ (Spec.addressRecords i l).map Prod.fst, k.ty = 0x09 ∨ k.ty = 0x0A := by
  cases i <;> cases l <;> simp [Spec.addressRecords]

/-- The pairs of unknown records are those of the added records and those that were there. -/
theorem emitUnknown_with {u : BMap RawKey Bytes} {l : List (RawKey × Bytes)} (hn : (l.map Prod.fst).Nodup)
    (hu : ∀ k ∈ l.map Prod.fst, u.get k = none) :
    List.Perm (emitUnknown (Spec.withRecords u l)) ((l.map fun kv => (⟨kv.1, kv.2⟩ : Pair)) ++ emitUnknown u) := by
  have := (withRecords_perm hn hu).map fun kv => (⟨kv.1, kv.2⟩ : Pair)
  rw [List.map_append] at this
  exact this

theorem records_emitSp (hs : L.sp = true) {e d : UInt8} (s : BMap L.compressed.T L.compressed.T) (t : BMap L.compressed.T (FixedBytes 64)) :
    ((Spec.shareRecords e s ++ Spec.proofRecords d t).map fun kv => (⟨kv.1, kv.2⟩ : Pair)) =
      emitSp L e Foreign.T.bytes s ++ emitSp L d Subtype.val t := by
  unfold Spec.shareRecords Spec.proofRecords emitSp
  rw [List.map_append, List.map_map, List.map_map, if_pos hs, if_pos hs]
  rfl

theorem records_emitAddress (hs : L.sp = true) (i : Option Bytes) (l : Option UInt32) :
    ((Spec.addressRecords i l).map fun kv => (⟨kv.1, kv.2⟩ : Pair)) = emitSpInfo L i ++ emitSpLabel L l := by
  unfold Spec.addressRecords emitSpInfo emitSpLabel
  rw [if_pos hs, if_pos hs, le32_fun]
  cases i <;> cases l <;> rfl

/-- Common part, then silent payment pairs, proprietary ones and unknown ones. -/
theorem perm_tail {X P U U' : List Pair} (h : List.Perm U' (X ++ U)) : List.Perm (P ++ U') (X ++ (P ++ U)) :=
  (h.append_left P).trans (List.perm_append_comm_assoc P X U)

variable {n m : Nat}

theorem emitMap_sigs (t : UInt8) (s : BMap L.pubkey.T (EcdsaSig L)) :
    emitMap t (pubkeyCodec (Spec.plain L n m)) (ecdsaSigCodec (Spec.plain L n m))
      (Spec.mapTo (K := L.pubkey.T) (fun s : EcdsaSig L => (⟨s.der, s.ty⟩ : EcdsaSig (Spec.plain L n m))) s) =
      emitMap t (pubkeyCodec L) (ecdsaSigCodec L) s := by
  unfold emitMap Spec.mapTo
  exact List.map_map.trans rfl

theorem emitOpt_tree (t : UInt8) (o : Option (TapTree L)) :
    emitOpt t (tapTreeCodec (Spec.plain L n m)) (o.map fun t => (⟨t.leaves, t.ok⟩ : TapTree (Spec.plain L n m))) =
      emitOpt t (tapTreeCodec L) o := by
  cases o <;> rfl

theorem emitSp_plain {V : Type} (t : UInt8) (ser : V → Bytes) (b : BMap (Spec.plain L n m).compressed.T V) :
    emitSp (Spec.plain L n m) t ser b = [] := rfl

/-- None of the unknown records is of a type of the list. -/
def Clear (u : BMap RawKey Bytes) (e d : UInt8) : Prop := ∀ k v, u.get k = some v → k.ty ≠ e ∧ k.ty ≠ d

theorem Clear.none {u : BMap RawKey Bytes} {e d : UInt8} (h : Clear u e d) {l : List (RawKey × Bytes)}
    (hl : ∀ k ∈ l.map Prod.fst, k.ty = e ∨ k.ty = d) : ∀ k ∈ l.map Prod.fst, u.get k = none := by
  intro k hk
  cases hg : u.get k with
  | none => rfl
  | some v => rcases hl k hk with e | e
              · exact ((h k v hg).1 e).elim
              · exact ((h k v hg).2 e).elim

/-! ### The pairs -/

theorem plainGlobal_tail (hs : L.sp = true) {g : Global L} (hc : Clear g.unknowns 0x07 0x08) :
    List.Perm (emitUnknown (Spec.plainGlobal n m g).unknowns)
      ((emitSp L PSBT_GLOBAL_SP_ECDH_SHARE Foreign.T.bytes g.spEcdhShares ++ emitSp L PSBT_GLOBAL_SP_DLEQ Subtype.val g.spDleqProofs) ++
        emitUnknown g.unknowns) := by
  have hk := spRecords_keys (L := L) (e := 0x07) (d := 0x08) (by decide) g.spEcdhShares g.spDleqProofs
  have := emitUnknown_with hk.1 (hc.none hk.2)
  rw [records_emitSp hs] at this
  exact this

theorem plainGlobal_pairs (hs : L.sp = true) {g : Global L} (hc : Clear g.unknowns 0x07 0x08) :
    List.Perm (Spec.plainGlobal n m g).getPairs g.getPairs := by
  unfold Global.getPairs
  simp only [List.flatten_cons, List.flatten_nil, List.append_nil]
  iterate 7 refine List.Perm.append (.of_eq rfl) ?_
  rw [emitSp_plain, emitSp_plain, List.nil_append, List.nil_append, ← List.append_assoc (emitSp L _ _ _)]
  exact perm_tail (plainGlobal_tail hs hc)

theorem plainInput_pairs (hs : L.sp = true) {i : Input L} (hc : Clear i.unknowns 0x1D 0x1E) :
    List.Perm (Spec.plainInput n m i).getPairs i.getPairs := by
  unfold Input.getPairs
  simp only [List.flatten_cons, List.flatten_nil, List.append_nil]
  iterate 7 refine List.Perm.append (.of_eq rfl) ?_
  refine List.Perm.append (.of_eq (emitMap_sigs _ _)) ?_
  iterate 16 refine List.Perm.append (.of_eq rfl) ?_
  rw [emitSp_plain, emitSp_plain, List.nil_append, List.nil_append, ← List.append_assoc (emitSp L _ _ _)]
  refine perm_tail ?_
  have hk := spRecords_keys (L := L) (e := 0x1D) (d := 0x1E) (by decide) i.spEcdhShares i.spDleqProofs
  have := emitUnknown_with hk.1 (hc.none hk.2)
  rw [records_emitSp hs] at this
  exact this

theorem plainOutput_pairs (hs : L.sp = true) {o : Output L} (hc : Clear o.unknowns 0x09 0x0A) :
    List.Perm (Spec.plainOutput n m o).getPairs o.getPairs := by
  unfold Output.getPairs
  simp only [List.flatten_cons, List.flatten_nil, List.append_nil]
  iterate 6 refine List.Perm.append (.of_eq rfl) ?_
  refine List.Perm.append (.of_eq (emitOpt_tree _ _)) ?_
  iterate 1 refine List.Perm.append (.of_eq rfl) ?_
  show List.Perm ([] ++ ([] ++ _)) _
  rw [List.nil_append, List.nil_append, ← List.append_assoc (emitSpInfo L _)]
  refine perm_tail ?_
  have hk := addressRecords_keys o.spV0Info o.spV0Label
  have := emitUnknown_with hk.1 (hc.none hk.2)
  rw [records_emitAddress hs] at this
  exact this

/-! ### What the wire can carry -/

theorem types_global {t : UInt8} : t ∉ Spec.globalTypes true ↔ t ∉ Spec.globalTypes false ∧ t ≠ 0x07 ∧ t ≠ 0x08 := by
  simp [Spec.globalTypes, and_assoc]

theorem types_input {t : UInt8} : t ∉ Spec.inputTypes true ↔ t ∉ Spec.inputTypes false ∧ t ≠ 0x1D ∧ t ≠ 0x1E := by
  simp [Spec.inputTypes, and_assoc]

theorem types_output {t : UInt8} : t ∉ Spec.outputTypes true ↔ t ∉ Spec.outputTypes false ∧ t ≠ 0x09 ∧ t ≠ 0x0A := by
  simp [Spec.outputTypes, and_assoc]

theorem mem_keys {l : List (RawKey × Bytes)} {k : RawKey} {v : Bytes} (h : (k, v) ∈ l) : k ∈ l.map Prod.fst :=
  List.mem_map.mpr ⟨_, h, rfl⟩

/-- A map both builds can carry. -/
theorem globalWF_iff (hs : L.sp = true) {g : Global L} : Spec.GlobalWF g ↔
    Spec.GlobalWF (Spec.plainGlobal n m g) ∧ Clear g.unknowns 0x07 0x08 ∧ (g.spEcdhShares = .empty ↔ g.spDleqProofs = .empty) := by
  have hk := spRecords_keys (L := L) (e := 0x07) (d := 0x08) (by decide) g.spEcdhShares g.spDleqProofs
  constructor
  · intro h
    have hc : Clear g.unknowns 0x07 0x08 := fun k v hg => (types_global.mp (hs ▸ h.unknowns k v hg)).2
    refine ⟨⟨h.version, fun p hp => h.sizes p ((plainGlobal_pairs hs hc).mem_iff.mp hp), h.props, fun k v hg => ?_,
      fun _ => ⟨rfl, rfl⟩, fun h => (by cases h)⟩, hc, h.spOn hs⟩
    rcases (withRecords_mem hk.1 (hc.none hk.2)).mp hg with hm | hm
    · show k.ty ∉ Spec.globalTypes false
      rcases hk.2 k (mem_keys hm) with e | e <;> rw [e] <;> decide
    · exact (types_global.mp (hs ▸ h.unknowns k v hm)).1
  · rintro ⟨h, hc, ho⟩
    refine ⟨h.version, fun p hp => h.sizes p ((plainGlobal_pairs hs hc).mem_iff.mpr hp), h.props, fun k v hg => ?_,
      fun h => (by rw [hs] at h; cases h), fun _ => ho⟩
    rw [hs]
    exact types_global.mpr ⟨h.unknowns k v ((withRecords_mem hk.1 (hc.none hk.2)).mpr (.inr hg)), hc k v hg⟩

theorem inputWF_iff (hs : L.sp = true) {i : Input L} : Spec.InputWF i ↔
    Spec.InputWF (Spec.plainInput n m i) ∧ Clear i.unknowns 0x1D 0x1E ∧ (i.spEcdhShares = .empty ↔ i.spDleqProofs = .empty) := by
  have hk := spRecords_keys (L := L) (e := 0x1D) (d := 0x1E) (by decide) i.spEcdhShares i.spDleqProofs
  constructor
  · intro h
    have hc : Clear i.unknowns 0x1D 0x1E := fun k v hg => (types_input.mp (hs ▸ h.unknowns k v hg)).2
    refine ⟨⟨h.txid, h.vout, fun p hp => h.sizes p ((plainInput_pairs hs hc).mem_iff.mp hp), h.ripemd160, h.sha256, h.hash160, h.hash256,
      h.props, fun k v hg => ?_, fun _ => ⟨rfl, rfl⟩, fun h => (by cases h)⟩, hc, h.spOn hs⟩
    rcases (withRecords_mem hk.1 (hc.none hk.2)).mp hg with hm | hm
    · show k.ty ∉ Spec.inputTypes false
      rcases hk.2 k (mem_keys hm) with e | e <;> rw [e] <;> decide
    · exact (types_input.mp (hs ▸ h.unknowns k v hm)).1
  · rintro ⟨h, hc, ho⟩
    refine ⟨h.txid, h.vout, fun p hp => h.sizes p ((plainInput_pairs hs hc).mem_iff.mpr hp), h.ripemd160, h.sha256, h.hash160, h.hash256,
      h.props, fun k v hg => ?_, fun h => (by rw [hs] at h; cases h), fun _ => ho⟩
    rw [hs]
    exact types_input.mpr ⟨h.unknowns k v ((withRecords_mem hk.1 (hc.none hk.2)).mpr (.inr hg)), hc k v hg⟩

theorem outputWF_iff (hs : L.sp = true) {o : Output L} : Spec.OutputWF o ∧ o.scriptPubkey ≠ [] ↔
    Spec.OutputWF (Spec.plainOutput n m o) ∧ Clear o.unknowns 0x09 0x0A ∧ (∀ v, o.spV0Info = some v → v.length = 66) ∧
      (o.spV0Label ≠ none → o.spV0Info ≠ none) := by
  have hk := addressRecords_keys o.spV0Info o.spV0Label
  constructor
  · rintro ⟨h, hn⟩
    have hc : Clear o.unknowns 0x09 0x0A := fun k v hg => (types_output.mp (hs ▸ h.unknowns k v hg)).2
    refine ⟨⟨h.amount, fun _ => hn, fun p hp => h.sizes p ((plainOutput_pairs hs hc).mem_iff.mp hp),
      h.props, fun k v hg => ?_, fun _ h => (by cases h), fun _ => ⟨rfl, rfl⟩, fun h => (by cases h)⟩, hc, h.info, h.spOn hs⟩
    rcases (withRecords_mem hk.1 (hc.none hk.2)).mp hg with hm | hm
    · show k.ty ∉ Spec.outputTypes false
      rcases hk.2 k (mem_keys hm) with e | e <;> rw [e] <;> decide
    · exact (types_output.mp (hs ▸ h.unknowns k v hm)).1
  · rintro ⟨h, hc, hi, ho⟩
    refine ⟨⟨h.amount, fun h => (by rw [hs] at h; cases h), fun p hp => h.sizes p ((plainOutput_pairs hs hc).mem_iff.mpr hp),
      h.props, fun k v hg => ?_, hi, fun h => (by rw [hs] at h; cases h), fun _ => ho⟩, h.script rfl⟩
    rw [hs]
    exact types_output.mpr ⟨h.unknowns k v ((withRecords_mem hk.1 (hc.none hk.2)).mpr (.inr hg)), hc k v hg⟩

/-! ### Reading what the other build wrote -/

theorem counts_tail {X P U : List Pair} (hX : ∀ p ∈ X, p.key.ty = 0x07 ∨ p.key.ty = 0x08) :
    (X ++ (P ++ U)).filter (fun p => decide (p.key.ty = 0x04 ∨ p.key.ty = 0x05)) =
      (P ++ U).filter fun p => decide (p.key.ty = 0x04 ∨ p.key.ty = 0x05) := by
  rw [List.filter_append, List.filter_eq_nil_iff.mpr, List.nil_append]
  intro p hp
  rcases hX p hp with e | e <;> rw [e] <;> decide

theorem unknown_counts {u : BMap RawKey Bytes} {sp : Bool} (h : ∀ k v, u.get k = some v → k.ty ∉ Spec.globalTypes sp) :
    (emitUnknown u).filter (fun p => decide (p.key.ty = 0x04 ∨ p.key.ty = 0x05)) = [] := by
  rw [List.filter_eq_nil_iff]
  intro p hp
  obtain ⟨k, v, hg, rfl⟩ := mem_emitUnknown.mp hp
  have := h k v hg
  simp only [decide_eq_true_eq]
  rintro (e | e) <;> exact this (by show k.ty ∈ _; rw [show k.ty = _ from e]; cases sp <;> decide)

theorem feature_counts (hs : L.sp = true) {g : Global L} (h : Spec.GlobalWF g) :
    (g.getPairs.filter fun p => decide (p.key.ty = 0x04 ∨ p.key.ty = 0x05)) =
      (Spec.plainGlobal n m g).getPairs.filter fun p => decide (p.key.ty = 0x04 ∨ p.key.ty = 0x05) := by
  have hw := ((globalWF_iff (n := n) (m := m) hs).mp h).1
  unfold Global.getPairs
  simp only [List.flatten_cons, List.flatten_nil, List.append_nil, List.filter_append]
  rw [unknown_counts h.unknowns, unknown_counts hw.unknowns, emitSp_plain, emitSp_plain]
  rw [List.filter_eq_nil_iff (l := emitSp L PSBT_GLOBAL_SP_ECDH_SHARE _ _) |>.mpr (fun p hp => by
      obtain ⟨-, _, _, -, rfl⟩ := mem_emitSp.mp hp; exact (by decide : ¬ decide ((0x07 : UInt8) = 0x04 ∨ (0x07 : UInt8) = 0x05) = true)),
    List.filter_eq_nil_iff (l := emitSp L PSBT_GLOBAL_SP_DLEQ _ _) |>.mpr (fun p hp => by
      obtain ⟨-, _, _, -, rfl⟩ := mem_emitSp.mp hp; exact (by decide : ¬ decide ((0x08 : UInt8) = 0x04 ∨ (0x08 : UInt8) = 0x05) = true))]
  rfl

theorem global_to_plain (hs : L.sp = true) {g : Global L} (h : Spec.GlobalWF g) (r : Bytes) :
    Global.decode (Spec.plain L n m) (serializeMap g.getPairs ++ r) = .ok (Spec.plainGlobal n m g, r) := by
  obtain ⟨hw, hc, -⟩ := (globalWF_iff (n := n) (m := m) hs).mp h
  have := Global.rt hw r
  rw [← mapBytes_fun] at this ⊢
  exact C12_global_partial hw.sizes (plainGlobal_pairs hs hc) (feature_counts hs h).symm this

theorem global_from_plain (hs : L.sp = true) {g : Global L} (h : Spec.GlobalWF g) (r : Bytes) :
    Global.decode L (serializeMap (Spec.plainGlobal n m g).getPairs ++ r) = .ok (g, r) := by
  obtain ⟨hw, hc, -⟩ := (globalWF_iff (n := n) (m := m) hs).mp h
  have := Global.rt h r
  rw [← mapBytes_fun] at this ⊢
  exact C12_global_partial h.sizes (plainGlobal_pairs hs hc).symm (feature_counts hs h) this

theorem input_placeholders {i : Input L} (h : Spec.InputWF i) : ∀ p ∈ i.getPairs,
    (p.key.ty = 0x0e → p.value ≠ List.replicate 32 0) ∧ (p.key.ty = 0x0f → p.value ≠ List.replicate 4 0xff) := by
  intro p hp
  have hq := (C60_input_pairs i p).mp hp
  generalize p.key.ty = t at *
  generalize p.key.key = k at *
  generalize p.value = v at *
  cases hq
  case previousTxid => exact ⟨fun _ => h.txid, fun e => absurd e (by decide)⟩
  case outputIndex =>
    refine ⟨fun e => absurd e (by decide), fun _ e => h.vout ?_⟩
    exact le32_inj (e.trans (by decide))
  case unknown hg =>
    have := h.unknowns _ _ hg
    exact ⟨fun e => (this (by rw [e]; cases L.sp <;> decide)).elim, fun e => (this (by rw [e]; cases L.sp <;> decide)).elim⟩
  all_goals exact ⟨fun e => absurd e (by decide), fun e => absurd e (by decide)⟩

theorem output_placeholders {o : Output L} (h : Spec.OutputWF o) (hn : o.scriptPubkey ≠ []) : ∀ p ∈ o.getPairs,
    (p.key.ty = 0x03 → p.value ≠ List.replicate 8 0) ∧ (p.key.ty = 0x04 → p.value ≠ []) := by
  intro p hp
  have hq := (C60_output_pairs o p).mp hp
  generalize p.key.ty = t at *
  generalize p.key.key = k at *
  generalize p.value = v at *
  cases hq
  case script => exact ⟨fun e => absurd e (by decide), fun _ => hn⟩
  case amount =>
    refine ⟨fun _ e => h.amount ?_, fun e => absurd e (by decide)⟩
    exact le64_inj (e.trans (by decide))
  case unknown hg =>
    have := h.unknowns _ _ hg
    exact ⟨fun e => (this (by rw [e]; cases L.sp <;> decide)).elim, fun e => (this (by rw [e]; cases L.sp <;> decide)).elim⟩
  all_goals exact ⟨fun e => absurd e (by decide), fun e => absurd e (by decide)⟩

theorem input_to_plain (hs : L.sp = true) {i : Input L} (h : Spec.InputWF i) (r : Bytes) :
    Input.decode (Spec.plain L n m) (serializeMap i.getPairs ++ r) = .ok (Spec.plainInput n m i, r) := by
  obtain ⟨hw, hc, -⟩ := (inputWF_iff (n := n) (m := m) hs).mp h
  have := Input.rt hw r
  rw [← mapBytes_fun] at this ⊢
  exact C12_input_partial hw.sizes (plainInput_pairs hs hc) (input_placeholders hw) this

theorem input_from_plain (hs : L.sp = true) {i : Input L} (h : Spec.InputWF i) (r : Bytes) :
    Input.decode L (serializeMap (Spec.plainInput n m i).getPairs ++ r) = .ok (i, r) := by
  obtain ⟨hw, hc, -⟩ := (inputWF_iff (n := n) (m := m) hs).mp h
  have := Input.rt h r
  rw [← mapBytes_fun] at this ⊢
  exact C12_input_partial h.sizes (plainInput_pairs hs hc).symm (input_placeholders h) this

theorem output_to_plain (hs : L.sp = true) {o : Output L} (h : Spec.OutputWF o) (hn : o.scriptPubkey ≠ []) (r : Bytes) :
    Output.decode (Spec.plain L n m) (serializeMap o.getPairs ++ r) = .ok (Spec.plainOutput n m o, r) := by
  obtain ⟨hw, hc, -⟩ := (outputWF_iff (n := n) (m := m) hs).mp ⟨h, hn⟩
  have := Output.rt hw r
  rw [← mapBytes_fun] at this ⊢
  exact C12_output_partial hw.sizes (plainOutput_pairs hs hc) (output_placeholders hw hn) this

theorem output_from_plain (hs : L.sp = true) {o : Output L} (h : Spec.OutputWF o) (hn : o.scriptPubkey ≠ []) (r : Bytes) :
    Output.decode L (serializeMap (Spec.plainOutput n m o).getPairs ++ r) = .ok (o, r) := by
  obtain ⟨hw, hc, -⟩ := (outputWF_iff (n := n) (m := m) hs).mp ⟨h, hn⟩
  have := Output.rt h r
  rw [← mapBytes_fun] at this ⊢
  exact C12_output_partial h.sizes (plainOutput_pairs hs hc).symm (output_placeholders h hn) this

end

end Psbt.V2
