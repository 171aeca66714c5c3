/- Round trips of the maps and of the complete PSBT v0. -/
import Verif.Lemmas.RawMap
import Verif.Lemmas.V0Input
import Verif.Lemmas.V0Output
import Verif.Lemmas.V2Psbt
import Verif.Lemmas.Shrink
import Verif.Lemmas.V2Format
import Verif.Lemmas.Folds
import Verif.Spec.V0
namespace Psbt.V0
open Psbt

theorem inSlot_unknown : ∀ t, inSlot t = .unknown ↔ t ∉ Spec.V0.inputTypes := forall_u8 (by decide +kernel)
theorem outSlot_unknown : ∀ t, outSlot t = .unknown ↔ t ∉ Spec.V0.outputTypes := forall_u8 (by decide +kernel)
theorem glSlot_unknown : ∀ t, glSlot t = .unknown ↔ t ∉ Spec.V0.globalTypes := forall_u8 (by decide +kernel)

/-! ### Inputs -/

theorem Input.decode_ok {L : Lib} {b r : Bytes} {i : Input L} :
    Input.decode L b = .ok (i, r) ↔
      ∃ ps : List Pair, b = ps.flatMap encPair ++ 0 :: r ∧ (∀ p ∈ ps, PairFits p) ∧
        ps.foldlM Input.insertPair (Input.default L) = .ok i := by
  unfold Input.decode
  rw [decodeMap_ok]

theorem input_wf_iff {L : Lib} (i : Input L) : Spec.V0.InputWF i ↔ ∀ s, InInv L s (inGet L s i) := by
  have hsz : (∀ p ∈ i.getPairs, Spec.PairOk p) ↔ ∀ s, ∀ p ∈ inEmit L s (inGet L s i), PairFits p := by
    rw [in_pairs]
    simp only [← pairFits_iff]
    exact V2.mem_pairs (inSys L) mem_inOrder
  constructor
  · intro h
    have hz := hsz.mp h.sizes
    intro s
    cases s with
    | ripemd160 => exact ⟨hz .ripemd160, h.ripemd160⟩
    | sha256 => exact ⟨hz .sha256, h.sha256⟩
    | hash160 => exact ⟨hz .hash160, h.hash160⟩
    | hash256 => exact ⟨hz .hash256, h.hash256⟩
    | proprietary => exact ⟨hz .proprietary, fun k v e => (propFits_iff k).mpr (h.props k v e)⟩
    | unknown => exact ⟨hz .unknown, fun k v e => (inSlot_unknown _).mpr (h.unknowns k v e)⟩
    | excluded => rfl
    | _ => exact hz _
  · intro h
    refine ⟨hsz.mpr ?_, (h .ripemd160).2, (h .sha256).2, (h .hash160).2, (h .hash256).2,
      fun k v e => (propFits_iff k).mp ((h .proprietary).2 k v e),
      fun k v e => (inSlot_unknown _).mp ((h .unknown).2 k v e)⟩
    intro s
    have hs := h s
    cases s with
    | ripemd160 => exact hs.1
    | sha256 => exact hs.1
    | hash160 => exact hs.1
    | hash256 => exact hs.1
    | proprietary => exact hs.1
    | unknown => exact hs.1
    | excluded => intro p hp; cases hp
    | _ => exact hs

theorem Input.wf_of_decode {L : Lib} {b r : Bytes} {i : Input L} (h : Input.decode L b = .ok (i, r)) :
    Spec.V0.InputWF i := by
  rw [Input.decode_ok] at h
  obtain ⟨ps, _, h2, h3⟩ := h
  rw [input_wf_iff]
  rw [in_ins] at h3
  exact (inSys L).inv (in_lawful L) h2 h3

theorem Input.rt {L : Lib} {i : Input L} (h : Spec.V0.InputWF i) (r : Bytes) :
    Input.decode L (serializeMap i.getPairs ++ r) = .ok (i, r) := by
  rw [Input.decode_ok]
  have hw := (input_wf_iff i).mp h
  refine ⟨i.getPairs, serializeMap_append _ _, ?_, ?_⟩
  · rw [in_pairs]
    exact (inSys L).fits (in_lawful L) hw
  · rw [in_pairs, in_ins]
    exact (inSys L).rt inOrder_nodup mem_inOrder (in_lawful L) hw

/-! ### Outputs -/

theorem Output.decode_ok {L : Lib} {b r : Bytes} {o : Output L} :
    Output.decode L b = .ok (o, r) ↔
      ∃ ps : List Pair, b = ps.flatMap encPair ++ 0 :: r ∧ (∀ p ∈ ps, PairFits p) ∧
        ps.foldlM Output.insertPair (Output.default L) = .ok o := by
  unfold Output.decode
  rw [decodeMap_ok]

theorem output_wf_iff {L : Lib} (o : Output L) : Spec.V0.OutputWF o ↔ ∀ s, OutInv L s (outGet L s o) := by
  have hsz : (∀ p ∈ o.getPairs, Spec.PairOk p) ↔ ∀ s, ∀ p ∈ outEmit L s (outGet L s o), PairFits p := by
    rw [out_pairs]
    simp only [← pairFits_iff]
    exact V2.mem_pairs (outSys L) mem_outOrder
  constructor
  · intro h
    have hz := hsz.mp h.sizes
    intro s
    cases s with
    | proprietary => exact ⟨hz .proprietary, fun k v e => (propFits_iff k).mpr (h.props k v e)⟩
    | unknown => exact ⟨hz .unknown, fun k v e => (outSlot_unknown _).mpr (h.unknowns k v e)⟩
    | excluded => rfl
    | _ => exact hz _
  · intro h
    refine ⟨hsz.mpr ?_, fun k v e => (propFits_iff k).mp ((h .proprietary).2 k v e),
      fun k v e => (outSlot_unknown _).mp ((h .unknown).2 k v e)⟩
    intro s
    have hs := h s
    cases s with
    | proprietary => exact hs.1
    | unknown => exact hs.1
    | excluded => intro p hp; cases hp
    | _ => exact hs

theorem Output.wf_of_decode {L : Lib} {b r : Bytes} {o : Output L} (h : Output.decode L b = .ok (o, r)) :
    Spec.V0.OutputWF o := by
  rw [Output.decode_ok] at h
  obtain ⟨ps, _, h2, h3⟩ := h
  rw [output_wf_iff]
  rw [out_ins] at h3
  exact (outSys L).inv (out_lawful L) h2 h3

theorem Output.rt {L : Lib} {o : Output L} (h : Spec.V0.OutputWF o) (r : Bytes) :
    Output.decode L (serializeMap o.getPairs ++ r) = .ok (o, r) := by
  rw [Output.decode_ok]
  have hw := (output_wf_iff o).mp h
  refine ⟨o.getPairs, serializeMap_append _ _, ?_, ?_⟩
  · rw [out_pairs]
    exact (outSys L).fits (out_lawful L) hw
  · rw [out_pairs, out_ins]
    exact (outSys L).rt outOrder_nodup mem_outOrder (out_lawful L) hw

/-! ### The global map -/

abbrev GlF (L : Lib) : GlSlot → Type
  | .tx => Option Tx
  | .xpub => BMap L.xpub.T KeySource
  | .version => Option UInt32
  | .proprietary => BMap PropKey Bytes
  | .excluded => Unit
  | .unknown => BMap RawKey Bytes

def glGet (L : Lib) : (s : GlSlot) → GlobalAcc L → GlF L s
  | .tx, g => g.tx
  | .xpub, g => g.xpub
  | .version, g => g.version
  | .proprietary, g => g.proprietary
  | .excluded, _ => ()
  | .unknown, g => g.unknown

def glSet (L : Lib) : (s : GlSlot) → GlF L s → GlobalAcc L → GlobalAcc L
  | .tx, f, g => { g with tx := f }
  | .xpub, f, g => { g with xpub := f }
  | .version, f, g => { g with version := f }
  | .proprietary, f, g => { g with proprietary := f }
  | .excluded, _, g => g
  | .unknown, f, g => { g with unknown := f }

def glStep (L : Lib) : (s : GlSlot) → GlF L s → Pair → Except Err (GlF L s)
  | .tx => insTx
  | .xpub => insXpub
  | .version => insVersion
  | .proprietary => insProp
  | .excluded => fun _ p => .error (.excludedKey p.key.ty)
  | .unknown => insUnknown

def emitTx : Option Tx → List Pair
  | none => []
  | some t => [bare PSBT_GLOBAL_UNSIGNED_TX (encTxLegacy t)]

def glEmit (L : Lib) : (s : GlSlot) → GlF L s → List Pair
  | .tx => emitTx
  | .xpub => fun m => m.l.map (fun kv => ⟨⟨PSBT_GLOBAL_XPUB, kv.1.bytes⟩, keySourceCodec.ser kv.2⟩)
  | .version => emitOpt PSBT_GLOBAL_VERSION u32Codec
  | .proprietary => emitProp
  | .excluded => fun _ => []
  | .unknown => emitUnknown

def glOrder : List GlSlot := [.tx, .xpub, .version, .proprietary, .unknown, .excluded]

theorem glOrder_nodup : glOrder.Nodup := by decide
theorem mem_glOrder (s : GlSlot) : s ∈ glOrder := by cases s <;> decide

def glSys (L : Lib) : SlotSys (GlobalAcc L) GlSlot Err where
  F := GlF L
  get := glGet L
  set := glSet L
  get_set s f m := by cases s <;> rfl
  get_set_ne s t f m h := by
    cases t <;> cases s <;> first | rfl | exact absurd rfl h
  ext m m' h := by
    obtain ⟨⟩ := m
    obtain ⟨⟩ := m'
    have h0 := h .tx
    have h1 := h .xpub
    have h2 := h .version
    have h3 := h .proprietary
    have h4 := h .unknown
    simp only [glGet] at *
    subst_vars
    rfl
  slotOf p := glSlot p.key.ty
  step := glStep L

theorem gl_ins (L : Lib) : GlobalAcc.insertPair (L := L) = (glSys L).ins := by
  funext i p
  unfold GlobalAcc.insertPair SlotSys.ins
  simp only [glSys]
  generalize glSlot p.key.ty = s
  cases s <;> rfl

/-- The variables that stand for the global part of a PSBT. -/
def accOf {L : Lib} (p : Psbt L) : GlobalAcc L where
  tx := some p.unsignedTx
  version := if p.version > 0 then some p.version else none
  xpub := p.xpub
  proprietary := p.proprietary
  unknown := p.unknown

theorem gl_pairs {L : Lib} (p : Psbt L) : p.getPairs = (glSys L).pairs glOrder (glEmit L) (accOf p) := by
  simp only [Psbt.getPairs, SlotSys.pairs, glOrder, glEmit, glSys, glGet, accOf, List.flatMap_cons, List.flatMap_nil,
    List.flatten_cons, List.flatten_nil, emitTx]
  split <;> simp [emitOpt]

/-! #### The transaction -/

def parseTx (p : Pair) : Option Tx :=
  if p.key.key = [] then
    match decTxLegacy p.value with
    | .ok (t, []) => some t
    | _ => none
  else none

theorem parseTx_some {p : Pair} {t : Tx} :
    parseTx p = some t ↔ p.key.key = [] ∧ decTxLegacy p.value = .ok (t, []) := by
  unfold parseTx
  split
  · rename_i hk
    simp only [hk, true_and]
    cases e : decTxLegacy p.value with
    | error _ => simp
    | ok x =>
      obtain ⟨t', r⟩ := x
      cases r <;> simp
  · rename_i hk; simp [hk]

theorem isOpt_tx (isSlot : Pair → Prop) : IsOpt isSlot insTx parseTx := by
  intro o p o' _
  simp only [parseTx_some, insTx]
  split
  · rename_i hk
    cases o with
    | some w => simp
    | none =>
      simp only [true_and, bind_ok, mapErr_ok]
      constructor
      · rintro ⟨⟨t, r⟩, h1, h2⟩
        simp only at h2
        split at h2
        · cases h2
        · rename_i hr
          simp only [ne_eq, Decidable.not_not] at hr
          cases h2
          exact ⟨t, ⟨hk, by rw [h1, hr]⟩, rfl⟩
      · rintro ⟨t, ⟨_, h1⟩, rfl⟩
        exact ⟨(t, []), h1, by simp⟩
  · rename_i hk; simp [hk]

theorem lawful_glTx {isSlot : Pair → Prop} (hs : ∀ v, isSlot (bare PSBT_GLOBAL_UNSIGNED_TX v)) :
    LawfulSlot isSlot insTx none emitTx
      (fun o => (∀ p ∈ emitTx o, PairFits p) ∧ ∀ t, o = some t → ∀ i ∈ t.input, i.witness = []) := by
  refine (isOpt_tx isSlot).lawful (emit1 := fun t => bare PSBT_GLOBAL_UNSIGNED_TX (encTxLegacy t)) (emit := emitTx)
    (Extra := fun t => ∀ i ∈ t.input, i.witness = []) rfl (fun _ => rfl) ?_ ?_
  · intro p t hp _ h
    rw [parseTx_some] at h
    obtain ⟨h1, h2, h3⟩ := decTxLegacy_ok h.2
    rw [List.append_nil] at h1
    exact ⟨PairFits.bare (by rw [← h1]; exact hp.2), h3⟩
  · intro t hf hw
    refine ⟨hs _, parseTx_some.mpr ⟨rfl, ?_⟩⟩
    have hl : (encTxLegacy t).length ≤ 3999995 := by
      have := (vecFits_iff _).mp hf.2
      exact this
    have := decTxLegacy_enc (Tx.small_of_length_legacy (by decide) hw hl) hw []
    rw [List.append_nil] at this
    exact this

/-! #### The version -/

def parseVersion (p : Pair) : Option UInt32 := if V2.parseFixed 4 decU32 p = some 0 then some 0 else none

theorem parseVersion_some {p : Pair} {v : UInt32} :
    parseVersion p = some v ↔ (p.key.key = [] ∧ p.value.length = 4 ∧ ∃ r, decU32 p.value = .ok (0, r)) ∧ v = 0 := by
  unfold parseVersion
  split
  · rename_i h
    rw [V2.parseFixed_some] at h
    simp only [Option.some.injEq, h, true_and]
    exact eq_comm
  · rename_i h
    rw [V2.parseFixed_some] at h
    simp [h]

theorem isOpt_version (isSlot : Pair → Prop) : IsOpt isSlot insVersion parseVersion := by
  intro o p o' _
  simp only [parseVersion_some, insVersion]
  split
  · rename_i hk
    cases o with
    | some w => simp
    | none =>
      simp only [true_and]
      split
      · rename_i hl
        simp [hl]
      · rename_i hl
        simp only [ne_eq, Decidable.not_not] at hl
        simp only [bind_ok, mapErr_ok]
        constructor
        · rintro ⟨⟨v, r⟩, h1, h2⟩
          simp only at h2
          split at h2
          · cases h2
          · rename_i hv
            simp only [ne_eq, Decidable.not_not] at hv
            cases h2
            exact ⟨v, ⟨⟨hk, hl, r, by rw [h1, hv]⟩, hv⟩, rfl⟩
        · rintro ⟨v, ⟨⟨_, _, r, hr⟩, rfl⟩, rfl⟩
          exact ⟨(0, r), hr, by simp⟩
  · rename_i hk; simp [hk]

theorem lawful_glVersion {isSlot : Pair → Prop} (hs : ∀ v, isSlot (bare PSBT_GLOBAL_VERSION v)) :
    LawfulSlot isSlot insVersion none (emitOpt PSBT_GLOBAL_VERSION u32Codec)
      (fun o => (∀ p ∈ emitOpt PSBT_GLOBAL_VERSION u32Codec o, PairFits p) ∧ ∀ v, o = some v → v = 0) := by
  refine (isOpt_version isSlot).lawful (emit1 := fun v => bare PSBT_GLOBAL_VERSION (u32Codec.ser v))
    (emit := emitOpt PSBT_GLOBAL_VERSION u32Codec) (Extra := fun v => v = 0) rfl (fun _ => rfl) ?_ ?_
  · intro p v _ _ h
    rw [parseVersion_some] at h
    exact ⟨pairFits_bare_short _ (by rw [u32_ser_length]; decide), h.2⟩
  · intro v _ hv
    subst hv
    refine ⟨hs _, ?_⟩
    refine parseVersion_some.mpr ⟨⟨rfl, u32_ser_length _, [], ?_⟩, rfl⟩
    have := decU32_enc 0 []
    rw [List.append_nil] at this
    exact this

/-! #### Extended public keys -/

theorem isKeyed_xpub (L : Lib) (isSlot : Pair → Prop) : IsKeyed isSlot (insXpub (L := L)) (V2.parseXpub L) := by
  intro m p m' _
  simp only [V2.parseXpub_some, insXpub, V2.keySource_deser_iff]
  split
  · rename_i hk
    rw [hk, Foreign.parse_nil]; simp
  · cases hx : L.xpub.parse p.key.key with
    | none => simp
    | some x =>
      simp only [Option.some.injEq]
      split
      · rename_i hv
        constructor
        · intro h; cases h
        · rintro ⟨k, v, ⟨_, h1, h2, _⟩, _⟩
          rcases hv with hv | hv
          · rw [hv] at h1; simp at h1
          · exact absurd h2 hv
      · rename_i hv
        have h2 : p.value.length % 4 = 0 := Decidable.not_not.mp fun h => hv (.inr h)
        have h1 : 4 ≤ p.value.length := by
          have := List.length_pos_iff.mpr (fun h => hv (.inl h)); omega
        constructor
        · intro h
          split at h
          · cases h
          · rename_i hn
            cases h
            exact ⟨x, _, ⟨rfl, h1, h2, rfl⟩, hn, rfl⟩
        · rintro ⟨k, v, ⟨rfl, _, _, rfl⟩, h3, rfl⟩
          simp only [h3]

theorem lawful_xpub (L : Lib) {isSlot : Pair → Prop} (hs : ∀ k v, isSlot ⟨⟨PSBT_GLOBAL_XPUB, k⟩, v⟩) :
    LawfulSlot isSlot (insXpub (L := L)) BMap.empty (glEmit L .xpub)
      (fun m => ∀ p ∈ glEmit L .xpub m, PairFits p) := by
  refine LawfulSlot.congr ((isKeyed_xpub L isSlot).lawful
    (emit1 := fun kv => ⟨⟨PSBT_GLOBAL_XPUB, kv.1.bytes⟩, keySourceCodec.ser kv.2⟩) (fun _ => rfl)
    (Extra := fun _ _ => True) ?_ ?_) (fun f => and_iff_left (fun _ _ _ => trivial))
  · intro p k v hp _ h
    rw [V2.parseXpub_some] at h
    refine ⟨⟨Nat.le_trans (Foreign.bytes_length_le h.1) hp.1, ?_⟩, trivial⟩
    rw [← keySource_exact h.2]; exact hp.2
  · intro k v _ _
    exact ⟨hs _ _, V2.parseXpub_some.mpr ⟨Foreign.parse_bytes _ _, keySource_rt v⟩⟩

/-- What each variable of a decoded global map satisfies. -/
def GlInv (L : Lib) : (s : GlSlot) → GlF L s → Prop
  | .tx => fun o => (∀ p ∈ emitTx o, PairFits p) ∧ ∀ t, o = some t → ∀ i ∈ t.input, i.witness = []
  | .xpub => fun m => ∀ p ∈ glEmit L .xpub m, PairFits p
  | .version => fun o => (∀ p ∈ emitOpt PSBT_GLOBAL_VERSION u32Codec o, PairFits p) ∧ ∀ v, o = some v → v = 0
  | .proprietary => fun f => (∀ p ∈ emitProp f, PairFits p) ∧ ∀ k v, f.get k = some v → PropFits k
  | .excluded => fun f => f = ()
  | .unknown => fun f => (∀ p ∈ emitUnknown f, PairFits p) ∧ ∀ k v, f.get k = some v → glSlot k.ty = .unknown

theorem gl_lawful (L : Lib) (s : GlSlot) :
    LawfulSlot (fun p => (glSys L).slotOf p = s) ((glSys L).step s) ((glSys L).get s (GlobalAcc.start L))
      (glEmit L s) (GlInv L s) := by
  have hk : ∀ t s', glSlot t = s' → ∀ k v, (glSys L).slotOf ⟨⟨t, k⟩, v⟩ = s' := fun t s' h k v => h
  have hb : ∀ t s', glSlot t = s' → ∀ v, (glSys L).slotOf (bare t v) = s' := fun t s' h v => h
  cases s with
  | tx => exact lawful_glTx (hb _ _ (by decide))
  | xpub => exact lawful_xpub L (hk _ _ (by decide))
  | version => exact lawful_glVersion (hb _ _ (by decide))
  | proprietary => exact lawful_prop (isKeyed_insProp _) (hk _ _ (by decide))
  | excluded => exact lawful_never (fun f p f' _ h => by cases h)
  | unknown => exact lawful_unknown (isT := fun t => glSlot t = .unknown)

theorem gl_comm (L : Lib) (s : GlSlot) : CommSlot (fun p => True ∧ (glSys L).slotOf p = s) ((glSys L).step s) := by
  cases s with
  | tx => exact (isOpt_tx _).comm
  | xpub => exact (isKeyed_xpub L _).comm V2.parseXpub_key
  | version => exact (isOpt_version _).comm
  | proprietary => exact (isKeyed_insProp _).comm parseProp_key
  | unknown => exact (isKeyed_insUnknown _).comm parseUnknown_key
  | excluded => exact comm_never (fun f p f' _ h => by cases h)

theorem gl_shrinks (L : Lib) (s : GlSlot) :
    Shrinks (fun p => (glSys L).slotOf p = s) ((glSys L).step s) (glEmit L s) := by
  cases s with
  | tx =>
    refine (isOpt_tx _).shrinks (emit1 := fun t => bare PSBT_GLOBAL_UNSIGNED_TX (encTxLegacy t)) (fun _ => rfl) ?_
    intro p v h
    rw [parseTx_some] at h
    obtain ⟨h1, -⟩ := decTxLegacy_ok h.2
    apply encPair_mono
    · simp [bare]
    · rw [h1]; simp [bare]
  | xpub =>
    refine (isKeyed_xpub L _).shrinks (emit1 := fun kv => ⟨⟨PSBT_GLOBAL_XPUB, kv.1.bytes⟩, keySourceCodec.ser kv.2⟩)
      (fun _ => rfl) ?_
    intro p k v h
    rw [V2.parseXpub_some] at h
    apply encPair_mono
    · exact Foreign.bytes_length_le h.1
    · rw [keySource_exact h.2]; exact Nat.le_refl _
  | version =>
    refine (isOpt_version _).shrinks (emit1 := fun v => bare PSBT_GLOBAL_VERSION (u32Codec.ser v)) (fun _ => rfl) ?_
    intro p v h
    rw [parseVersion_some] at h
    apply encPair_mono
    · simp [bare]
    · rw [h.1.2.1]; exact Nat.le_of_eq (u32_ser_length v)
  | proprietary =>
    refine (isKeyed_insProp _).shrinks (emit1 := fun kv => ⟨kv.1.toKey, kv.2⟩) (fun _ => rfl) ?_
    intro p k v h
    rw [parseProp_some] at h
    obtain ⟨h3, -⟩ := PropKey.ofKey_ok h.1
    apply encPair_mono
    · rw [h3]; exact Nat.le_refl _
    · rw [h.2]; exact Nat.le_refl _
  | unknown =>
    refine (isKeyed_insUnknown _).shrinks (emit1 := fun kv => ⟨kv.1, kv.2⟩) (fun _ => rfl) ?_
    intro p k v h
    simp only [parseUnknown, Option.some.injEq, Prod.mk.injEq] at h
    rw [← h.1, ← h.2]; exact Nat.le_refl _
  | excluded => intro f p f' _ h; cases h

/-- What the loop leaves becomes the PSBT. -/
def GlobalAcc.toPsbt {L : Lib} (a : GlobalAcc L) (tx : Tx) : Psbt L where
  unsignedTx := tx
  version := a.version.getD 0
  xpub := a.xpub
  proprietary := a.proprietary
  unknown := a.unknown
  inputs := []
  outputs := []

theorem decodeGlobal_ok {L : Lib} {b r : Bytes} {p : Psbt L} :
    decodeGlobal L b = .ok (p, r) ↔
      ∃ (ps : List Pair) (a : GlobalAcc L) (tx : Tx), b = ps.flatMap encPair ++ 0 :: r ∧ (∀ q ∈ ps, PairFits q) ∧
        encLen ps < MAX_VEC_SIZE ∧ ps.foldlM GlobalAcc.insertPair (GlobalAcc.start L) = .ok a ∧ a.tx = some tx ∧
        p = a.toPsbt tx := by
  unfold decodeGlobal
  simp only [bind_ok]
  constructor
  · rintro ⟨⟨a, r'⟩, h1, h2⟩
    simp only at h2
    rw [decodeMap_ok] at h1
    obtain ⟨ps, h3, h4, h5⟩ := h1
    cases e : a.tx with
    | none => rw [e] at h2; cases h2
    | some tx =>
      rw [e] at h2
      simp only [Except.ok.injEq, Prod.mk.injEq] at h2
      obtain ⟨h2, rfl⟩ := h2
      refine ⟨ps, a, tx, ?_, h4, ?_, h5, e, h2.symm⟩
      · conv => lhs; rw [← List.take_append_drop MAX_VEC_SIZE b, h3]
        simp
      · have hl : (b.take MAX_VEC_SIZE).length ≤ MAX_VEC_SIZE := by rw [List.length_take]; exact Nat.min_le_left _ _
        rw [h3] at hl
        simp only [List.length_append, List.length_cons] at hl
        simp only [encLen]; omega
  · rintro ⟨ps, a, tx, rfl, h4, h6, h5, h7, rfl⟩
    refine ⟨(a, r.take (MAX_VEC_SIZE - encLen ps - 1)), ?_, ?_⟩
    · rw [decodeMap_ok]
      refine ⟨ps, ?_, h4, h5⟩
      rw [List.take_append]
      have e1 : (ps.flatMap encPair).take MAX_VEC_SIZE = ps.flatMap encPair :=
        List.take_of_length_le (Nat.le_of_lt h6)
      rw [e1]
      have e2 : MAX_VEC_SIZE - (ps.flatMap encPair).length = (MAX_VEC_SIZE - encLen ps - 1) + 1 := by
        simp only [encLen] at *; omega
      rw [e2, List.take_succ_cons]
    · simp only [h7]
      have e1 : (ps.flatMap encPair ++ 0 :: r).drop MAX_VEC_SIZE = r.drop (MAX_VEC_SIZE - encLen ps - 1) := by
        rw [List.drop_append]
        rw [List.drop_of_length_le (Nat.le_of_lt h6)]
        have e2 : MAX_VEC_SIZE - (ps.flatMap encPair).length = (MAX_VEC_SIZE - encLen ps - 1) + 1 := by
          simp only [encLen] at *; omega
        rw [e2, List.drop_succ_cons, List.nil_append]
      rw [e1, List.take_append_drop]
      rfl

theorem gl_size_iff {L : Lib} (p : Psbt L) :
    (p.getPairs.flatMap fun q => Spec.pairBytes q.key.ty q.key.key q.value).length + 1 ≤ 4000000 ↔
      encLen p.getPairs < MAX_VEC_SIZE := by
  simp only [pairBytes_encPair, encLen, MAX_VEC_SIZE]
  exact Nat.lt_iff_add_one_le.symm

theorem gl_wf_iff {L : Lib} (p : Psbt L) :
    (p.version = 0 ∧ (∀ i ∈ p.unsignedTx.input, i.witness = []) ∧ (∀ q ∈ p.getPairs, Spec.PairOk q) ∧
      (∀ k v, p.proprietary.get k = some v → Spec.PropOk k) ∧
      (∀ k v, p.unknown.get k = some v → k.ty ∉ Spec.V0.globalTypes)) ↔
    (∀ s, GlInv L s (glGet L s (accOf p))) := by
  have hsz : (∀ q ∈ p.getPairs, Spec.PairOk q) ↔ ∀ s, ∀ q ∈ glEmit L s (glGet L s (accOf p)), PairFits q := by
    rw [gl_pairs]
    simp only [← pairFits_iff]
    exact V2.mem_pairs (glSys L) mem_glOrder
  constructor
  · rintro ⟨h1, h2, h3, h4, h5⟩
    have hz := hsz.mp h3
    intro s
    cases s with
    | tx => exact ⟨hz .tx, fun t e => by cases e; exact h2⟩
    | version =>
      refine ⟨hz .version, fun v e => ?_⟩
      simp [glGet, accOf, h1] at e
    | proprietary => exact ⟨hz .proprietary, fun k v e => (propFits_iff k).mpr (h4 k v e)⟩
    | unknown => exact ⟨hz .unknown, fun k v e => (glSlot_unknown _).mpr (h5 k v e)⟩
    | excluded => rfl
    | xpub => exact hz _
  · intro h
    refine ⟨?_, (h .tx).2 _ rfl, hsz.mpr ?_, fun k v e => (propFits_iff k).mp ((h .proprietary).2 k v e),
      fun k v e => (glSlot_unknown _).mp ((h .unknown).2 k v e)⟩
    · have h1 := (h .version).2 p.version
      simp only [glGet, accOf] at h1
      by_cases hv : p.version > 0
      · rw [if_pos hv] at h1; exact h1 rfl
      · exact UInt32.toNat_inj.mp (Nat.eq_zero_of_not_pos hv)
    · intro s
      have hs := h s
      cases s with
      | tx => exact hs.1
      | version => exact hs.1
      | proprietary => exact hs.1
      | unknown => exact hs.1
      | excluded => intro p hp; cases hp
      | xpub => exact hs

theorem gl_rt {L : Lib} {p : Psbt L} (h : ∀ s, GlInv L s (glGet L s (accOf p))) (hl : encLen p.getPairs < MAX_VEC_SIZE)
    (hv : p.version = 0) (r : Bytes) :
    decodeGlobal L (serializeMap p.getPairs ++ r) = .ok ({ p with inputs := [], outputs := [] }, r) := by
  rw [decodeGlobal_ok]
  refine ⟨p.getPairs, accOf p, p.unsignedTx, serializeMap_append _ _, ?_, hl, ?_, rfl, ?_⟩
  · rw [gl_pairs]
    exact (glSys L).fits (gl_lawful L) h
  · rw [gl_pairs, gl_ins]
    exact (glSys L).rt glOrder_nodup mem_glOrder (gl_lawful L) h
  · simp [GlobalAcc.toPsbt, accOf, hv]

theorem gl_of_decode {L : Lib} {b r : Bytes} {p : Psbt L} (h : decodeGlobal L b = .ok (p, r)) :
    (∀ s, GlInv L s (glGet L s (accOf p))) ∧ encLen p.getPairs < MAX_VEC_SIZE ∧ p.inputs = [] ∧ p.outputs = [] := by
  rw [decodeGlobal_ok] at h
  obtain ⟨ps, a, tx, _, h2, h3, h4, h5, rfl⟩ := h
  rw [gl_ins] at h4
  have hi := (glSys L).inv (gl_lawful L) h2 h4
  have hv : (a.toPsbt tx).version = 0 := by
    simp only [GlobalAcc.toPsbt]
    cases e : a.version with
    | none => rfl
    | some v => exact (hi .version).2 v e
  have ht : glGet L .tx a = glGet L .tx (accOf (a.toPsbt tx)) := h5
  have hva : (accOf (a.toPsbt tx)).version = none := by simp [accOf, hv]
  refine ⟨?_, ?_, rfl, rfl⟩
  · intro s
    cases s with
    | tx => rw [← ht]; exact hi .tx
    | version =>
      show GlInv L .version (accOf (a.toPsbt tx)).version
      rw [hva]
      exact ⟨fun p hp => (by cases hp), fun v e => (by cases e)⟩
    | proprietary => exact hi .proprietary
    | unknown => exact hi .unknown
    | excluded => rfl
    | xpub => exact hi .xpub
  · refine Nat.lt_of_le_of_lt ?_ h3
    have := (glSys L).shrinks glOrder_nodup (emit := glEmit L) (m0 := GlobalAcc.start L) (by intro s; cases s <;> rfl)
      (gl_shrinks L) h4
    refine Nat.le_trans ?_ this
    rw [gl_pairs]
    simp only [SlotSys.pairs, glOrder, List.flatMap_cons, List.flatMap_nil, encLen_append, encLen_nil]
    have e1 : glEmit L .version ((glSys L).get .version (accOf (a.toPsbt tx))) = [] := by
      show emitOpt _ _ (accOf (a.toPsbt tx)).version = []
      rw [hva]; rfl
    have e2 : glEmit L .tx ((glSys L).get .tx (accOf (a.toPsbt tx))) = glEmit L .tx ((glSys L).get .tx a) := by
      show glEmit L .tx (glGet L .tx _) = _
      rw [← ht]; rfl
    rw [e1, e2]
    simp only [encLen_nil, Nat.zero_add]
    show _ + (encLen (glEmit L .xpub a.xpub) + (encLen (glEmit L .proprietary a.proprietary) + (encLen (glEmit L .unknown a.unknown) + _))) ≤ _ + (encLen (glEmit L .xpub a.xpub) + (_ + (encLen (glEmit L .proprietary a.proprietary) + (encLen (glEmit L .unknown a.unknown) + _))))
    simp only [glEmit, encLen_nil]
    omega

/-! ### The complete PSBT -/

theorem txInChecks_ok {is : List TxIn} :
    txInChecks is = .ok () ↔ ∀ i ∈ is, i.scriptSig = [] ∧ i.witness = [] := by
  induction is with
  | nil => simp [txInChecks]
  | cons i is ih =>
    simp only [txInChecks, List.mem_cons, forall_eq_or_imp]
    split
    · rename_i h; simp [h]
    · rename_i h
      split
      · rename_i h2; simp [h2]
      · rename_i h2
        simp only [ne_eq, Decidable.not_not] at h h2
        rw [ih]; simp [h, h2]

theorem deserialize_ok {L : Lib} {b : Bytes} {p : Psbt L} :
    Psbt.deserialize L b = .ok p ↔
      ∃ d r1 r2 r3, b = V2.MAGIC ++ 0xff :: d ∧
        decodeGlobal L d = .ok ({ p with inputs := [], outputs := [] }, r1) ∧
        (∀ i ∈ p.unsignedTx.input, i.scriptSig = [] ∧ i.witness = []) ∧
        p.unsignedTx.input.length * L.inputSize < 2 ^ 63 ∧
        V2.decodeN (Input.decode L) p.unsignedTx.input.length r1 = .ok (p.inputs, r2) ∧
        p.unsignedTx.output.length * L.outputSize < 2 ^ 63 ∧
        V2.decodeN (Output.decode L) p.unsignedTx.output.length r2 = .ok (p.outputs, r3) := by
  unfold Psbt.deserialize
  constructor
  · intro h
    split at h
    · cases h
    · rename_i hm
      split at h
      · cases h
      · rename_i hs
        simp only [ne_eq, Decidable.not_not] at hm hs
        simp only [bind_ok, V2.orFail_ok] at h
        obtain ⟨⟨g, r1⟩, h1, u, h2, h3⟩ := h
        simp only at h2 h3
        split at h3
        · cases h3
        · rename_i hc1
          simp only [bind_ok, V2.orFail_ok] at h3
          obtain ⟨⟨is, r2⟩, h3, h4⟩ := h3
          simp only at h4
          split at h4
          · cases h4
          · rename_i hc2
            simp only [bind_ok, V2.orFail_ok] at h4
            obtain ⟨⟨os, r3⟩, h5, h6⟩ := h4
            cases h6
            rw [V2.capacityOverflow_iff, Classical.not_not] at hc1 hc2
            obtain ⟨-, -, hi, ho⟩ := gl_of_decode h1
            refine ⟨b.drop 5, r1, r2, r3, ?_, ?_, txInChecks_ok.mp h2, hc1, h3, hc2, h5⟩
            · rw [← hm]
              rw [List.getElem?_eq_some_iff] at hs
              obtain ⟨hl, hs⟩ := hs
              rw [← hs]
              rw [List.getElem_cons_drop]
              simp
            · rw [h1]
              cases g
              simp only at hi ho
              subst hi ho
              rfl
  · rintro ⟨d, r1, r2, r3, rfl, h1, hu, hc1, h3, hc2, h5⟩
    rw [if_neg (by simp [V2.MAGIC]), if_neg (by simp [V2.MAGIC])]
    have hd : (V2.MAGIC ++ 0xff :: d).drop 5 = d := rfl
    have n1 : ¬ capacityOverflow p.unsignedTx.input.length L.inputSize = true := by
      rw [V2.capacityOverflow_iff, Classical.not_not]; exact hc1
    have n2 : ¬ capacityOverflow p.unsignedTx.output.length L.outputSize = true := by
      rw [V2.capacityOverflow_iff, Classical.not_not]; exact hc2
    rw [hd, V2.orFail_ok.mpr h1]
    have h2 : Psbt.unsignedTxChecks { p with inputs := [], outputs := [] } = .ok () := txInChecks_ok.mpr hu
    simp only [ok_bind, V2.orFail_ok.mpr h2, if_neg n1, V2.orFail_ok.mpr h3, if_neg n2, V2.orFail_ok.mpr h5]

theorem wf_of_deserialize {L : Lib} {b : Bytes} {p : Psbt L} (h : Psbt.deserialize L b = .ok p) : Spec.V0.WF p := by
  rw [deserialize_ok] at h
  obtain ⟨d, r1, r2, r3, rfl, h1, hu, hc1, h3, hc2, h5⟩ := h
  obtain ⟨l1, w1⟩ := V2.decodeN_ok (fun _ _ _ => Input.wf_of_decode) h3
  obtain ⟨l2, w2⟩ := V2.decodeN_ok (fun _ _ _ => Output.wf_of_decode) h5
  obtain ⟨g1, g2, -, -⟩ := gl_of_decode h1
  obtain ⟨a1, a2, a3, a4, a5⟩ := (gl_wf_iff p).mpr g1
  exact ⟨a1, hu, (gl_size_iff p).mpr g2, a3, a4, a5, w1, w2, l1, l2, by rw [l1]; exact hc1, by rw [l2]; exact hc2⟩

theorem deserialize_serialize_append {L : Lib} {p : Psbt L} (h : Spec.V0.WF p) (r : Bytes) :
    Psbt.deserialize L (p.serialize ++ r) = .ok p := by
  rw [deserialize_ok]
  refine ⟨serializeMap p.getPairs ++ (p.inputs.flatMap (fun i => serializeMap i.getPairs) ++
    (p.outputs.flatMap (fun o => serializeMap o.getPairs) ++ r)), _,
    p.outputs.flatMap (fun o => serializeMap o.getPairs) ++ r, r, ?_,
    gl_rt (p := p) ?_ ((gl_size_iff p).mp h.globalSize) h.version _, h.unsigned, ?_, ?_, ?_, ?_⟩
  · simp [Psbt.serialize, List.append_assoc]
  · exact (gl_wf_iff p).mp ⟨h.version, fun i hi => (h.unsigned i hi).2, h.sizes, h.props, h.unknowns⟩
  · rw [← h.inputCount]; exact h.inputMem
  · rw [← h.inputCount]
    exact V2.decodeN_enc (fun i hi r => Input.rt (h.inputs i hi) r) _
  · rw [← h.outputCount]; exact h.outputMem
  · rw [← h.outputCount]
    exact V2.decodeN_enc (fun i hi r => Output.rt (h.outputs i hi) r) _

/-! ### Maps from lists of pairs -/

theorem unknown_survive {ε : Type} [MapErr ε] {ps : List Pair} {m : BMap RawKey Bytes}
    (f : ps.foldlM (insUnknown (ε := ε)) BMap.empty = .ok m) :
    (∀ p ∈ ps, m.get p.key = some p.value) ∧ ∀ k v, m.get k = some v → ⟨k, v⟩ ∈ ps := by
  have hu := isKeyed_insUnknown (ε := ε) (fun _ => True)
  constructor
  · intro p hp
    obtain ⟨k, v, e1, e2⟩ := hu.get_of_mem (fun _ _ => trivial) f hp
    simp only [parseUnknown, Option.some.injEq, Prod.mk.injEq] at e1
    obtain ⟨rfl, rfl⟩ := e1
    exact e2
  · intro k v hk
    rcases hu.mem_of_get (fun _ _ => trivial) f hk with h3 | ⟨p, hpm, h3⟩
    · simp at h3
    · simp only [parseUnknown, Option.some.injEq, Prod.mk.injEq] at h3
      obtain ⟨rfl, rfl⟩ := h3
      exact hpm

theorem prop_survive {ε : Type} [MapErr ε] {ps : List Pair} {m : BMap PropKey Bytes}
    (f : ps.foldlM (insProp (ε := ε)) BMap.empty = .ok m) :
    (∀ p ∈ ps, ∃ k, k.toKey = p.key ∧ m.get k = some p.value) ∧ ∀ k v, m.get k = some v → ⟨k.toKey, v⟩ ∈ ps := by
  have hu := isKeyed_insProp (ε := ε) (fun _ => True)
  constructor
  · intro p hp
    obtain ⟨k, v, e1, e2⟩ := hu.get_of_mem (fun _ _ => trivial) f hp
    rw [parseProp_some] at e1
    obtain ⟨e1, rfl⟩ := e1
    exact ⟨k, (PropKey.ofKey_ok e1).1.symm, e2⟩
  · intro k v hk
    rcases hu.mem_of_get (fun _ _ => trivial) f hk with h3 | ⟨p, hpm, h3⟩
    · simp at h3
    · rw [parseProp_some] at h3
      obtain ⟨e1, rfl⟩ := h3
      rw [← (PropKey.ofKey_ok e1).1]
      exact hpm

theorem Input.decode_pairs {L : Lib} {ps : List Pair} (hp : ∀ p ∈ ps, Spec.PairOk p) {r r' : Bytes} {i : Input L} :
    Input.decode L (serializeMap ps ++ r) = .ok (i, r') ↔
      r' = r ∧ ps.foldlM Input.insertPair (Input.default L) = .ok i := by
  have hp' : ∀ p ∈ ps, PairFits p := fun p hq => (pairFits_iff p).mpr (hp p hq)
  rw [Input.decode_ok, serializeMap_append]
  constructor
  · rintro ⟨qs, h1, h2, h3⟩
    obtain ⟨rfl, rfl⟩ := pairs_unique hp' h2 h1
    exact ⟨rfl, h3⟩
  · rintro ⟨rfl, h3⟩
    exact ⟨ps, rfl, hp', h3⟩

theorem Output.decode_pairs {L : Lib} {ps : List Pair} (hp : ∀ p ∈ ps, Spec.PairOk p) {r r' : Bytes} {o : Output L} :
    Output.decode L (serializeMap ps ++ r) = .ok (o, r') ↔
      r' = r ∧ ps.foldlM Output.insertPair (Output.default L) = .ok o := by
  have hp' : ∀ p ∈ ps, PairFits p := fun p hq => (pairFits_iff p).mpr (hp p hq)
  rw [Output.decode_ok, serializeMap_append]
  constructor
  · rintro ⟨qs, h1, h2, h3⟩
    obtain ⟨rfl, rfl⟩ := pairs_unique hp' h2 h1
    exact ⟨rfl, h3⟩
  · rintro ⟨rfl, h3⟩
    exact ⟨ps, rfl, hp', h3⟩

theorem decodeGlobal_pairs {L : Lib} {ps : List Pair} (hp : ∀ p ∈ ps, Spec.PairOk p) {r r' : Bytes} {p : Psbt L} :
    decodeGlobal L (serializeMap ps ++ r) = .ok (p, r') ↔
      r' = r ∧ encLen ps < MAX_VEC_SIZE ∧
      ∃ a tx, ps.foldlM GlobalAcc.insertPair (GlobalAcc.start L) = .ok a ∧ a.tx = some tx ∧ p = a.toPsbt tx := by
  have hp' : ∀ p ∈ ps, PairFits p := fun p hq => (pairFits_iff p).mpr (hp p hq)
  rw [decodeGlobal_ok, serializeMap_append]
  constructor
  · rintro ⟨qs, a, tx, h1, h2, h3, h4, h5, h6⟩
    obtain ⟨rfl, rfl⟩ := pairs_unique hp' h2 h1
    exact ⟨rfl, h3, a, tx, h4, h5, h6⟩
  · rintro ⟨rfl, h3, a, tx, h4, h5, h6⟩
    exact ⟨ps, a, tx, rfl, hp', h3, h4, h5, h6⟩

theorem Input.decode_shape {L : Lib} (b : Bytes) (i : Input L) (r : Bytes) (h : Input.decode L b = .ok (i, r)) :
    ∃ ps : List Pair, b = serializeMap ps ++ r ∧ (∀ p ∈ ps, PairFits p) ∧
      ∀ r', Input.decode L (serializeMap ps ++ r') = .ok (i, r') := by
  rw [Input.decode_ok] at h
  obtain ⟨ps, h1, h2, h3⟩ := h
  exact ⟨ps, by rw [serializeMap_append]; exact h1, h2,
    fun r' => (Input.decode_pairs fun p hp => (pairFits_iff p).mp (h2 p hp)).mpr ⟨rfl, h3⟩⟩

theorem Output.decode_shape {L : Lib} (b : Bytes) (i : Output L) (r : Bytes) (h : Output.decode L b = .ok (i, r)) :
    ∃ ps : List Pair, b = serializeMap ps ++ r ∧ (∀ p ∈ ps, PairFits p) ∧
      ∀ r', Output.decode L (serializeMap ps ++ r') = .ok (i, r') := by
  rw [Output.decode_ok] at h
  obtain ⟨ps, h1, h2, h3⟩ := h
  exact ⟨ps, by rw [serializeMap_append]; exact h1, h2,
    fun r' => (Output.decode_pairs fun p hp => (pairFits_iff p).mp (h2 p hp)).mpr ⟨rfl, h3⟩⟩

theorem decodeGlobal_shape {L : Lib} (b : Bytes) (i : Psbt L) (r : Bytes) (h : decodeGlobal L b = .ok (i, r)) :
    ∃ ps : List Pair, b = serializeMap ps ++ r ∧ (∀ p ∈ ps, PairFits p) ∧
      ∀ r', decodeGlobal L (serializeMap ps ++ r') = .ok (i, r') := by
  rw [decodeGlobal_ok] at h
  obtain ⟨ps, a, tx, h1, h2, h3, h4, h5, h6⟩ := h
  exact ⟨ps, by rw [serializeMap_append]; exact h1, h2,
    fun r' => (decodeGlobal_pairs fun p hp => (pairFits_iff p).mp (h2 p hp)).mpr ⟨rfl, h3, a, tx, h4, h5, h6⟩⟩

theorem encLen_perm {ps qs : List Pair} (h : List.Perm ps qs) : encLen ps = encLen qs := by
  induction h with
  | nil => rfl
  | cons _ _ ih => simp [ih]
  | swap _ _ _ => simp; omega
  | trans _ _ h1 h2 => rw [h1, h2]

theorem key_slot_gl {L : Lib} (p q : Pair) (h : p.key = q.key) : (glSys L).slotOf p = (glSys L).slotOf q := by
  simp only [glSys, h]
theorem key_slot_in {L : Lib} (p q : Pair) (h : p.key = q.key) : (inSys L).slotOf p = (inSys L).slotOf q := by
  simp only [inSys, h]
theorem key_slot_out {L : Lib} (p q : Pair) (h : p.key = q.key) : (outSys L).slotOf p = (outSys L).slotOf q := by
  simp only [outSys, h]

theorem glSlot_inv : ∀ t, (glSlot t = .tx ↔ t = 0x00) ∧ (glSlot t = .proprietary ↔ t = 0xFC) ∧
    (glSlot t = .excluded ↔ t ∈ [0x02, 0x03, 0x04, 0x05, 0x06]) := forall_u8 (by decide +kernel)
theorem inSlot_inv : ∀ t, (inSlot t = .proprietary ↔ t = 0xFC) ∧
    (inSlot t = .excluded ↔ t ∈ [0x0e, 0x0f, 0x10, 0x11, 0x12]) := forall_u8 (by decide +kernel)
theorem outSlot_inv : ∀ t, (outSlot t = .proprietary ↔ t = 0xFC) ∧ (outSlot t = .excluded ↔ t ∈ [0x03, 0x04]) :=
  forall_u8 (by decide +kernel)

theorem excluded_nil {M S ε : Type} [DecidableEq S] (Y : SlotSys M S ε) {s : S}
    (hs : ∀ f p f', Y.step s f p ≠ .ok f') {ps : List Pair} {m m' : M} (e : ps.foldlM Y.ins m = .ok m') :
    ∀ p ∈ ps, Y.slotOf p ≠ s := by
  intro p hp h
  rw [Y.foldlM_iff] at e
  have hm : p ∈ Y.ofSlot s ps := Y.mem_ofSlot.mpr ⟨hp, h⟩
  have := e s
  cases hl : Y.ofSlot s ps with
  | nil => rw [hl] at hm; cases hm
  | cons q l =>
    rw [hl] at this
    simp only [List.foldlM_cons, bind_ok] at this
    obtain ⟨f1, h1, _⟩ := this
    exact hs _ _ _ h1

theorem BMap.l_nil {K V : Type} [OrdKey K] (m : BMap K V) : m.l = [] ↔ m = .empty := by
  constructor
  · intro h
    obtain ⟨l, hl⟩ := m
    simp only at h
    subst h
    rfl
  · rintro rfl; rfl

theorem emitOpt_nil {α : Type} {t : UInt8} {c : Codec α} {o : Option α} : emitOpt t c o = [] ↔ o = none := by
  cases o <;> simp [emitOpt]
theorem emitMap_nil {K V : Type} [OrdKey K] {t : UInt8} {ck : Codec K} {cv : Codec V} {m : BMap K V} :
    emitMap t ck cv m = [] ↔ m = .empty := by
  simp [emitMap, BMap.l_nil]
theorem emitProp_nil {m : BMap PropKey Bytes} : emitProp m = [] ↔ m = .empty := by simp [emitProp, BMap.l_nil]
theorem emitUnknown_nil {m : BMap RawKey Bytes} : emitUnknown m = [] ↔ m = .empty := by simp [emitUnknown, BMap.l_nil]

end Psbt.V0
