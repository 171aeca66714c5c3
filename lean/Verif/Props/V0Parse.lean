/-
C45-C47, C51, and C11-C16 for PSBT v0: the binary form of PSBT v0 and its creation.

`L` stands for any behaviour of the dependencies; `serializeMap ps` is the concatenation of the pairs `ps` followed by a
zero byte.
-/
import Verif.Lemmas.V0Psbt
import Verif.Spec.Demo
import Verif.Props.Wire
namespace Psbt.V0
open Psbt

/-! ### A concrete PSBT for the examples -/

def demoTx : Tx where
  version := 2
  lockTime := 17
  input := [⟨⟨Demo.rep 32 0x11, 1⟩, [], 0xfffffffd, []⟩, ⟨⟨Demo.rep 32 0x12, 0⟩, [], 0xffffffff, []⟩]
  output := [⟨4000, [0x51]⟩]

def demoInput : Input (Demo.lib false) :=
  { Input.default (Demo.lib false) with
    witnessUtxo := some ⟨5000, [0x51]⟩
    partialSigs := BMap.empty.insert (Demo.val 33 (by decide) 2) ⟨Demo.val 8 (by decide) 9, ⟨1, by decide⟩⟩
    sha256Preimages := BMap.empty.insert (Demo.pad 32 [2, 7, 7]) [7, 7]
    proprietary := BMap.empty.insert ⟨[0x61], 1, [5]⟩ [6]
    unknown := BMap.empty.insert ⟨0x77, [1]⟩ [2] }

def demo : Psbt (Demo.lib false) where
  unsignedTx := demoTx
  version := 0
  xpub := BMap.empty.insert (Demo.val 78 (by decide) 4) (⟨[1, 2, 3, 4], rfl⟩, [7, 8])
  proprietary := BMap.empty
  unknown := BMap.empty.insert ⟨0x50, []⟩ [1, 2, 3]
  inputs := [demoInput, Input.default _]
  outputs := [{ Output.default (Demo.lib false) with redeemScript := some [0x52] }]

theorem demo_roundtrip : Psbt.deserialize (Demo.lib false) demo.serialize = .ok demo := by decide +kernel

/-! ### C45, C46, C56 -/

/-- C45. A PSBT v0 is read back unchanged from its own serialisation if and only if it is well-formed. -/
theorem C45_roundtrip_iff {L : Lib} (p : Psbt L) : Psbt.deserialize L p.serialize = .ok p ↔ Spec.V0.WF p := by
  constructor
  · exact wf_of_deserialize
  · intro h
    have := deserialize_serialize_append h []
    simpa using this

example : Spec.V0.WF demo := wf_of_deserialize demo_roundtrip

/-- The version matters: a PSBT that says it is version 1 is written with this version and then refused. -/
example : Psbt.deserialize (Demo.lib false) (Psbt.serialize { demo with version := 1 }) = .error (.err .version) := by
  decide +kernel

/-- C46. What was parsed, serialised and parsed again is the same PSBT. -/
theorem C46_parse_stable {L : Lib} {b : Bytes} {p : Psbt L} (h : Psbt.deserialize L b = .ok p) :
    Psbt.deserialize L p.serialize = .ok p :=
  (C45_roundtrip_iff p).mpr (wf_of_deserialize h)

example : ∃ b, Psbt.deserialize (Demo.lib false) b = .ok demo ∧ b ≠ demo.serialize :=
  ⟨demo.serialize ++ [1, 2, 3], by decide +kernel, by decide +kernel⟩

/-- C56 for PSBT v0. Serialisations of well-formed PSBTs are prefix-free. -/
theorem C56_v0_prefix_free {L : Lib} {p q : Psbt L} (hp : Spec.V0.WF p) (hq : Spec.V0.WF q) {r s : Bytes}
    (h : p.serialize ++ r = q.serialize ++ s) : p = q ∧ r = s := by
  have h1 := deserialize_serialize_append hp r
  have h2 := deserialize_serialize_append hq s
  rw [h, h2] at h1
  cases h1
  exact ⟨rfl, List.append_cancel_left h⟩

/-! ### The maps inside a parsed PSBT -/

/-- A parsed byte string is the magic and separator, a global map, one input map per input and one output map per output
of the unsigned transaction (and possibly more bytes), and the parts of the PSBT are what these maps parse to. With this
the statements below about single maps are statements about whole PSBTs. -/
theorem parsed_shape {L : Lib} {b : Bytes} {p : Psbt L} (h : Psbt.deserialize L b = .ok p) :
    ∃ (g : List Pair) (is os : List (List Pair)) (rest : Bytes),
      b = [0x70, 0x73, 0x62, 0x74, 0xff] ++ Spec.mapBytes g ++ is.flatMap Spec.mapBytes ++ os.flatMap Spec.mapBytes ++ rest ∧
      (∀ q ∈ g, Spec.PairOk q) ∧ (∀ ps ∈ is, ∀ q ∈ ps, Spec.PairOk q) ∧ (∀ ps ∈ os, ∀ q ∈ ps, Spec.PairOk q) ∧
      (∀ r, decodeGlobal L (Spec.mapBytes g ++ r) = .ok ({ p with inputs := [], outputs := [] }, r)) ∧
      is.length = p.inputs.length ∧
      (∀ j (h1 : j < is.length) (h2 : j < p.inputs.length), ∀ r,
        Input.decode L (Spec.mapBytes is[j] ++ r) = .ok (p.inputs[j], r)) ∧
      os.length = p.outputs.length ∧
      (∀ j (h1 : j < os.length) (h2 : j < p.outputs.length), ∀ r,
        Output.decode L (Spec.mapBytes os[j] ++ r) = .ok (p.outputs[j], r)) := by
  simp only [mapBytes_fun]
  rw [deserialize_ok] at h
  obtain ⟨d, r1, r2, r3, rfl, h1, _, _, h2, _, h3⟩ := h
  obtain ⟨g, e1, f1, g1⟩ := decodeGlobal_shape _ _ _ h1
  obtain ⟨is, e2, l2, f2, g2⟩ := V2.decodeN_shape Input.decode_shape h2
  obtain ⟨os, e3, l3, f3, g3⟩ := V2.decodeN_shape Output.decode_shape h3
  refine ⟨g, is, os, r3, ?_, fun q hq => (pairFits_iff q).mp (f1 q hq),
    fun ps hps q hq => (pairFits_iff q).mp (f2 ps hps q hq), fun ps hps q hq => (pairFits_iff q).mp (f3 ps hps q hq),
    g1, l2, g2, l3, g3⟩
  rw [e1, e2, e3]
  simp [V2.MAGIC]

/-! ### C11, C12: duplicates and order -/

section
variable {L : Lib} {ps qs : List Pair} {r r' : Bytes}

/-- C11 for PSBT v0. An accepted global map contains no key twice. -/
theorem C11_v0_global {p : Psbt L} (hp : ∀ p ∈ ps, Spec.PairOk p)
    (h : decodeGlobal L (Spec.mapBytes ps ++ r) = .ok (p, r')) : (ps.map Pair.key).Nodup := by
  simp only [mapBytes_fun] at *
  obtain ⟨-, -, a, tx, h1, -⟩ := (decodeGlobal_pairs hp).mp h
  rw [gl_ins] at h1
  exact (glSys L).nodup (Q := fun _ => True) (gl_comm L) key_slot_gl (by simp) h1

/-- C11 for PSBT v0. An accepted input map contains no key twice. -/
theorem C11_v0_input {i : Input L} (hp : ∀ p ∈ ps, Spec.PairOk p)
    (h : Input.decode L (Spec.mapBytes ps ++ r) = .ok (i, r')) : (ps.map Pair.key).Nodup := by
  simp only [mapBytes_fun] at *
  obtain ⟨-, h1⟩ := (Input.decode_pairs hp).mp h
  rw [in_ins] at h1
  exact (inSys L).nodup (Q := fun _ => True) (in_comm L) key_slot_in (by simp) h1

/-- C11 for PSBT v0. An accepted output map contains no key twice. -/
theorem C11_v0_output {o : Output L} (hp : ∀ p ∈ ps, Spec.PairOk p)
    (h : Output.decode L (Spec.mapBytes ps ++ r) = .ok (o, r')) : (ps.map Pair.key).Nodup := by
  simp only [mapBytes_fun] at *
  obtain ⟨-, h1⟩ := (Output.decode_pairs hp).mp h
  rw [out_ins] at h1
  exact (outSys L).nodup (Q := fun _ => True) (out_comm L) key_slot_out (by simp) h1

/-- C11 for PSBT v0, for whole PSBTs: in every byte string that parses, no map contains a key twice. (The maps are
determined by the bytes, `pairs_unique`.) -/
theorem C11_v0_psbt {b : Bytes} {p : Psbt L} (h : Psbt.deserialize L b = .ok p) :
    ∃ (g : List Pair) (is os : List (List Pair)) (rest : Bytes),
      b = [0x70, 0x73, 0x62, 0x74, 0xff] ++ Spec.mapBytes g ++ is.flatMap Spec.mapBytes ++ os.flatMap Spec.mapBytes ++ rest ∧
      is.length = p.unsignedTx.input.length ∧ os.length = p.unsignedTx.output.length ∧
      (g.map Pair.key).Nodup ∧ (∀ ps ∈ is, (ps.map Pair.key).Nodup) ∧ (∀ ps ∈ os, (ps.map Pair.key).Nodup) := by
  have hw := wf_of_deserialize h
  obtain ⟨g, is, os, rest, h1, h2, h3, h4, h5, h6, h7, h8, h9⟩ := parsed_shape h
  refine ⟨g, is, os, rest, h1, h6.trans hw.inputCount, h8.trans hw.outputCount, C11_v0_global h2 (h5 []), ?_, ?_⟩
  · intro ps hps
    obtain ⟨j, hj, rfl⟩ := List.getElem_of_mem hps
    exact C11_v0_input (h3 _ hps) (h7 j hj (by omega) [])
  · intro ps hps
    obtain ⟨j, hj, rfl⟩ := List.getElem_of_mem hps
    exact C11_v0_output (h4 _ hps) (h9 j hj (by omega) [])

example : 5 ≤ demoInput.getPairs.length ∧ 3 ≤ demo.getPairs.length := by decide

/-- C12 for PSBT v0. The order of the pairs of a global map does not matter. -/
theorem C12_v0_global {p : Psbt L} (hp : ∀ p ∈ ps, Spec.PairOk p) (hpq : List.Perm ps qs)
    (h : decodeGlobal L (Spec.mapBytes ps ++ r) = .ok (p, r')) : decodeGlobal L (Spec.mapBytes qs ++ r) = .ok (p, r') := by
  simp only [mapBytes_fun] at *
  obtain ⟨h0, hl, a, tx, h1, h2⟩ := (decodeGlobal_pairs hp).mp h
  refine (decodeGlobal_pairs fun p hq => hp p (hpq.mem_iff.mpr hq)).mpr ⟨h0, ?_, a, tx, ?_, h2⟩
  · rw [← encLen_perm hpq]; exact hl
  · rw [gl_ins] at h1 ⊢
    exact (glSys L).perm (Q := fun _ => True) (gl_comm L) hpq (by simp) h1

/-- C12 for PSBT v0. The order of the pairs of an input map does not matter. -/
theorem C12_v0_input {i : Input L} (hp : ∀ p ∈ ps, Spec.PairOk p) (hpq : List.Perm ps qs)
    (h : Input.decode L (Spec.mapBytes ps ++ r) = .ok (i, r')) :
    Input.decode L (Spec.mapBytes qs ++ r) = .ok (i, r') := by
  simp only [mapBytes_fun] at *
  obtain ⟨h0, h1⟩ := (Input.decode_pairs hp).mp h
  refine (Input.decode_pairs fun p hq => hp p (hpq.mem_iff.mpr hq)).mpr ⟨h0, ?_⟩
  rw [in_ins] at h1 ⊢
  exact (inSys L).perm (Q := fun _ => True) (in_comm L) hpq (by simp) h1

/-- C12 for PSBT v0. The order of the pairs of an output map does not matter. -/
theorem C12_v0_output {o : Output L} (hp : ∀ p ∈ ps, Spec.PairOk p) (hpq : List.Perm ps qs)
    (h : Output.decode L (Spec.mapBytes ps ++ r) = .ok (o, r')) :
    Output.decode L (Spec.mapBytes qs ++ r) = .ok (o, r') := by
  simp only [mapBytes_fun] at *
  obtain ⟨h0, h1⟩ := (Output.decode_pairs hp).mp h
  refine (Output.decode_pairs fun p hq => hp p (hpq.mem_iff.mpr hq)).mpr ⟨h0, ?_⟩
  rw [out_ins] at h1 ⊢
  exact (outSys L).perm (Q := fun _ => True) (out_comm L) hpq (by simp) h1

example : ∃ p, decodeGlobal (Demo.lib false) (serializeMap demo.getPairs.reverse) = .ok (p, []) ∧
    p = { demo with inputs := [], outputs := [] } := ⟨_, by decide +kernel, rfl⟩

/-! ### C13: unknown and proprietary entries -/

/-- C13 for PSBT v0. Every pair of a key type without meaning ends up unchanged among the unknown entries of the result,
every proprietary pair among the proprietary ones; both are written out again unchanged; and nothing else is there. -/
theorem C13_v0_global {p : Psbt L} (hp : ∀ p ∈ ps, Spec.PairOk p)
    (h : decodeGlobal L (Spec.mapBytes ps ++ r) = .ok (p, r')) :
    (∀ q ∈ ps, q.key.ty ∉ Spec.V0.globalTypes → p.unknown.get q.key = some q.value ∧ q ∈ p.getPairs) ∧
    (∀ q ∈ ps, q.key.ty = 0xFC → (∃ k, k.toKey = q.key ∧ p.proprietary.get k = some q.value) ∧ q ∈ p.getPairs) ∧
    (∀ k v, p.unknown.get k = some v → ⟨k, v⟩ ∈ ps) ∧
    (∀ k v, p.proprietary.get k = some v → ⟨k.toKey, v⟩ ∈ ps) := by
  simp only [mapBytes_fun] at *
  obtain ⟨-, -, a, tx, h1, -, rfl⟩ := (decodeGlobal_pairs hp).mp h
  rw [gl_ins, (glSys L).foldlM_iff] at h1
  obtain ⟨u1, u2⟩ := unknown_survive (ε := Err) (h1 .unknown)
  obtain ⟨p1, p2⟩ := prop_survive (ε := Err) (h1 .proprietary)
  have mem1 : ∀ k v, (a.toPsbt tx).unknown.get k = some v → (⟨k, v⟩ : Pair) ∈ (a.toPsbt tx).getPairs := by
    intro k v hk
    simp only [Psbt.getPairs, List.mem_flatten]
    exact ⟨emitUnknown (a.toPsbt tx).unknown, by simp, List.mem_map.mpr ⟨(k, v), BMap.mem_iff_get.mpr hk, rfl⟩⟩
  have mem2 : ∀ k v, (a.toPsbt tx).proprietary.get k = some v → (⟨k.toKey, v⟩ : Pair) ∈ (a.toPsbt tx).getPairs := by
    intro k v hk
    simp only [Psbt.getPairs, List.mem_flatten]
    exact ⟨emitProp (a.toPsbt tx).proprietary, by simp, List.mem_map.mpr ⟨(k, v), BMap.mem_iff_get.mpr hk, rfl⟩⟩
  refine ⟨fun q hq ht => ?_, fun q hq ht => ?_, fun k v hk => ((glSys L).mem_ofSlot.mp (u2 k v hk)).1,
    fun k v hk => ((glSys L).mem_ofSlot.mp (p2 k v hk)).1⟩
  · have := u1 q ((glSys L).mem_ofSlot.mpr ⟨hq, (glSlot_unknown _).mpr ht⟩)
    exact ⟨this, mem1 _ _ this⟩
  · obtain ⟨k, hk, hg⟩ := p1 q ((glSys L).mem_ofSlot.mpr ⟨hq, (glSlot_inv _).2.1.mpr ht⟩)
    refine ⟨⟨k, hk, hg⟩, ?_⟩
    have := mem2 _ _ hg
    rwa [hk] at this

/-- C13 for PSBT v0, input maps. -/
theorem C13_v0_input {i : Input L} (hp : ∀ p ∈ ps, Spec.PairOk p)
    (h : Input.decode L (Spec.mapBytes ps ++ r) = .ok (i, r')) :
    (∀ q ∈ ps, q.key.ty ∉ Spec.V0.inputTypes → i.unknown.get q.key = some q.value ∧ q ∈ i.getPairs) ∧
    (∀ q ∈ ps, q.key.ty = 0xFC → (∃ k, k.toKey = q.key ∧ i.proprietary.get k = some q.value) ∧ q ∈ i.getPairs) ∧
    (∀ k v, i.unknown.get k = some v → ⟨k, v⟩ ∈ ps) ∧
    (∀ k v, i.proprietary.get k = some v → ⟨k.toKey, v⟩ ∈ ps) := by
  simp only [mapBytes_fun] at *
  obtain ⟨-, h1⟩ := (Input.decode_pairs hp).mp h
  rw [in_ins, (inSys L).foldlM_iff] at h1
  obtain ⟨u1, u2⟩ := unknown_survive (ε := Err) (h1 .unknown)
  obtain ⟨p1, p2⟩ := prop_survive (ε := Err) (h1 .proprietary)
  have mem1 : ∀ k v, i.unknown.get k = some v → (⟨k, v⟩ : Pair) ∈ i.getPairs := by
    intro k v hk
    simp only [Input.getPairs, List.mem_flatten]
    exact ⟨emitUnknown i.unknown, by simp, List.mem_map.mpr ⟨(k, v), BMap.mem_iff_get.mpr hk, rfl⟩⟩
  have mem2 : ∀ k v, i.proprietary.get k = some v → (⟨k.toKey, v⟩ : Pair) ∈ i.getPairs := by
    intro k v hk
    simp only [Input.getPairs, List.mem_flatten]
    exact ⟨emitProp i.proprietary, by simp, List.mem_map.mpr ⟨(k, v), BMap.mem_iff_get.mpr hk, rfl⟩⟩
  refine ⟨fun q hq ht => ?_, fun q hq ht => ?_, fun k v hk => ((inSys L).mem_ofSlot.mp (u2 k v hk)).1,
    fun k v hk => ((inSys L).mem_ofSlot.mp (p2 k v hk)).1⟩
  · have := u1 q ((inSys L).mem_ofSlot.mpr ⟨hq, (inSlot_unknown _).mpr ht⟩)
    exact ⟨this, mem1 _ _ this⟩
  · obtain ⟨k, hk, hg⟩ := p1 q ((inSys L).mem_ofSlot.mpr ⟨hq, (inSlot_inv _).1.mpr ht⟩)
    refine ⟨⟨k, hk, hg⟩, ?_⟩
    have := mem2 _ _ hg
    rwa [hk] at this

/-- C13 for PSBT v0, output maps. -/
theorem C13_v0_output {o : Output L} (hp : ∀ p ∈ ps, Spec.PairOk p)
    (h : Output.decode L (Spec.mapBytes ps ++ r) = .ok (o, r')) :
    (∀ q ∈ ps, q.key.ty ∉ Spec.V0.outputTypes → o.unknown.get q.key = some q.value ∧ q ∈ o.getPairs) ∧
    (∀ q ∈ ps, q.key.ty = 0xFC → (∃ k, k.toKey = q.key ∧ o.proprietary.get k = some q.value) ∧ q ∈ o.getPairs) ∧
    (∀ k v, o.unknown.get k = some v → ⟨k, v⟩ ∈ ps) ∧
    (∀ k v, o.proprietary.get k = some v → ⟨k.toKey, v⟩ ∈ ps) := by
  simp only [mapBytes_fun] at *
  obtain ⟨-, h1⟩ := (Output.decode_pairs hp).mp h
  rw [out_ins, (outSys L).foldlM_iff] at h1
  obtain ⟨u1, u2⟩ := unknown_survive (ε := Err) (h1 .unknown)
  obtain ⟨p1, p2⟩ := prop_survive (ε := Err) (h1 .proprietary)
  have mem1 : ∀ k v, o.unknown.get k = some v → (⟨k, v⟩ : Pair) ∈ o.getPairs := by
    intro k v hk
    simp only [Output.getPairs, List.mem_flatten]
    exact ⟨emitUnknown o.unknown, by simp, List.mem_map.mpr ⟨(k, v), BMap.mem_iff_get.mpr hk, rfl⟩⟩
  have mem2 : ∀ k v, o.proprietary.get k = some v → (⟨k.toKey, v⟩ : Pair) ∈ o.getPairs := by
    intro k v hk
    simp only [Output.getPairs, List.mem_flatten]
    exact ⟨emitProp o.proprietary, by simp, List.mem_map.mpr ⟨(k, v), BMap.mem_iff_get.mpr hk, rfl⟩⟩
  refine ⟨fun q hq ht => ?_, fun q hq ht => ?_, fun k v hk => ((outSys L).mem_ofSlot.mp (u2 k v hk)).1,
    fun k v hk => ((outSys L).mem_ofSlot.mp (p2 k v hk)).1⟩
  · have := u1 q ((outSys L).mem_ofSlot.mpr ⟨hq, (outSlot_unknown _).mpr ht⟩)
    exact ⟨this, mem1 _ _ this⟩
  · obtain ⟨k, hk, hg⟩ := p1 q ((outSys L).mem_ofSlot.mpr ⟨hq, (outSlot_inv _).1.mpr ht⟩)
    refine ⟨⟨k, hk, hg⟩, ?_⟩
    have := mem2 _ _ hg
    rwa [hk] at this

example : (0x77 : UInt8) ∉ Spec.V0.inputTypes ∧ (⟨⟨0x77, [1]⟩, [2]⟩ : Pair) ∈ demoInput.getPairs := by decide

/-! ### C47 -/

/-- C47. A parsed PSBT has an unsigned transaction with empty scriptSigs and witnesses. -/
theorem C47_unsigned {b : Bytes} {p : Psbt L} (h : Psbt.deserialize L b = .ok p) :
    ∀ i ∈ p.unsignedTx.input, i.scriptSig = [] ∧ i.witness = [] :=
  (wf_of_deserialize h).unsigned

/-- C47. An accepted global map has exactly one pair of type 0x00; its key data is empty, its value is exactly the
transaction that becomes the unsigned transaction (encoded without witnesses); and no pair has a type only PSBT v2 has. -/
theorem C47_global_required {p : Psbt L} (hp : ∀ p ∈ ps, Spec.PairOk p)
    (h : decodeGlobal L (Spec.mapBytes ps ++ r) = .ok (p, r')) :
    (ps.filter fun q => decide (q.key.ty = 0x00)) = [⟨⟨0x00, []⟩, Spec.unsignedTxBytes p.unsignedTx⟩] ∧
    ∀ q ∈ ps, q.key.ty ∉ [0x02, 0x03, 0x04, 0x05, 0x06] := by
  simp only [mapBytes_fun] at *
  rw [unsignedTxBytes_fun]
  obtain ⟨-, -, a, tx, h1, h2, rfl⟩ := (decodeGlobal_pairs hp).mp h
  rw [gl_ins] at h1
  constructor
  · have h3 := (glSys L).foldlM_iff.mp h1 .tx
    have e : (glSys L).ofSlot .tx ps = ps.filter fun q => decide (q.key.ty = 0x00) := by
      unfold SlotSys.ofSlot
      apply List.filter_congr
      intro q _
      have := (glSlot_inv q.key.ty).1
      simp only [glSys, this]
    rcases (isOpt_tx (fun q => (glSys L).slotOf q = .tx)).fold ((glSys L).slot_ofSlot .tx ps) h3 with
      ⟨-, h4⟩ | ⟨q, t, h4, h5, h6⟩
    · have : a.tx = none := h4
      rw [this] at h2; cases h2
    · have h7 : a.tx = some t := h6
      rw [h7] at h2; cases h2
      rw [← e, h4]
      rw [parseTx_some] at h5
      have h8 := (decTxLegacy_ok h5.2).1
      rw [List.append_nil] at h8
      have h9 : q ∈ (glSys L).ofSlot .tx ps := by rw [h4]; simp
      have h10 : q.key.ty = 0x00 := (glSlot_inv _).1.mp ((glSys L).mem_ofSlot.mp h9).2
      obtain ⟨⟨ty, k⟩, v⟩ := q
      simp only at h5 h8 h10
      obtain ⟨rfl, -⟩ := h5
      subst h8 h10
      rfl
  · intro q hq ht
    exact excluded_nil (glSys L) (s := .excluded) (fun f p f' h => by cases h) h1 q hq ((glSlot_inv _).2.2.mpr ht)

/-- C47. A global map without an unsigned transaction, with two of them, or with a field of PSBT v2 is refused. -/
theorem C47_global_rejected (hp : ∀ p ∈ ps, Spec.PairOk p)
    (hbad : (ps.filter fun q => decide (q.key.ty = 0x00)).length ≠ 1 ∨
      ∃ q ∈ ps, q.key.ty ∈ [0x02, 0x03, 0x04, 0x05, 0x06]) :
    ∃ e, decodeGlobal L (Spec.mapBytes ps ++ r) = .error e := by
  cases h : decodeGlobal L (Spec.mapBytes ps ++ r) with
  | error e => exact ⟨e, rfl⟩
  | ok x =>
    obtain ⟨h1, h2⟩ := C47_global_required hp h
    rcases hbad with hb | ⟨q, hq, ht⟩
    · rw [h1] at hb; exact absurd rfl hb
    · exact absurd ht (h2 q hq)

/-- C47. An input map with a field of PSBT v2 (previous txid, output index, sequence, lock times) is refused. -/
theorem C47_input_rejected (hp : ∀ p ∈ ps, Spec.PairOk p)
    (hbad : ∃ q ∈ ps, q.key.ty ∈ [0x0e, 0x0f, 0x10, 0x11, 0x12]) :
    ∃ e, Input.decode L (Spec.mapBytes ps ++ r) = .error e := by
  simp only [mapBytes_fun] at *
  cases h : Input.decode L (serializeMap ps ++ r) with
  | error e => exact ⟨e, rfl⟩
  | ok x =>
    obtain ⟨-, h1⟩ := (Input.decode_pairs hp).mp h
    rw [in_ins] at h1
    obtain ⟨q, hq, ht⟩ := hbad
    exact absurd ((inSlot_inv _).2.mpr ht)
      (excluded_nil (inSys L) (s := .excluded) (fun f p f' h => by cases h) h1 q hq)

/-- C47. An output map with a field of PSBT v2 (amount, script) is refused. -/
theorem C47_output_rejected (hp : ∀ p ∈ ps, Spec.PairOk p) (hbad : ∃ q ∈ ps, q.key.ty ∈ [0x03, 0x04]) :
    ∃ e, Output.decode L (Spec.mapBytes ps ++ r) = .error e := by
  simp only [mapBytes_fun] at *
  cases h : Output.decode L (serializeMap ps ++ r) with
  | error e => exact ⟨e, rfl⟩
  | ok x =>
    obtain ⟨-, h1⟩ := (Output.decode_pairs hp).mp h
    rw [out_ins] at h1
    obtain ⟨q, hq, ht⟩ := hbad
    exact absurd ((outSlot_inv _).2.mpr ht)
      (excluded_nil (outSys L) (s := .excluded) (fun f p f' h => by cases h) h1 q hq)

/-- A transaction with a scriptSig makes parsing fail. -/
example : Psbt.deserialize (Demo.lib false)
    (Psbt.serialize { demo with unsignedTx := { demoTx with input := [⟨⟨Demo.rep 32 0x11, 1⟩, [0x51], 0, []⟩] } }) =
    .error (.err .unsignedTxHasScriptSigs) := by decide +kernel

end

/-! ### C14, C15, C16 -/

/-- C14 for PSBT v0. A parsed PSBT has as many input and output maps as its unsigned transaction has inputs and
outputs. -/
theorem C14_v0_counts {L : Lib} {b : Bytes} {p : Psbt L} (h : Psbt.deserialize L b = .ok p) :
    p.inputs.length = p.unsignedTx.input.length ∧ p.outputs.length = p.unsignedTx.output.length :=
  ⟨(wf_of_deserialize h).inputCount, (wf_of_deserialize h).outputCount⟩

/-- C15 for PSBT v0. Every preimage in a parsed PSBT hashes to the key it is stored under. -/
theorem C15_v0_preimages {L : Lib} {b : Bytes} {p : Psbt L} (h : Psbt.deserialize L b = .ok p) :
    ∀ i ∈ p.inputs,
      (∀ k pre, i.ripemd160Preimages.get k = some pre → L.ripemd160 pre = k) ∧
      (∀ k pre, i.sha256Preimages.get k = some pre → L.sha256 pre = k) ∧
      (∀ k pre, i.hash160Preimages.get k = some pre → L.hash160 pre = k) ∧
      (∀ k pre, i.hash256Preimages.get k = some pre → L.sha256d pre = k) := fun i hi =>
  have hw := (wf_of_deserialize h).inputs i hi
  ⟨hw.ripemd160, hw.sha256, hw.hash160, hw.hash256⟩

example : demoInput ∈ demo.inputs ∧ demoInput.sha256Preimages.get (Demo.pad 32 [2, 7, 7]) = some [7, 7] := by
  decide

/-- C16 for PSBT v0. Parsing never panics, provided the structures for one input map and one output map take at most
1,000,000 bytes of memory each (they take a few hundred): every byte string gives a PSBT or an error. -/
theorem C16_v0_no_panic {L : Lib} (hi : L.inputSize ≤ 1000000) (ho : L.outputSize ≤ 1000000) (b : Bytes) :
    (∃ p, Psbt.deserialize L b = .ok p) ∨ ∃ e, Psbt.deserialize L b = .error (.err e) := by
  unfold Psbt.deserialize
  split
  · exact .inr ⟨_, rfl⟩
  · split
    · exact .inr ⟨_, rfl⟩
    · simp only [V2.orFail]
      cases hg : decodeGlobal L (List.drop 5 b) with
      | error e => exact .inr ⟨e, rfl⟩
      | ok x =>
        obtain ⟨g, d⟩ := x
        have hgl := (gl_of_decode hg).1 .tx
        have hlen : (encTxLegacy g.unsignedTx).length ≤ 3999995 := by
          have := (hgl.1 _ (List.mem_singleton.mpr rfl)).2
          exact (vecFits_iff _).mp this
        simp only [encTxLegacy, List.length_append] at hlen
        have b1 := (encList_bounds (n := 3999995) (fun a _ => encTxIn_pos a)
          (show (encList encTxIn g.unsignedTx.input).length ≤ _ by omega)).1
        have b2 := (encList_bounds (n := 3999995) (fun a _ => encTxOut_pos a)
          (show (encList encTxOut g.unsignedTx.output).length ≤ _ by omega)).1
        have n1 : ¬ capacityOverflow g.unsignedTx.input.length L.inputSize = true := by
          rw [V2.capacityOverflow_iff, Classical.not_not]
          exact Nat.lt_of_le_of_lt (Nat.mul_le_mul b1 hi) (by decide)
        have n2 : ¬ capacityOverflow g.unsignedTx.output.length L.outputSize = true := by
          rw [V2.capacityOverflow_iff, Classical.not_not]
          exact Nat.lt_of_le_of_lt (Nat.mul_le_mul b2 ho) (by decide)
        simp only [mapErr_of_ok, ok_bind]
        cases g.unsignedTxChecks with
        | error e => exact .inr ⟨e, rfl⟩
        | ok u =>
          simp only [mapErr_of_ok, ok_bind, if_neg n1]
          cases V2.decodeN (Input.decode L) g.unsignedTx.input.length d with
          | error e => exact .inr ⟨e, rfl⟩
          | ok y =>
            simp only [mapErr_of_ok, ok_bind, if_neg n2]
            cases V2.decodeN (Output.decode L) g.unsignedTx.output.length y.2 with
            | error e => exact .inr ⟨e, rfl⟩
            | ok z => exact .inl ⟨_, rfl⟩

example : (Demo.lib false).inputSize ≤ 1000000 ∧ (Demo.lib false).outputSize ≤ 1000000 := by decide

/-! ### C51: creation -/

/-- C51. Creating a PSBT from a transaction succeeds exactly if all its scriptSigs and witnesses are empty, and gives a
version 0 PSBT for that transaction with one empty map per input and output and nothing else. -/
theorem C51_from_unsigned_tx {L : Lib} (tx : Tx) (p : Psbt L) :
    Psbt.fromUnsignedTx L tx = .ok p ↔
      (∀ i ∈ tx.input, i.scriptSig = [] ∧ i.witness = []) ∧
      p.unsignedTx = tx ∧ p.version = 0 ∧ p.xpub = .empty ∧ p.proprietary = .empty ∧ p.unknown = .empty ∧
      p.inputs.length = tx.input.length ∧ (∀ i ∈ p.inputs, i.getPairs = []) ∧
      p.outputs.length = tx.output.length ∧ (∀ o ∈ p.outputs, o.getPairs = []) := by
  have e1 : ∀ i : Input L, i.getPairs = [] ↔ i = Input.default L := by
    intro i
    constructor
    · intro h
      simp only [Input.getPairs, List.flatten_eq_nil_iff, List.mem_cons, List.not_mem_nil, or_false, forall_eq_or_imp,
        forall_eq] at h
      obtain ⟨⟩ := i
      simp only [emitOpt_nil, emitMap_nil, emitProp_nil, emitUnknown_nil] at h
      simp only [Input.default, Input.mk.injEq]
      exact h
    · rintro rfl; rfl
  have e2 : ∀ o : Output L, o.getPairs = [] ↔ o = Output.default L := by
    intro o
    constructor
    · intro h
      simp only [Output.getPairs, List.flatten_eq_nil_iff, List.mem_cons, List.not_mem_nil, or_false, forall_eq_or_imp,
        forall_eq] at h
      obtain ⟨⟩ := o
      simp only [emitOpt_nil, emitMap_nil, emitProp_nil, emitUnknown_nil] at h
      simp only [Output.default, Output.mk.injEq]
      exact h
    · rintro rfl; rfl
  simp only [e1, e2, Psbt.fromUnsignedTx, bind_ok]
  constructor
  · rintro ⟨u, h1, h2⟩
    cases h2
    exact ⟨txInChecks_ok.mp h1, rfl, rfl, rfl, rfl, rfl, List.length_replicate, fun i hi => List.eq_of_mem_replicate hi,
      List.length_replicate, fun i hi => List.eq_of_mem_replicate hi⟩
  · rintro ⟨h1, rfl, h3, h4, h5, h6, h7, h8, h9, h10⟩
    refine ⟨(), txInChecks_ok.mpr h1, ?_⟩
    obtain ⟨⟩ := p
    simp only at *
    subst h3 h4 h5 h6
    rw [← h7, ← h9, List.eq_replicate_of_mem h8, List.eq_replicate_of_mem h10]
    simp

/-- C51. The error says which kind of data was found, at the first input that has any. -/
theorem C51_error {L : Lib} (tx : Tx) (e : Err) :
    Psbt.fromUnsignedTx L tx = .error e ↔
      ∃ pre i post, tx.input = pre ++ i :: post ∧ (∀ j ∈ pre, j.scriptSig = [] ∧ j.witness = []) ∧
        ((i.scriptSig ≠ [] ∧ e = .unsignedTxHasScriptSigs) ∨
         (i.scriptSig = [] ∧ i.witness ≠ [] ∧ e = .unsignedTxHasScriptWitnesses)) := by
  have h0 : Psbt.fromUnsignedTx L tx = .error e ↔ txInChecks tx.input = .error e := by
    simp only [Psbt.fromUnsignedTx, Psbt.unsignedTxChecks]
    cases txInChecks tx.input with
    | error e' => simp [bind, Except.bind]
    | ok u => simp [bind, Except.bind]
  rw [h0]
  clear h0
  generalize tx.input = is
  induction is with
  | nil => simp [txInChecks]
  | cons i is ih =>
    simp only [txInChecks]
    split
    · rename_i hs
      simp only [Except.error.injEq]
      constructor
      · intro h; exact ⟨[], i, is, rfl, by simp, .inl ⟨hs, h.symm⟩⟩
      · rintro ⟨pre, i', post, h1, h2, h3⟩
        cases pre with
        | nil =>
          cases h1
          rcases h3 with ⟨-, h3⟩ | ⟨h3, -⟩
          · exact h3.symm
          · exact absurd h3 hs
        | cons a pre =>
          cases h1
          exact absurd (h2 i (by simp)).1 hs
    · rename_i hs
      simp only [ne_eq, Decidable.not_not] at hs
      split
      · rename_i hw
        simp only [Except.error.injEq]
        constructor
        · intro h; exact ⟨[], i, is, rfl, by simp, .inr ⟨hs, hw, h.symm⟩⟩
        · rintro ⟨pre, i', post, h1, h2, h3⟩
          cases pre with
          | nil =>
            cases h1
            rcases h3 with ⟨h3, -⟩ | ⟨-, -, h3⟩
            · exact absurd hs h3
            · exact h3.symm
          | cons a pre =>
            cases h1
            exact absurd (h2 i (by simp)).2 hw
      · rename_i hw
        simp only [ne_eq, Decidable.not_not] at hw
        refine Iff.trans ih ?_
        constructor
        · rintro ⟨pre, i', post, rfl, h2, h3⟩
          exact ⟨i :: pre, i', post, rfl, by simpa [hs, hw] using h2, h3⟩
        · rintro ⟨pre, i', post, h1, h2, h3⟩
          cases pre with
          | nil =>
            cases h1
            rcases h3 with ⟨h3, -⟩ | ⟨-, h3, -⟩
            · exact absurd hs h3
            · exact absurd hw h3
          | cons a pre =>
            cases h1
            exact ⟨pre, i', post, rfl, fun j hj => h2 j (by simp [hj]), h3⟩

/-- C51. The new PSBT survives a round trip, if its transaction is small enough for the wire format. -/
theorem C51_roundtrips {L : Lib} {tx : Tx} {p : Psbt L} (h : Psbt.fromUnsignedTx L tx = .ok p)
    (hl : (Spec.unsignedTxBytes tx).length ≤ 3999990) (hi : L.inputSize ≤ 1000000) (ho : L.outputSize ≤ 1000000) :
    Psbt.deserialize L p.serialize = .ok p := by
  rw [unsignedTxBytes_fun] at hl
  rw [C45_roundtrip_iff]
  obtain ⟨h1, h2, h3, h4, h5, h6, h7, h8, h9, h10⟩ := (C51_from_unsigned_tx tx p).mp h
  have hg : p.getPairs = [bare PSBT_GLOBAL_UNSIGNED_TX (encTxLegacy tx)] := by
    simp [Psbt.getPairs, h2, h3, h4, h5, h6, emitProp, emitUnknown, BMap.empty]
  have hb := hl
  simp only [encTxLegacy, List.length_append] at hb
  have b1 := (encList_bounds (n := 3999995) (fun a _ => encTxIn_pos a)
    (show (encList encTxIn tx.input).length ≤ _ by omega)).1
  have b2 := (encList_bounds (n := 3999995) (fun a _ => encTxOut_pos a)
    (show (encList encTxOut tx.output).length ≤ _ by omega)).1
  refine ⟨h3, by rw [h2]; exact h1, ?_, ?_, by rw [h5]; simp, by rw [h6]; simp, ?_, ?_, by rw [h2]; exact h7,
    by rw [h2]; exact h9, ?_, ?_⟩
  · rw [hg]
    simp only [List.flatMap_cons, List.flatMap_nil, List.append_nil, Spec.pairBytes, bare, compact_fun, List.length_append,
      encVar_length, List.length_nil, List.length_cons]
    repeat' split
    all_goals omega
  · rw [hg]
    intro q hq
    rw [List.mem_singleton.mp hq]
    refine ⟨?_, ?_⟩
    · simp [bare, Spec.MAX_KEY]
    · simp only [bare, Spec.MAX_VALUE]; omega
  · intro i hi
    have := h8 i hi
    have hd : Input.decode L (serializeMap i.getPairs ++ []) = .ok (i, []) := by
      rw [Input.decode_pairs (by rw [this]; simp)]
      have hi' : i = Input.default L := by
        have : Psbt.fromUnsignedTx L tx = .ok p := h
        simp only [Psbt.fromUnsignedTx, bind_ok] at this
        obtain ⟨_, _, e⟩ := this
        cases e
        exact List.eq_of_mem_replicate hi
      subst hi'
      exact ⟨rfl, rfl⟩
    exact Input.wf_of_decode hd
  · intro o hi
    have := h10 o hi
    have hd : Output.decode L (serializeMap o.getPairs ++ []) = .ok (o, []) := by
      rw [Output.decode_pairs (by rw [this]; simp)]
      have hi' : o = Output.default L := by
        have : Psbt.fromUnsignedTx L tx = .ok p := h
        simp only [Psbt.fromUnsignedTx, bind_ok] at this
        obtain ⟨_, _, e⟩ := this
        cases e
        exact List.eq_of_mem_replicate hi
      subst hi'
      exact ⟨rfl, rfl⟩
    exact Output.wf_of_decode hd
  · rw [h7]; exact Nat.lt_of_le_of_lt (Nat.mul_le_mul b1 hi) (by decide)
  · rw [h9]; exact Nat.lt_of_le_of_lt (Nat.mul_le_mul b2 ho) (by decide)

example : ∃ p, Psbt.fromUnsignedTx (Demo.lib false) demoTx = .ok p ∧ p.inputs.length = 2 := ⟨_, rfl, rfl⟩
example : (Spec.unsignedTxBytes demoTx).length ≤ 3999990 := by decide

end Psbt.V0
