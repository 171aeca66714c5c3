/-
C105: the memory requested while parsing.

`deserializeTrace` is `deserialize` together with the sizes, in bytes, of the vectors it asks the allocator for by a
count it has been told and not by what it has read. `L.inputSize` and `L.outputSize` are the sizes of the structures for
one input map and one output map.
-/
import Verif.Model.Reserve
import Verif.Lemmas.V0Psbt
import Verif.Props.V2Parse2
import Verif.Props.V0Parse
namespace Psbt.V2
open Psbt

/-- C105. The trace belongs to parsing: its result is the result of parsing. -/
theorem C105_v2_trace (L : Lib) (b : Bytes) : (Psbt.deserializeTrace L b).2 = Psbt.deserialize L b := by
  unfold Psbt.deserializeTrace Psbt.deserialize
  split
  · rfl
  · split
    · rfl
    · simp only [orFail]
      cases Global.decode L (List.drop 5 b) with
      | error e => rfl
      | ok x =>
        simp only [mapErr_of_ok, ok_bind]
        split
        · rfl
        · cases decodeN (Input.decode L) x.1.inputCount.toNat x.2 with
          | error e => rfl
          | ok y =>
            simp only [mapErr_of_ok, ok_bind]
            split
            · rfl
            · cases decodeN (Output.decode L) x.1.outputCount.toNat y.2 with
              | error e => rfl
              | ok z => rfl

/-- The global map that announces `n` inputs and nothing else. -/
def announce (L : Lib) (n : UInt64) : Global L := { Global.new L with inputCount := n }

theorem announce_pairs (L : Lib) (n : UInt64) : (announce L n).getPairs =
    [bare PSBT_GLOBAL_VERSION [2, 0, 0, 0], bare PSBT_GLOBAL_TX_VERSION [2, 0, 0, 0],
     bare PSBT_GLOBAL_INPUT_COUNT (encVar n.toNat), bare PSBT_GLOBAL_OUTPUT_COUNT [0],
     bare PSBT_GLOBAL_TX_MODIFIABLE [0]] := by
  unfold Global.getPairs
  cases h : L.sp <;> simp [announce, Global.new, emitSp, h, emitOpt, emitProp, emitUnknown, BMap.empty] <;> decide

theorem announce_decodes (L : Lib) (n : UInt64) (r : Bytes) :
    Global.decode L (serializeMap (announce L n).getPairs ++ r) = .ok (announce L n, r) := by
  refine Global.rt ?_ r
  have hn := encVar_length_le n.toNat
  constructor
  · rfl
  · rw [announce_pairs]
    intro p hp
    rw [← pairFits_iff]
    simp only [PairFits, vecFits_iff, Spec.MAX_VALUE]
    simp only [List.mem_cons, List.not_mem_nil, or_false] at hp
    rcases hp with rfl | rfl | rfl | rfl | rfl <;> simp [bare] <;> omega
  · intro k v h; cases h
  · intro k v h; cases h
  · intro _; exact ⟨rfl, rfl⟩
  · intro _; exact ⟨fun _ => rfl, fun _ => rfl⟩

theorem serializeMap_ne (ps : List Pair) (r : Bytes) : serializeMap ps ++ r ≠ [] := by
  rw [serializeMap_append]
  intro h
  have := congrArg List.length h
  simp at this

theorem announce_trace (L : Lib) (n : UInt64) (hn : n ≠ 0) :
    (Psbt.deserializeTrace L (MAGIC ++ 0xff :: serializeMap (announce L n).getPairs)).1 = [n.toNat * L.inputSize] ∧
    ∀ p, (Psbt.deserializeTrace L (MAGIC ++ 0xff :: serializeMap (announce L n).getPairs)).2 ≠ .ok p := by
  have hd : (MAGIC ++ 0xff :: serializeMap (announce L n).getPairs).drop 5 =
      serializeMap (announce L n).getPairs ++ [] := by simp [MAGIC]
  unfold Psbt.deserializeTrace
  rw [if_neg (by simp [MAGIC]), if_neg (by simp [MAGIC]), hd, announce_decodes]
  have hc : (announce L n).inputCount = n := rfl
  simp only [hc]
  split
  · exact ⟨rfl, fun p h => by cases h⟩
  · have hne : ∃ e, decodeN (Input.decode L) n.toNat [] = .error e := by
      have h1 : n.toNat ≠ 0 := fun h => hn (UInt64.toNat_inj.mp h)
      obtain ⟨k, hk⟩ := Nat.exists_eq_succ_of_ne_zero h1
      rw [hk, decodeN]
      cases h : Input.decode L [] with
      | error e => exact ⟨e, rfl⟩
      | ok x =>
        obtain ⟨ps, h2, _⟩ := Input.decode_shape _ x.1 x.2 h
        exact absurd h2.symm (serializeMap_ne _ _)
    obtain ⟨e, he⟩ := hne
    rw [he]
    exact ⟨rfl, fun p h => by cases h⟩

/-- C105 fails for PSBT v2: for every number `n` of inputs up to 2^64 - 1 there are 40 bytes or fewer that make parsing
ask for the memory of `n` input maps, although they contain none. -/
theorem C105_v2_counterexample (L : Lib) (n : UInt64) (hn : n ≠ 0) :
    ∃ b : Bytes, b.length ≤ 40 ∧ (Psbt.deserializeTrace L b).1 = [n.toNat * L.inputSize] ∧
      ∀ p, Psbt.deserialize L b ≠ .ok p := by
  refine ⟨MAGIC ++ 0xff :: serializeMap (announce L n).getPairs, ?_, ?_, ?_⟩
  · have := encVar_length_le n.toNat
    have h0 : (encVar (encVar n.toNat).length).length = 1 := by rw [encVar_length, if_pos (by omega)]
    rw [announce_pairs]
    simp [serializeMap, encPair, encKey, encVec, bare, MAGIC, h0, show (encVar 1).length = 1 from rfl, show (encVar 4).length = 1 from rfl]
    omega
  · exact (announce_trace L n hn).1
  · intro p hp
    rw [← C105_v2_trace] at hp
    exact (announce_trace L n hn).2 p hp

/-- C105, partially: if parsing succeeds, what it has asked for is at most one structure for each byte it was given. -/
theorem C105_v2_partial {L : Lib} {b : Bytes} {p : Psbt L} (h : Psbt.deserialize L b = .ok p) :
    (Psbt.deserializeTrace L b).1.sum ≤ b.length * max L.inputSize L.outputSize := by
  have ht : (Psbt.deserializeTrace L b).1 = [p.global.inputCount.toNat * L.inputSize,
      p.global.outputCount.toNat * L.outputSize] := by
    rw [← C105_v2_trace] at h
    unfold Psbt.deserializeTrace at h ⊢
    split at h
    · cases h
    · rename_i h1
      rw [if_neg h1]
      split at h
      · cases h
      · rename_i h2
        rw [if_neg h2]
        cases hg : Global.decode L (List.drop 5 b) with
        | error e => rw [hg] at h; cases h
        | ok x =>
          rw [hg] at h
          simp only at h ⊢
          split at h
          · cases h
          · rename_i h3
            rw [if_neg h3]
            cases hi : decodeN (Input.decode L) x.1.inputCount.toNat x.2 with
            | error e => rw [hi] at h; cases h
            | ok y =>
              rw [hi] at h
              simp only at h ⊢
              split at h
              · cases h
              · rename_i h4
                rw [if_neg h4]
                cases ho : decodeN (Output.decode L) x.1.outputCount.toNat y.2 with
                | error e => rw [ho] at h; cases h
                | ok z => rw [ho] at h; cases h; rfl
  obtain ⟨hn1, hn2⟩ := C14_counts h
  rw [ht, ← hn1, ← hn2]
  rw [deserialize_ok] at h
  obtain ⟨d, r1, r2, r3, rfl, hg, _, hi, _, ho⟩ := h
  obtain ⟨ps, e0, _⟩ := Global.decode_shape _ _ _ hg
  obtain ⟨pi, e1, l1, _⟩ := decodeN_shape Input.decode_shape hi
  obtain ⟨po, e2, l2, _⟩ := decodeN_shape Output.decode_shape ho
  have q : ∀ ps : List Pair, 0 < (serializeMap ps).length := by
    intro ps
    have := serializeMap_ne ps []
    rw [List.append_nil] at this
    exact List.length_pos_iff.mpr this
  have k1 := length_le_flatMap (f := serializeMap) (l := pi) (fun a _ => q a)
  have k2 := length_le_flatMap (f := serializeMap) (l := po) (fun a _ => q a)
  have hl : p.inputs.length + p.outputs.length ≤ (MAGIC ++ 0xff :: d).length := by
    rw [e0, e1, e2]
    simp only [List.length_append, List.length_cons]
    omega
  refine Nat.le_trans ?_ (Nat.mul_le_mul_right _ hl)
  simp only [List.sum_cons, List.sum_nil, Nat.add_zero, Nat.add_mul]
  exact Nat.add_le_add (Nat.mul_le_mul_left _ (Nat.le_max_left _ _)) (Nat.mul_le_mul_left _ (Nat.le_max_right _ _))

/-- C105, the panic: parsing panics exactly if it asks for 2^63 bytes or more at once. -/
theorem C105_v2_panics_iff {L : Lib} {b : Bytes} :
    (∃ why, Psbt.deserialize L b = .error (.panic why)) ↔ ∃ m ∈ (Psbt.deserializeTrace L b).1, 2 ^ 63 ≤ m := by
  rw [← C105_v2_trace]
  unfold Psbt.deserializeTrace
  split
  · simp
  · split
    · simp
    · split
      · simp
      · rename_i g d _
        simp only
        split
        · rename_i hc
          rw [capacityOverflow_iff] at hc
          exact ⟨fun _ => ⟨_, List.mem_singleton.mpr rfl, by omega⟩, fun _ => ⟨_, rfl⟩⟩
        · rename_i hc
          rw [capacityOverflow_iff, Classical.not_not] at hc
          split
          · simp only [List.mem_singleton, exists_eq_left]
            refine ⟨fun h => by (obtain ⟨_, h⟩ := h; cases h), fun h => ?_⟩
            omega
          · split
            · rename_i hc2
              rw [capacityOverflow_iff] at hc2
              exact ⟨fun _ => ⟨_, List.mem_cons_of_mem _ (List.mem_singleton.mpr rfl), by omega⟩, fun _ => ⟨_, rfl⟩⟩
            · rename_i hc2
              rw [capacityOverflow_iff, Classical.not_not] at hc2
              have : ¬ ∃ m ∈ [g.inputCount.toNat * L.inputSize, g.outputCount.toNat * L.outputSize], 2 ^ 63 ≤ m := by
                simp only [List.mem_cons, List.not_mem_nil, or_false]
                rintro ⟨m, rfl | rfl, h⟩ <;> omega
              split
              · exact ⟨fun h => by (obtain ⟨_, h⟩ := h; cases h), fun h => absurd h this⟩
              · exact ⟨fun h => by (obtain ⟨_, h⟩ := h; cases h), fun h => absurd h this⟩

/-- Ten inputs announced: the request. -/
example : (Psbt.deserializeTrace (Demo.lib false)
    ([0x70, 0x73, 0x62, 0x74, 0xff] ++ Spec.mapBytes
      [⟨⟨0xFB, []⟩, [2, 0, 0, 0]⟩, ⟨⟨0x02, []⟩, [2, 0, 0, 0]⟩, ⟨⟨0x04, []⟩, [10]⟩, ⟨⟨0x05, []⟩, [0]⟩])).1 =
    [10 * (Demo.lib false).inputSize] := by decide +kernel

/-- A PSBT that is parsed, with inputs and outputs. -/
example : (Psbt.deserializeTrace (Demo.lib false) (Psbt.serialize demo)).1 =
      [demo.inputs.length * (Demo.lib false).inputSize, demo.outputs.length * (Demo.lib false).outputSize] ∧
    Psbt.deserialize (Demo.lib false) (Psbt.serialize demo) = .ok demo ∧ demo.inputs ≠ [] ∧ demo.outputs ≠ [] := by
  decide +kernel

/-- Parsing that panics. -/
example : (Psbt.deserializeTrace (Demo.lib false) ([0x70, 0x73, 0x62, 0x74, 0xff] ++ Spec.mapBytes
      [⟨⟨0xFB, []⟩, [2, 0, 0, 0]⟩, ⟨⟨0x02, []⟩, [2, 0, 0, 0]⟩, ⟨⟨0x04, []⟩, [0xff, 0, 0, 0, 0, 0, 0, 0, 0x80]⟩,
       ⟨⟨0x05, []⟩, [0]⟩])).1 = [2 ^ 63 * (Demo.lib false).inputSize] := by decide +kernel

end Psbt.V2

namespace Psbt.V0
open Psbt

/-- C105 for PSBT v0. The trace belongs to parsing: its result is the result of parsing. -/
theorem C105_v0_trace (L : Lib) (b : Bytes) : (Psbt.deserializeTrace L b).2 = Psbt.deserialize L b := by
  unfold Psbt.deserializeTrace Psbt.deserialize
  split
  · rfl
  · split
    · rfl
    · simp only [V2.orFail]
      cases decodeGlobal L (List.drop 5 b) with
      | error e => rfl
      | ok x =>
        simp only [mapErr_of_ok, ok_bind]
        cases x.1.unsignedTxChecks with
        | error e => rfl
        | ok u =>
          simp only [mapErr_of_ok, ok_bind]
          split
          · rfl
          · cases V2.decodeN (Input.decode L) x.1.unsignedTx.input.length x.2 with
            | error e => rfl
            | ok y =>
              simp only [mapErr_of_ok, ok_bind]
              split
              · rfl
              · cases V2.decodeN (Output.decode L) x.1.unsignedTx.output.length y.2 with
                | error e => rfl
                | ok z => rfl

theorem length_flatMap_mul {α : Type} {f : α → Bytes} {l : List α} {k : Nat} (h : ∀ a ∈ l, k ≤ (f a).length) :
    k * l.length ≤ (l.flatMap f).length := by
  induction l with
  | nil => simp
  | cons x t ih =>
    have h1 := h x List.mem_cons_self
    have h2 := ih fun a ha => h a (List.mem_cons_of_mem _ ha)
    simp only [List.flatMap_cons, List.length_append, List.length_cons, Nat.mul_add, Nat.mul_one]
    omega

/-- The unsigned transaction of a global map is among the bytes of the map. -/
theorem decodeGlobal_tx_length {L : Lib} {b r : Bytes} {p : Psbt L} (h : decodeGlobal L b = .ok (p, r)) :
    (encTxLegacy p.unsignedTx).length ≤ b.length := by
  rw [decodeGlobal_ok] at h
  obtain ⟨ps, a, tx, h1, h2, h3, h4, h5, rfl⟩ := h
  rw [gl_ins] at h4
  have := (glSys L).shrinks glOrder_nodup (emit := glEmit L) (m0 := GlobalAcc.start L) (by intro s; cases s <;> rfl)
    (gl_shrinks L) h4
  have e : glEmit L .tx ((glSys L).get .tx a) = [bare PSBT_GLOBAL_UNSIGNED_TX (encTxLegacy tx)] := by
    show glEmit L .tx a.tx = _
    rw [h5]; rfl
  simp only [SlotSys.pairs, glOrder, List.flatMap_cons, List.flatMap_nil, encLen_append, encLen_nil, e] at this
  have hb : b.length = encLen ps + (r.length + 1) := by rw [h1]; simp [encLen]
  have hp : (encTxLegacy tx).length ≤ encLen [bare PSBT_GLOBAL_UNSIGNED_TX (encTxLegacy tx)] := by
    simp [encLen, encPair, encVec, bare]; omega
  show (encTxLegacy tx).length ≤ b.length
  omega

/-- C105 for PSBT v0. Whatever the bytes and whether or not they are a PSBT, parsing asks for at most one structure for
every nine bytes it was given. -/
theorem C105_v0 (L : Lib) (b : Bytes) :
    9 * (Psbt.deserializeTrace L b).1.sum ≤ b.length * max L.inputSize L.outputSize := by
  have key : ∀ (g : Psbt L) (r : Bytes), decodeGlobal L (b.drop 5) = .ok (g, r) →
      9 * (g.unsignedTx.input.length * L.inputSize + g.unsignedTx.output.length * L.outputSize) ≤
        b.length * max L.inputSize L.outputSize := by
    intro g r hg
    have h1 := decodeGlobal_tx_length hg
    simp only [encTxLegacy, encList, List.length_append, List.length_drop] at h1
    have h2 := length_flatMap_mul (f := encTxIn) (l := g.unsignedTx.input) (k := 9) (fun a _ => by
      simp only [encTxIn, encOutPoint, List.length_append, encU32_length, a.previousOutput.txid.2]; omega)
    have h3 := length_flatMap_mul (f := encTxOut) (l := g.unsignedTx.output) (k := 9) (fun a _ => by
      have := encVec_pos a.scriptPubkey
      simp only [encTxOut, List.length_append, encU64_length]; omega)
    have h4 : 9 * g.unsignedTx.input.length + 9 * g.unsignedTx.output.length ≤ b.length := by omega
    refine Nat.le_trans ?_ (Nat.mul_le_mul_right _ h4)
    simp only [Nat.mul_add, Nat.add_mul, Nat.mul_assoc]
    exact Nat.add_le_add (Nat.mul_le_mul_left _ (Nat.mul_le_mul_left _ (Nat.le_max_left _ _)))
      (Nat.mul_le_mul_left _ (Nat.mul_le_mul_left _ (Nat.le_max_right _ _)))
  unfold Psbt.deserializeTrace
  split
  · simp
  · split
    · simp
    · split
      · simp
      · rename_i g d hg
        have := key g d hg
        split
        · simp
        · simp only
          split
          · simp only [List.sum_cons, List.sum_nil]; omega
          · split
            · simp only [List.sum_cons, List.sum_nil]; omega
            · split
              · simp only [List.sum_cons, List.sum_nil]; omega
              · split <;> simp only [List.sum_cons, List.sum_nil] <;> omega

/-- The demo PSBT: requests for two inputs and one output. -/
example : (Psbt.deserializeTrace (Demo.lib false) (Psbt.serialize demo)).1 =
    [2 * (Demo.lib false).inputSize, (Demo.lib false).outputSize] := by decide +kernel

end Psbt.V0
