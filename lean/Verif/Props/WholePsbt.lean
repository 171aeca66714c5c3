/- C11-C13 for whole PSBTs: what holds of the single maps holds of the byte string that carries all of them. -/
import Verif.Spec.WholePsbt
import Verif.Props.V2Parse2
import Verif.Props.V0Parse
namespace Psbt
open Psbt

/-- Reading maps one after the other gives what the maps give one by one. -/
theorem V2.decodeN_maps {ε α : Type} {dec : Bytes → Except ε (α × Bytes)} {pss : List (List Pair)} {l : List α}
    (hl : pss.length = l.length)
    (h : ∀ j (h1 : j < pss.length) (h2 : j < l.length), ∀ r, dec (Spec.mapBytes pss[j] ++ r) = .ok (l[j], r)) (r : Bytes) :
    V2.decodeN dec l.length (pss.flatMap Spec.mapBytes ++ r) = .ok (l, r) := by
  induction pss generalizing l with
  | nil =>
    cases l with
    | nil => rfl
    | cons a l => simp at hl
  | cons ps pss ih =>
    cases l with
    | nil => simp at hl
    | cons a l =>
      have h0 := h 0 (by simp) (by simp) (pss.flatMap Spec.mapBytes ++ r)
      simp only [List.getElem_cons_zero] at h0
      have h1 := ih (l := l) (by simpa using hl) (fun j h1 h2 r => by
        have := h (j + 1) (by simp; omega) (by simp; omega) r
        simpa using this)
      simp only [List.length_cons, V2.decodeN, List.flatMap_cons, List.append_assoc, h0, ok_bind, h1]

/-- Two lists of pairs that give the same unknown and proprietary entries have the same pairs of these kinds. -/
theorem extra_iff {A B P Q : List Pair} {ts : List UInt8} {u : BMap RawKey Bytes} {pr : BMap PropKey Bytes}
    (hA : (∀ q ∈ A, q.key.ty ∉ ts → u.get q.key = some q.value ∧ q ∈ P) ∧
      (∀ q ∈ A, q.key.ty = 0xFC → (∃ k, k.toKey = q.key ∧ pr.get k = some q.value) ∧ q ∈ P) ∧
      (∀ k v, u.get k = some v → ⟨k, v⟩ ∈ A) ∧ (∀ k v, pr.get k = some v → ⟨k.toKey, v⟩ ∈ A))
    (hB : (∀ q ∈ B, q.key.ty ∉ ts → u.get q.key = some q.value ∧ q ∈ Q) ∧
      (∀ q ∈ B, q.key.ty = 0xFC → (∃ k, k.toKey = q.key ∧ pr.get k = some q.value) ∧ q ∈ Q) ∧
      (∀ k v, u.get k = some v → ⟨k, v⟩ ∈ B) ∧ (∀ k v, pr.get k = some v → ⟨k.toKey, v⟩ ∈ B))
    (q : Pair) (hq : q.key.ty ∉ ts ∨ q.key.ty = 0xFC) : q ∈ A ↔ q ∈ B := by
  rcases hq with hq | hq
  · exact ⟨fun h => hB.2.2.1 _ _ (hA.1 q h hq).1, fun h => hA.2.2.1 _ _ (hB.1 q h hq).1⟩
  · constructor
    · intro h
      obtain ⟨⟨k, e, g⟩, -⟩ := hA.2.1 q h hq
      have := hB.2.2.2 _ _ g
      rwa [e] at this
    · intro h
      obtain ⟨⟨k, e, g⟩, -⟩ := hB.2.1 q h hq
      have := hA.2.2.2 _ _ g
      rwa [e] at this

end Psbt

namespace Psbt.V0
open Psbt

/-- C12 for PSBT v0, for whole PSBTs: bytes that parse are the bytes of some maps, and bytes with the pairs of each map in
any other order (and anything after them) parse to the same PSBT. -/
theorem C12_v0_psbt {L : Lib} {b : Bytes} {p : Psbt L} (h : Psbt.deserialize L b = .ok p) :
    ∃ (g : List Pair) (is os : List (List Pair)) (rest : Bytes), b = Spec.psbtBytes g is os rest ∧
      is.length = p.unsignedTx.input.length ∧ os.length = p.unsignedTx.output.length ∧
      ∀ g' is' os' rest', g.Perm g' → Spec.Reordered is is' → Spec.Reordered os os' →
        Psbt.deserialize L (Spec.psbtBytes g' is' os' rest') = .ok p := by
  have hw := wf_of_deserialize h
  obtain ⟨g, is, os, rest, h1, h2, h3, h4, h5, h6, h7, h8, h9⟩ := parsed_shape h
  refine ⟨g, is, os, rest, h1, h6.trans hw.inputCount, h8.trans hw.outputCount, ?_⟩
  intro g' is' os' rest' pg pi po
  obtain ⟨li, ei⟩ := pi
  obtain ⟨lo, eo⟩ := po
  rw [deserialize_ok] at h ⊢
  obtain ⟨_, _, _, _, _, _, hu, hc1, _, hc2, _⟩ := h
  refine ⟨Spec.mapBytes g' ++ (is'.flatMap Spec.mapBytes ++ (os'.flatMap Spec.mapBytes ++ rest')), _,
    os'.flatMap Spec.mapBytes ++ rest', rest', ?_,
    C12_v0_global h2 pg (h5 _), hu, hc1, ?_, hc2, ?_⟩
  · simp [Spec.psbtBytes, V2.MAGIC]
  · rw [← hw.inputCount]
    refine V2.decodeN_maps (by omega) (fun j j1 j2 r => ?_) _
    exact C12_v0_input (h3 _ (List.getElem_mem (by omega))) (ei j (by omega) j1) (h7 j (by omega) j2 r)
  · rw [← hw.outputCount]
    refine V2.decodeN_maps (by omega) (fun j j1 j2 r => ?_) _
    exact C12_v0_output (h4 _ (List.getElem_mem (by omega))) (eo j (by omega) j1) (h9 j (by omega) j2 r)

example : Spec.Reordered (demo.inputs.map Input.getPairs) (demo.inputs.map fun i => i.getPairs.reverse) :=
  ⟨by simp, fun j h1 h2 => by simpa using (List.reverse_perm _).symm⟩
example : Psbt.deserialize (Demo.lib false) (Spec.psbtBytes demo.getPairs.reverse
    (demo.inputs.map fun i => i.getPairs.reverse) (demo.outputs.map fun o => o.getPairs.reverse) [9]) = .ok demo := by
  decide +kernel

/-- C13 for PSBT v0, for whole PSBTs: bytes that parse are the bytes of some maps, the PSBT is written back as the bytes
of some maps, and every pair of a key type without meaning and every proprietary pair is again, unchanged, in the map with
the same number - and these are the only ones. -/
theorem C13_v0_psbt {L : Lib} {b : Bytes} {p : Psbt L} (h : Psbt.deserialize L b = .ok p) :
    ∃ (g : List Pair) (is os : List (List Pair)) (rest : Bytes) (g' : List Pair) (is' os' : List (List Pair)),
      b = Spec.psbtBytes g is os rest ∧ p.serialize = Spec.psbtBytes g' is' os' [] ∧
      is.length = p.unsignedTx.input.length ∧ is'.length = p.unsignedTx.input.length ∧
      os.length = p.unsignedTx.output.length ∧ os'.length = p.unsignedTx.output.length ∧
      (∀ q : Pair, (q.key.ty ∉ Spec.V0.globalTypes ∨ q.key.ty = 0xFC) → (q ∈ g ↔ q ∈ g')) ∧
      (∀ j (h1 : j < is.length) (h2 : j < is'.length), ∀ q : Pair,
        (q.key.ty ∉ Spec.V0.inputTypes ∨ q.key.ty = 0xFC) → (q ∈ is[j] ↔ q ∈ is'[j])) ∧
      (∀ j (h1 : j < os.length) (h2 : j < os'.length), ∀ q : Pair,
        (q.key.ty ∉ Spec.V0.outputTypes ∨ q.key.ty = 0xFC) → (q ∈ os[j] ↔ q ∈ os'[j])) := by
  have hw := wf_of_deserialize h
  obtain ⟨g, is, os, rest, h1, h2, h3, h4, h5, h6, h7, h8, h9⟩ := parsed_shape h
  refine ⟨g, is, os, rest, p.getPairs, p.inputs.map Input.getPairs, p.outputs.map Output.getPairs, h1, ?_,
    h6.trans hw.inputCount, by simpa using hw.inputCount, h8.trans hw.outputCount, by simpa using hw.outputCount, ?_, ?_, ?_⟩
  · rw [Spec.psbtBytes, mapBytes_fun]
    simp [Psbt.serialize, V2.MAGIC, List.flatMap_map]
  · have hg := (gl_wf_iff p).mp ⟨hw.version, fun i hi => (hw.unsigned i hi).2, hw.sizes, hw.props, hw.unknowns⟩
    refine fun q hq => extra_iff (C13_v0_global h2 (h5 [])) (C13_v0_global (r := []) (r' := []) (ps := p.getPairs) ?_ ?_) q hq
    · rw [gl_pairs]
      exact fun q hq => (pairFits_iff q).mp ((glSys L).fits (gl_lawful L) hg q hq)
    · rw [mapBytes_fun]
      exact gl_rt hg ((gl_size_iff p).mp hw.globalSize) hw.version _
  · intro j j1 j2 q hq
    rw [List.length_map] at j2
    rw [List.getElem_map]
    have hi := hw.inputs p.inputs[j] (List.getElem_mem j2)
    refine extra_iff (C13_v0_input (h3 _ (List.getElem_mem j1)) (h7 j j1 j2 []))
      (C13_v0_input (r := []) (r' := []) (ps := p.inputs[j].getPairs) ?_ ?_) q hq
    · rw [in_pairs]
      exact fun q hq => (pairFits_iff q).mp ((inSys L).fits (in_lawful L) ((input_wf_iff _).mp hi) q hq)
    · rw [mapBytes_fun]
      exact Input.rt hi _
  · intro j j1 j2 q hq
    rw [List.length_map] at j2
    rw [List.getElem_map]
    have hi := hw.outputs p.outputs[j] (List.getElem_mem j2)
    refine extra_iff (C13_v0_output (h4 _ (List.getElem_mem j1)) (h9 j j1 j2 []))
      (C13_v0_output (r := []) (r' := []) (ps := p.outputs[j].getPairs) ?_ ?_) q hq
    · rw [out_pairs]
      exact fun q hq => (pairFits_iff q).mp ((outSys L).fits (out_lawful L) ((output_wf_iff _).mp hi) q hq)
    · rw [mapBytes_fun]
      exact Output.rt hi _

example : (⟨⟨0x77, [1]⟩, [2]⟩ : Pair) ∈ (demo.inputs.map Input.getPairs)[0] ∧ (0x77 : UInt8) ∉ Spec.V0.inputTypes := by
  decide +kernel

end Psbt.V0

namespace Psbt.V2
open Psbt

/-- C11, partially, for whole PSBTs: in every byte string that parses, no map contains a key twice, except for the keys
whose "already seen" test is wrong. (Missing: the input count, and where the placeholder values occur the previous txid and
index of an input and the amount and script of an output: `C11_global_counterexample`, `C11_input_counterexample`,
`C11_output_counterexample`.) -/
theorem C11_psbt_partial {L : Lib} {b : Bytes} {p : Psbt L} (h : Psbt.deserialize L b = .ok p) :
    ∃ (g : List Pair) (is os : List (List Pair)) (rest : Bytes), b = Spec.psbtBytes g is os rest ∧
      is.length = p.inputs.length ∧ os.length = p.outputs.length ∧
      ((g.filter fun p => decide (p.key.ty ≠ 0x04)).map Pair.key).Nodup ∧
      (∀ ps ∈ is, ((ps.filter fun p => decide (p.key.ty ≠ 0x0e ∧ p.key.ty ≠ 0x0f)).map Pair.key).Nodup ∧
        ((∀ p ∈ ps, (p.key.ty = 0x0e → p.value ≠ List.replicate 32 0) ∧
          (p.key.ty = 0x0f → p.value ≠ List.replicate 4 0xff)) → (ps.map Pair.key).Nodup)) ∧
      (∀ ps ∈ os, ((ps.filter fun p => decide (p.key.ty ≠ 0x03 ∧ p.key.ty ≠ 0x04)).map Pair.key).Nodup ∧
        ((∀ p ∈ ps, (p.key.ty = 0x03 → p.value ≠ List.replicate 8 0) ∧ (p.key.ty = 0x04 → p.value ≠ [])) →
          (ps.map Pair.key).Nodup)) := by
  obtain ⟨g, is, os, rest, h1, h2, h3, h4, h5, h6, h7, h8, h9⟩ := parsed_shape h
  refine ⟨g, is, os, rest, h1, h6, h8, C11_global_partial h2 (h5 []), ?_, ?_⟩
  · intro ps hps
    obtain ⟨j, hj, rfl⟩ := List.getElem_of_mem hps
    exact C11_input_partial (h3 _ hps) (h7 j hj (by omega) [])
  · intro ps hps
    obtain ⟨j, hj, rfl⟩ := List.getElem_of_mem hps
    exact C11_output_partial (h4 _ hps) (h9 j hj (by omega) [])

/-- C12, partially, for whole PSBTs: bytes that parse are the bytes of some maps, and bytes with the pairs of each map in
any other order (and anything after them) parse to the same PSBT, if the counts stay in their order and no pair gives a
required field its placeholder value. (Missing: the remaining cases, `C12_global_counterexample` and
`C12_input_counterexample`.) -/
theorem C12_psbt_partial {L : Lib} {b : Bytes} {p : Psbt L} (h : Psbt.deserialize L b = .ok p) :
    ∃ (g : List Pair) (is os : List (List Pair)) (rest : Bytes), b = Spec.psbtBytes g is os rest ∧
      is.length = p.inputs.length ∧ os.length = p.outputs.length ∧
      ∀ g' is' os' rest', g.Perm g' → Spec.Reordered is is' → Spec.Reordered os os' →
        (g.filter fun p => decide (p.key.ty = 0x04 ∨ p.key.ty = 0x05)) =
          (g'.filter fun p => decide (p.key.ty = 0x04 ∨ p.key.ty = 0x05)) →
        (∀ ps ∈ is, ∀ p ∈ ps, (p.key.ty = 0x0e → p.value ≠ List.replicate 32 0) ∧
          (p.key.ty = 0x0f → p.value ≠ List.replicate 4 0xff)) →
        (∀ ps ∈ os, ∀ p ∈ ps, (p.key.ty = 0x03 → p.value ≠ List.replicate 8 0) ∧ (p.key.ty = 0x04 → p.value ≠ [])) →
        Psbt.deserialize L (Spec.psbtBytes g' is' os' rest') = .ok p := by
  have hw := wf_of_deserialize h
  obtain ⟨g, is, os, rest, h1, h2, h3, h4, h5, h6, h7, h8, h9⟩ := parsed_shape h
  refine ⟨g, is, os, rest, h1, h6, h8, ?_⟩
  intro g' is' os' rest' pg pi po hg hi ho
  obtain ⟨li, ei⟩ := pi
  obtain ⟨lo, eo⟩ := po
  rw [deserialize_ok] at h ⊢
  obtain ⟨_, _, _, _, _, _, hc1, _, hc2, _⟩ := h
  refine ⟨Spec.mapBytes g' ++ (is'.flatMap Spec.mapBytes ++ (os'.flatMap Spec.mapBytes ++ rest')), _,
    os'.flatMap Spec.mapBytes ++ rest', rest', ?_,
    C12_global_partial h2 pg hg (h5 _), hc1, ?_, hc2, ?_⟩
  · simp [Spec.psbtBytes, MAGIC]
  · rw [hw.inputCount]
    refine decodeN_maps (by omega) (fun j j1 j2 r => ?_) _
    have hm : is[j] ∈ is := List.getElem_mem (by omega)
    exact C12_input_partial (h3 _ hm) (ei j (by omega) j1) (hi _ hm) (h7 j (by omega) j2 r)
  · rw [hw.outputCount]
    refine decodeN_maps (by omega) (fun j j1 j2 r => ?_) _
    have hm : os[j] ∈ os := List.getElem_mem (by omega)
    exact C12_output_partial (h4 _ hm) (eo j (by omega) j1) (ho _ hm) (h9 j (by omega) j2 r)

/-- C13, for whole PSBTs: bytes that parse are the bytes of some maps, the PSBT is written back as the bytes of some maps,
and every pair of a key type without meaning and every proprietary pair is again, unchanged, in the map with the same
number - and these are the only ones. -/
theorem C13_psbt {L : Lib} {b : Bytes} {p : Psbt L} (h : Psbt.deserialize L b = .ok p) :
    ∃ (g : List Pair) (is os : List (List Pair)) (rest : Bytes) (g' : List Pair) (is' os' : List (List Pair)),
      b = Spec.psbtBytes g is os rest ∧ p.serialize = Spec.psbtBytes g' is' os' [] ∧
      is.length = p.inputs.length ∧ is'.length = p.inputs.length ∧
      os.length = p.outputs.length ∧ os'.length = p.outputs.length ∧
      (∀ q : Pair, (q.key.ty ∉ Spec.globalTypes L.sp ∨ q.key.ty = 0xFC) → (q ∈ g ↔ q ∈ g')) ∧
      (∀ j (h1 : j < is.length) (h2 : j < is'.length), ∀ q : Pair,
        (q.key.ty ∉ Spec.inputTypes L.sp ∨ q.key.ty = 0xFC) → (q ∈ is[j] ↔ q ∈ is'[j])) ∧
      (∀ j (h1 : j < os.length) (h2 : j < os'.length), ∀ q : Pair,
        (q.key.ty ∉ Spec.outputTypes L.sp ∨ q.key.ty = 0xFC) → (q ∈ os[j] ↔ q ∈ os'[j])) := by
  have hw := wf_of_deserialize h
  obtain ⟨g, is, os, rest, h1, h2, h3, h4, h5, h6, h7, h8, h9⟩ := parsed_shape h
  refine ⟨g, is, os, rest, p.global.getPairs, p.inputs.map Input.getPairs, p.outputs.map Output.getPairs, h1, ?_,
    h6, by simp, h8, by simp, ?_, ?_, ?_⟩
  · rw [Spec.psbtBytes, mapBytes_fun]
    simp [Psbt.serialize, MAGIC, List.flatMap_map]
  · refine fun q hq => extra_iff (C13_global h2 (h5 []))
      (C13_global (r := []) (r' := []) (ps := p.global.getPairs) ?_ ?_) q hq
    · rw [gl_pairs]
      exact fun q hq => (pairFits_iff q).mp ((glSys L).fits (gl_lawful L) ((global_wf_iff _).mp hw.global).1 q hq)
    · rw [mapBytes_fun]
      exact Global.rt hw.global _
  · intro j j1 j2 q hq
    rw [List.length_map] at j2
    rw [List.getElem_map]
    have hi := hw.inputs p.inputs[j] (List.getElem_mem j2)
    refine extra_iff (C13_input (h3 _ (List.getElem_mem j1)) (h7 j j1 j2 []))
      (C13_input (r := []) (r' := []) (ps := p.inputs[j].getPairs) ?_ ?_) q hq
    · rw [in_pairs]
      exact fun q hq => (pairFits_iff q).mp ((inSys L).fits (in_lawful L) ((input_wf_iff _).mp hi).1 q hq)
    · rw [mapBytes_fun]
      exact Input.rt hi _
  · intro j j1 j2 q hq
    rw [List.length_map] at j2
    rw [List.getElem_map]
    have hi := hw.outputs p.outputs[j] (List.getElem_mem j2)
    refine extra_iff (C13_output (h4 _ (List.getElem_mem j1)) (h9 j j1 j2 []))
      (C13_output (r := []) (r' := []) (ps := p.outputs[j].getPairs) ?_ ?_) q hq
    · rw [out_pairs]
      exact fun q hq => (pairFits_iff q).mp ((outSys L).fits (out_lawful L) ((output_wf_iff _).mp hi).1 q hq)
    · rw [mapBytes_fun]
      exact Output.rt hi _

example : Psbt.deserialize (Demo.lib false) (Spec.psbtBytes demo.global.getPairs
    (demo.inputs.map fun i => i.getPairs.reverse) (demo.outputs.map fun o => o.getPairs.reverse) [9]) = .ok demo := by
  decide +kernel
example : ∃ q ∈ demo.inputs.flatMap Input.getPairs, q.key.ty ∉ Spec.inputTypes false := by decide +kernel

end Psbt.V2
