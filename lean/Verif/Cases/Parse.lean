/- Theorems about reading applied to concrete bytes: cases that meet their hypotheses, beside those in the files of the theorems. -/
import Verif.Props.V0Parse
import Verif.Props.V2Parse2
namespace Psbt

/-! ### Version 2, Props/V2Parse.lean and Props/V2Parse2.lean -/

namespace V2
theorem csGlobal : Global.decode (Demo.lib false) (Spec.mapBytes demoGlobal.getPairs ++ [7]) = .ok (demoGlobal, [7]) := by decide +kernel
theorem csGlobalOk : ∀ p ∈ demoGlobal.getPairs, Spec.PairOk p := by decide
theorem csInput : Input.decode (Demo.lib false) (Spec.mapBytes demoInput.getPairs ++ [7]) = .ok (demoInput, [7]) := by decide +kernel
theorem csInputOk : ∀ p ∈ demoInput.getPairs, Spec.PairOk p := by decide
theorem csOutput : Output.decode (Demo.lib false) (Spec.mapBytes demoOutput.getPairs ++ [7]) = .ok (demoOutput, [7]) := by decide +kernel
theorem csOutputOk : ∀ p ∈ demoOutput.getPairs, Spec.PairOk p := by decide
example := C08_magic_and_separator demo_roundtrip
example := C09_global_required csGlobalOk csGlobal
example := C10_input_required csInputOk csInput
example := C10_input_rejected (L := Demo.lib false) (ps := demoInput.getPairs.filter fun p => p.key.ty ≠ 0x0e)
  (fun p hp => csInputOk p (List.mem_filter.mp hp).1) (.inl (by decide)) [7]
example := C10_output_required csOutputOk csOutput
example := C10_output_rejected (L := Demo.lib false) (ps := demoOutput.getPairs.filter fun p => p.key.ty ≠ 0x04)
  (fun p hp => csOutputOk p (List.mem_filter.mp hp).1) (.inr ⟨rfl, by decide⟩) [7]
example := C11_global_partial csGlobalOk csGlobal
example := C11_input_partial csInputOk csInput
example := C11_output_partial csOutputOk csOutput
example : Input.decode (Demo.lib false) (Spec.mapBytes demoInput.getPairs.reverse ++ [7]) = .ok (demoInput, [7]) :=
  C12_input_partial csInputOk (List.reverse_perm _).symm (by decide) csInput
/-- The map with its unknown pair, the last, put first. -/
example : Global.decode (Demo.lib false) (Spec.mapBytes (demoGlobal.getPairs.drop 6 ++ demoGlobal.getPairs.take 6) ++ [7]) = .ok (demoGlobal, [7]) :=
  C12_global_partial csGlobalOk ((List.take_append_drop 6 demoGlobal.getPairs ▸ List.perm_append_comm : demoGlobal.getPairs.Perm _)) (by decide) csGlobal
example := C13_global csGlobalOk csGlobal
example := C13_input csInputOk csInput
example := C14_counts demo_roundtrip
end V2

/-! ### Version 0, Props/V0Parse.lean -/

namespace V0
theorem csGlobal : decodeGlobal (Demo.lib false) (Spec.mapBytes demo.getPairs ++ [7]) = .ok ({ demo with inputs := [], outputs := [] }, [7]) := by decide +kernel
theorem csGlobalOk : ∀ p ∈ demo.getPairs, Spec.PairOk p := by decide +kernel
theorem csInput : Input.decode (Demo.lib false) (Spec.mapBytes demoInput.getPairs ++ [7]) = .ok (demoInput, [7]) := by decide +kernel
theorem csInputOk : ∀ p ∈ demoInput.getPairs, Spec.PairOk p := by decide
example := C11_v0_global csGlobalOk csGlobal
example := C11_v0_input csInputOk csInput
example := C12_v0_global csGlobalOk (List.reverse_perm _).symm csGlobal
example := C12_v0_input csInputOk (List.reverse_perm _).symm csInput
example := C13_v0_global csGlobalOk csGlobal
example := C13_v0_input csInputOk csInput
example := C47_unsigned demo_roundtrip
example := C47_global_required csGlobalOk csGlobal
example := C47_global_rejected (L := Demo.lib false) (ps := demo.getPairs ++ [⟨⟨0x04, []⟩, [1]⟩]) (r := [7])
  (fun p hp => (List.mem_append.mp hp).elim (csGlobalOk p) fun h => by obtain rfl := List.mem_singleton.mp h; decide)
  (.inr ⟨⟨⟨0x04, []⟩, [1]⟩, by simp, by decide⟩)
example := C47_input_rejected (L := Demo.lib false) (ps := demoInput.getPairs ++ [⟨⟨0x10, []⟩, [1, 2, 3, 4]⟩]) (r := [7])
  (fun p hp => (List.mem_append.mp hp).elim (csInputOk p) fun h => by obtain rfl := List.mem_singleton.mp h; decide)
  ⟨⟨⟨0x10, []⟩, [1, 2, 3, 4]⟩, by simp, by decide⟩
example := C14_v0_counts demo_roundtrip
end V0
end Psbt
