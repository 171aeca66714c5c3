/- Theorems about finalizing, signing and updating PSBT v0 applied to concrete PSBTs, beside the cases in the files of the theorems. -/
import Verif.Props.V0Finalize
import Verif.Props.V0Sign
import Verif.Props.V0Parallel
import Verif.Props.V0SighashMsg
import Verif.Props.V0Update
import Verif.Props.V0HandOver
import Verif.Props.V0Taproot
namespace Psbt.V0
open Psbt Psbt.Spec Psbt.Spec.V0

/-! ### Finalizing, Props/V0Finalize.lean -/

theorem csSound : Sound (gP [zIn, zWsh [3], zWsh [7]]) := zSound _ (by decide)
theorem csMut : (gP [zIn, zWsh [3], zWsh [7]]).finalizeMut V2.FM false =
    .ok ((zAll (gP [zIn, zWsh [3], zWsh [7]]) false).1, [.input .miniscript 1]) := by decide +kernel
theorem csAllOk : (gP [zIn, zWsh [7]]).finalizeMut V2.FM false = .ok ((zAll (gP [zIn, zWsh [7]]) false).1, []) := by decide +kernel
example : ∃ j, Result V2.FM (gP [zIn, zWsh [3], zWsh [7]]) 0 false (.ok j) :=
  have ⟨j, h, _⟩ := (C66_finalize_iff (M := V2.FM) csSound 0 (zOne (gP [zIn, zWsh [3], zWsh [7]]) 0)).mp (by decide +kernel)
  ⟨j, h⟩
example : ∃ e, Result V2.FM (gP [zIn, zWsh [3], zWsh [7]]) 1 false (.error e) :=
  ((C66_error_iff (M := V2.FM) csSound 1 (.err (.input .miniscript 1))).mp (by decide +kernel)).elim
    (fun h => absurd h.1 (by decide)) fun ⟨e, h, _⟩ => ⟨e, h⟩
example := C66_effect (M := V2.FM) csSound (n := 2) (q := zOne (gP [zIn, zWsh [3], zWsh [7]]) 2) (by decide +kernel)
example := C66_determined (M := V2.FM) csSound (n := 1) (by decide) true
example := C67_effect csSound csMut
example := C67_ok (zSound _ (by decide)) csAllOk
example := C67_unfunded (M := V2.FM) (p := gP [zIn, Input.default gL]) (mall := false) (zSound _ (by decide))
  ⟨Input.default gL, by simp [gP], rfl, rfl⟩ (q := gP [zIn, Input.default gL])
  (es := [.input .missingUtxo 1, .input .missingUtxo 1]) (by decide +kernel)
example := C69_after_finalize_partial (zSound _ (by decide)) csAllOk
example := C69_unchecked (M := V2.FM) (p := (zAll (gP [zIn, zWsh [7]]) false).1) (tx := zTx) (by decide +kernel) (by decide +kernel)
example := C65_v0_after (M := V2.FM) (p := gP [zWsh [2]]) (n := 0) ⟨rfl, rfl⟩ (.blocks ⟨100, by decide⟩)
example := C65_v0_older (M := V2.FM) (p := gP [zWsh [2]]) (n := 0) ⟨rfl, rfl⟩ (.blocks 10)

/-! ### Signing, Props/V0Sign.lean and Props/V0Parallel.lean -/

theorem csSigned : gMixed.sign gS gKeys = .ok (gQ gMixed, gR gMixed) := rfl
example := C50_frame csSigned
example := C50_reports csSigned 1
example := C50_failed_unchanged csSigned (n := 2) (e := .missingWitnessScript) (by decide +kernel)
theorem csOne (k : Provider gS) (p : Psbt gL) (h : (p.sign gS k).toOption.isSome = true) : ∃ r, p.sign gS k = .ok (pbSigned k p, r) := by
  unfold pbSigned
  cases hs : p.sign gS k with
  | error e => rw [hs] at h; cases h
  | ok x => exact ⟨x.2, rfl⟩
theorem csSignA : ∃ r, pbP.sign gS gKeys = .ok (pbSigned gKeys pbP, r) := csOne _ _ (by decide +kernel)
theorem csSignB : ∃ r, pbP.sign gS pbKeys = .ok (pbSigned pbKeys pbP, r) := csOne _ _ (by decide +kernel)
theorem csSignAB : ∃ r, (pbSigned gKeys pbP).sign gS pbKeys = .ok (pbSigned pbKeys (pbSigned gKeys pbP), r) := csOne _ _ (by decide +kernel)
example : ∃ ab r, (pbSigned gKeys pbP).sign gS pbKeys = .ok (ab, r) :=
  let ⟨_, ha⟩ := csSignA; let ⟨_, hb⟩ := csSignB; let ⟨ab, r, h, _⟩ := C79_report ha hb; ⟨ab, r, h⟩
example : ((pbSigned gKeys pbP).combine (pbSigned pbKeys pbP)).2 = .ok () :=
  let ⟨_, ha⟩ := csSignA; let ⟨_, hb⟩ := csSignB; let ⟨_, hab⟩ := csSignAB; (C79_combine_iff ha hb hab).1

/-! ### Messages, Props/V0SighashMsg.lean -/

theorem csMsgs : Sound (gP [zIn, gTap]) := zSound _ (by decide)
theorem csFunding : Funding (gP [zIn, gTap]).unsignedTx.input (gP [zIn, gTap]).inputs [⟨1000, V2.fSpk⟩, ⟨1000, V2.spkTr⟩] :=
  .cons (.witness rfl) (.cons (.witness rfl) .nil)
example : ∃ m, MsgFor (gP [zIn, gTap]) 1 none m :=
  ⟨_, ((C70_msg_iff csMsgs 1 none ((zMsg (gP [zIn, gTap]) 1).getD (.legacy (Demo.rep 32 0)))).mp (by decide +kernel)).2⟩
example := C70_agrees csMsgs (n := 0) csFunding none
example := C70_no_panic csMsgs 5 (gP []).unsignedTx none

/-! ### Updating, Props/V0Update.lean -/

example := C71_idempotent (p := gP [gIn uWshSpk]) (n := 0) (uDefinite uWsh)
  (q := uDone ((gP [gIn uWshSpk]).updateInput uLib 0 uWsh) (gP [])) (by decide +kernel)
example := C72_idempotent (p := uOut uWshSpk) (n := 0) (uDefinite uWsh)
  (q := uDone ((uOut uWshSpk).updateOutput uLib 0 uWsh) (gP [])) (by decide +kernel)

end Psbt.V0
