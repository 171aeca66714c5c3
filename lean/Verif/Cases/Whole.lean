/- Theorems about whole lives of PSBTs applied to concrete PSBTs: cases that meet their hypotheses, beside those in the files of the theorems. -/
import Verif.Props.Basic
import Verif.Props.Local
import Verif.Props.Sessions
import Verif.Props.TapSpend
import Verif.Props.TapTree
import Verif.Props.Truncated
import Verif.Props.V2Build
import Verif.Props.V2HandOver
import Verif.Props.V2Lifecycle
namespace Psbt.V2
open Psbt Psbt.Spec

/-! ### Reading part of the bytes, Props/Truncated.lean -/

example := C98_v2_ends demo_roundtrip
example := C98_v2_cut (wf_of_deserialize demo_roundtrip)
example : ∃ e, Psbt.deserialize (Demo.lib false) (demo.serialize.take 100) = .error (.err e) :=
  (C98_v2_cut (wf_of_deserialize demo_roundtrip)).1 _ (demo.serialize.drop 100) (by simp) (by decide +kernel)

/-! ### Handing over, Props/V2HandOver.lean -/

theorem wh_done : Spec.Reachable SS FM (fDone ho8) :=
  .finalize (f := ho8) (debug := true) ho_reachable_signed (by decide +kernel) (by decide +kernel) (by unfold Spec.SmallFinal; decide +kernel)
example : Psbt.deserialize EL ho5.serialize = .ok ho5 := C80_hand_over_partial ho_small ho_reachable (by unfold Spec.Fits; decide +kernel)
example : Psbt.deserialize EL ho8.serialize = .ok ho8 := C80_hand_over_partial ho_small ho_reachable_signed (by unfold Spec.Fits; decide +kernel)
example : Psbt.deserialize EL (fDone ho8).serialize = .ok (fDone ho8) := C80_hand_over_partial ho_small wh_done (by unfold Spec.Fits; decide +kernel)
example := C80_input_builder (L := EL) (o := ⟨Demo.rep 32 1, 0⟩) (by decide) (by decide) (.segwitFund (u := ⟨5, fSpk⟩) .new (by decide))

/-! ### From construction to extraction, Props/V2Lifecycle.lean and Props/Basic.lean -/

def whT : Tx := ok! ⟨0, 0, [], []⟩ (Extractor.extractUnchecked (fDone lc3))
theorem whT_eq : Extractor.extractUnchecked (fDone lc3) = .ok whT := ok!_eq (d := ⟨0, 0, [], []⟩) (by decide +kernel)
example := C83_end_to_end_partial lc_built lc_worked (.inl whT_eq)
example := C107_v2_partial lc_built lc_worked (.inl whT_eq)
example : whT.version = 2 ∧ whT.input.length = 1 ∧ whT.output = [⟨3, [0x51]⟩] := by decide +kernel

/-! ### What the creator and the constructor were asked, Props/V2Build.lean -/

theorem wh_asked : ∃ p, Spec.Asked (L := Demo.lib false) .psbt [.fallbackLockTime 7, .inputsModifiable, .transactionVersion 3,
      .fallbackLockTime 9, .sighashSingle, .constructor .modifiable, .input (ltInput none none), .input (ltInput (some t1) none),
      .output (Output.new _ ⟨5, [0x51]⟩), .noMoreInputs] p :=
  ⟨_, .constructorPsbt (m := .modifiable) (.noMoreInputs (.output (by decide) (.input (by decide)
    (.input (by decide) (.constructorModifiable (.sighashSingle (.fallbackLockTime 9 (.transactionVersion 3 (.inputsModifiable
      (.fallbackLockTime 7 .new)))))) rfl) rfl) rfl)) rfl⟩
example : ∃ p : Psbt (Demo.lib false), p.inputs = [ltInput none none, ltInput (some t1) none] ∧ p.global.fallbackLockTime = some 9 := by
  obtain ⟨p, h⟩ := wh_asked
  exact ⟨p, (C87_built h).1, (C87_built h).2.2.1⟩
example : ∃ p : Psbt (Demo.lib false), (∃ q, Constructor.updater p = .ok q) ↔ ¬ Spec.Conflict p := by
  obtain ⟨p, h⟩ := wh_asked
  exact ⟨p, (C87_failures h .modifiable (ltInput none none) (Output.new _ ⟨5, [0x51]⟩)).2.1⟩

end Psbt.V2

namespace Psbt.V0
open Psbt Psbt.Spec Psbt.Spec.V0

example := C98_v0_ends demo_roundtrip
example := C98_v0_cut (wf_of_deserialize demo_roundtrip)
example : ∃ e, Psbt.deserialize (Demo.lib false) (demo.serialize.take 60) = .error (.err e) :=
  (C98_v0_cut (wf_of_deserialize demo_roundtrip)).1 _ (demo.serialize.drop 60) (by simp) (by decide +kernel)

/-! ### Inputs do not affect each other, Props/Local.lean -/

example : (gQ (lP cI)).inputs[0]? = (gQ (lP (gIn V2.spkWsh))).inputs[0]? :=
  (C104_v0_ecdsa (p := lP cI) (q := lP (gIn V2.spkWsh)) (n := 0) (k := gKeys) (p' := gQ (lP cI)) (q' := gQ (lP (gIn V2.spkWsh))) (r := gR (lP cI)) (r' := gR (lP (gIn V2.spkWsh))) rfl rfl rfl rfl rfl
    ⟨_, _, _, .wpkh, ⟨rfl, rfl⟩, .witness rfl, outputTypeOf_iff.mp (by decide +kernel), by decide⟩).1
example : (gQ (lP (gIn V2.spkWsh))).inputs[1]? = (gQ (lP (gEcdsa (gIn V2.spkWsh)))).inputs[1]? :=
  (C104_v0_taproot (p := lP (gIn V2.spkWsh)) (q := lP (gEcdsa (gIn V2.spkWsh))) (n := 1) (k := gKeys) (p' := gQ (lP (gIn V2.spkWsh)))
    (q' := gQ (lP (gEcdsa (gIn V2.spkWsh)))) (r := gR (lP (gIn V2.spkWsh))) (r' := gR (lP (gEcdsa (gIn V2.spkWsh))))
    rfl rfl rfl (by unfold SameUtxos; decide +kernel) rfl).1

/-! ### Updating taproot inputs, Props/TapSpend.lean -/

def whQ : Psbt Demo.mixLib := (sDone (sPsbt.updateInput sLib 0 sDescr)).getD sPsbt
theorem whQ_eq : sPsbt.updateInput sLib 0 sDescr = .ok (whQ, .ok ()) := by
  have h : (sDone (sPsbt.updateInput sLib 0 sDescr)).isSome = true := by decide +kernel
  unfold whQ
  generalize sPsbt.updateInput sLib 0 sDescr = r at h
  match r, h with
  | .ok (_, .ok ()), _ => rfl
theorem wh_definite : Definite sLib sDescr := by intro k _ pk _ h; cases h
example := C96_input_committed wh_definite whQ_eq
example := C96_scripts_proven wh_definite whQ_eq

end Psbt.V0

namespace Psbt
open Spec

example : ∃ t : TapTree (Demo.lib false), (tapTreeCodec (Demo.lib false)).deser (treeBytes (tTree.list 0)) = .ok t ∧
    ∃ T : Tree, T.height ≤ 128 ∧ treeBytes (tTree.list 0) = treeBytes (T.list 0) ∧ t.leaves = (T.sorted (Demo.lib false)).list 0 := by
  have h : ((tapTreeCodec (Demo.lib false)).deser (treeBytes (tTree.list 0))).toOption.isSome = true := by decide +kernel
  cases e : (tapTreeCodec (Demo.lib false)).deser (treeBytes (tTree.list 0)) with
  | error _ => rw [e] at h; cases h
  | ok t => exact ⟨t, rfl, (C95_read_iff (by decide)).mp e⟩
example := C95_listing_unique (S := tTree) (T := tTree) (by decide) (by decide) rfl

end Psbt
