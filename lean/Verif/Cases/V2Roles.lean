/- Theorems about PSBT v2 applied to concrete PSBTs: cases that meet their hypotheses, beside those in the files of the theorems. -/
import Verif.Props.V2Combine
import Verif.Props.V2Extract
import Verif.Props.V2Finalize
import Verif.Props.V2Interp
import Verif.Props.V2LockTime
import Verif.Props.V2Parallel
import Verif.Props.V2Roles
import Verif.Props.V2Satisfy
import Verif.Props.V2Sighash
namespace Psbt.V2
open Psbt Psbt.Spec

/-! ### Combining, Props/V2Combine.lean -/

def csA : Psbt DL := { cXP 1 [1, 2, 3] with inputs := [{ cIn 1 with redeemScript := some [1], witnessUtxo := some cWU }, cIn 2] }
def csB : Psbt DL := { cXP 1 [2, 3] with inputs := [{ cIn 1 with nonWitnessUtxo := some cTx, sequence := some 5 }, { cIn 2 with witnessScript := some [2] }] }
def csC : Psbt DL := (combine? csA csB).getD csA
theorem csAB : csA.combine csB = .ok csC := by
  have h : (combine? csA csB).isSome = true := by decide +kernel
  unfold csC
  unfold combine? at h ⊢
  cases hc : csA.combine csB with
  | error e => rw [hc] at h; cases h
  | ok r => rfl
example : csC ≠ csA ∧ csC ≠ csB := by decide +kernel
example := C26_partial csAB
example := C26_non_witness_utxo_kept csAB 0 _ _ _ rfl rfl rfl (.inl (by decide))
example := C29_result_partial csAB cX
example := C29_success_iff_partial (a := csA.global) (b := csB.global) rfl rfl

/-! ### Extracting, Props/V2Extract.lean -/

def csX : Psbt EL := eP [eFin (eIn 5000), eFin { eLegacy 50 with sequence := some 7 }] [3000]
def csXt : Tx := (Extractor.extractUnchecked csX).toOption.getD ⟨0, 0, [], []⟩
theorem csXtx : Extractor.extractUnchecked csX = .ok csXt := by decide +kernel
theorem csXfee : csX.fee = .ok 2050 := by decide +kernel
example := C31_extraction (p := csX) (by rw [extractorNew_ok]; exact ⟨rfl, by decide, 0, by decide⟩)
example := C32_rate_partial 9000 csXfee csXtx (by decide)
example := C32_default_partial csXfee csXtx (by decide)
example := C32_too_high 1 csXfee csXtx (by decide) (by decide +kernel)

/-! ### Finalizing, Props/V2Finalize.lean and Props/V2Satisfy.lean -/

theorem csFunded : ∀ i ∈ (eP [fIn, fWsh [9]] [3]).inputs, ∃ u, FundedBy i u := by
  intro i hi
  simp only [eP, List.mem_cons, List.not_mem_nil, or_false] at hi
  rcases hi with rfl | rfl
  · exact ⟨_, .witness rfl⟩
  · exact ⟨_, .witness rfl⟩
theorem csFin : Finalizer.finalize FM true (eP [fIn, fWsh [9]] [3]) = .ok (fDone (eP [fIn, fWsh [9]] [3])) := by decide +kernel
example : fIn.finalize [] [[1]] = .ok { (fIn.finalize [] [[1]]).toOption.getD fIn with } := by decide +kernel
example := C40_recognised_partial (i := fIn) (s := []) (w := [[1]]) (j := (fIn.finalize [] [[1]]).toOption.getD fIn) (by decide +kernel)
example := C40_unsigned_tx_partial csFunded csFin
example := C41_new_error (p := eP [fIn, { Input.new EL ⟨Demo.rep 32 1, 0⟩ with redeemScript := some [1] }] [3])
  (e := .err (.fundingUtxo .missing)) (by decide +kernel)
example := C41_id (p := eP [fIn, fLegacy] [3]) (by decide +kernel)
example := (C41_finalize_iff csFunded true _).mp csFin
example := C41_failing_input_iff (M := FM) csFunded true 1 (.final .miniscript)
example := C41_refused_input_iff (M := FM) csFunded true (.input 1 .satisfaction)
example := C63_checked_and_extracted csFunded csFin
theorem csTr : FundedBy fTr ⟨5, spkTr⟩ := .witness rfl
example := C42_descriptor_iff (M := FM) (p := eP [fTr] [3]) csTr
example := C43_taproot_iff (M := FM) (p := eP [fTr] [3]) csTr fTr_spk
example := C43_key_spend (M := FM) (p := eP [fTr] [3]) (i := { fTr with tapKeySig := some ⟨Demo.rep 64 8, ⟨1, by decide⟩⟩ })
  (.witness rfl) fTr_spk rfl
example := C43_smallest_partial (M := FM) (p := eP [fTr] [3]) csTr fTr_spk rfl
  (s := []) (w := [[7], [7], [7], [3, 1], 0xc0 :: List.replicate 32 1]) (by decide +kernel)
example := C43_fails_iff (M := FM) (p := eP [fTr] [3]) csTr fTr_spk .couldNotSatisfyTr
example := C65_after_partial (M := FM) (p := eP [fAfter, fOlder] [3]) (t := fTx (eP [fAfter, fOlder] [3])) (k := 0)
  (by decide +kernel) rfl rfl (.blocks ⟨100, by decide⟩) (by decide) (by decide +kernel) (by decide)
example := C65_older_partial (M := FM) (p := eP [fAfter, fOlder] [3]) (t := fTx (eP [fAfter, fOlder] [3])) (k := 1)
  (by decide +kernel) rfl rfl (.blocks 10) (by decide) (by decide)

/-! ### Checking final scripts, Props/V2Interp.lean -/

example := C84_errors (M := FM) (p := eP [inFin, inWsh [4]] [3]) (us := [⟨5, fSpk⟩, ⟨5, [0x00, 0x20] ++ (EL.sha256 [4]).1⟩]) true
  (by unfold Spec.AllFinal; decide +kernel) (funding_iff.mp (by decide +kernel))
example := C85_sequences_stated_partial (M := FM) (p := eP [inFin, inWsh [9]] [3]) (debug := true)
  (t := (Extractor.extractUnchecked (eP [inFin, inWsh [9]] [3])).toOption.getD ⟨0, 0, [], []⟩)
  (by decide +kernel) (by decide +kernel) (by decide +kernel)

/-! ### Lock times, Props/V2LockTime.lean -/

example := C17_satisfies_every_input (p := ltPsbt [ltInput none none, ltInput (some t2) (some h1), ltInput none (some h2)]) (n := 12) (by decide)

/-! ### Signing, Props/V2Parallel.lean -/

theorem csOne (k : Provider SS) (p : Psbt SL) (h : (p.sign SS (sTx paP) k).toOption.isSome = true) :
    ∃ r, p.sign SS (sTx paP) k = .ok (paSigned k p, r) := by
  unfold paSigned
  cases hs : p.sign SS (sTx paP) k with
  | error e => rw [hs] at h; cases h
  | ok x => exact ⟨x.2, rfl⟩
theorem csSignA : ∃ r, paP.sign SS (sTx paP) sKeys = .ok (paSigned sKeys paP, r) := csOne _ _ (by decide +kernel)
theorem csSignB : ∃ r, paP.sign SS (sTx paP) paKeys = .ok (paSigned paKeys paP, r) := csOne _ _ (by decide +kernel)
theorem csSignAB : ∃ r, (paSigned sKeys paP).sign SS (sTx paP) paKeys = .ok (paSigned paKeys (paSigned sKeys paP), r) := csOne _ _ (by decide +kernel)
example : (paSigned sKeys paP).combine (paSigned paKeys paP) = .ok (paSigned paKeys (paSigned sKeys paP)) :=
  let ⟨_, ha⟩ := csSignA; let ⟨_, hb⟩ := csSignB; let ⟨_, hab⟩ := csSignAB
  C77_combine_unsigned (by decide +kernel) ha hb hab
example : ∃ ab r, (paSigned sKeys paP).sign SS (sTx paP) paKeys = .ok (ab, r) :=
  let ⟨_, ha⟩ := csSignA; let ⟨_, hb⟩ := csSignB; let ⟨ab, h⟩ := C77_report ha hb; ⟨ab, _, h⟩

/-! ### Roles, Props/V2Roles.lean -/

example : ∃ p : Psbt (Demo.lib false), p.global.inputCount.toNat = 2 ∧ p.global.outputCount.toNat = 1 := by
  have h : ∃ p, Spec.Built (L := Demo.lib false) .psbt p [ltInput none none, ltInput (some t1) none]
    [Output.new _ ⟨5, [0x51]⟩] := by
    refine ⟨_, .constructorPsbt (m := .modifiable) (.output (by decide) (.input (by decide)
      (.input (is := []) (by decide) (.constructorModifiable (.fallbackLockTime 7 .new)) rfl) rfl) rfl) rfl⟩
  obtain ⟨p, hp⟩ := h
  exact ⟨p, (C19_counts hp).2.2⟩
example := C20_updater (p := ltPsbt [ltInput none none]) (q := (Constructor.updater (ltPsbt [ltInput none none])).toOption.getD (ltPsbt [])) (by decide +kernel)

/-! ### Messages, Props/V2Sighash.lean -/

example := C37_index_error (sP [sIn spkWpkh]) 1 (sTx (sP [sIn spkWpkh])) (by rintro ⟨i, h, _⟩; cases h)
example := C37_taproot_error (p := sP [sIn spkWpkh, sIn spkTr]) (n := 1) (sTx (sP [sIn spkWpkh])) (i := sIn spkTr) ⟨rfl, by decide⟩ (.witness rfl) fTr_spk
example := C37_never_panics_partial (sP [sIn spkWpkh, sIn spkTr]) 0 (sTx (sP [sIn spkWpkh])) (by decide)

end Psbt.V2
