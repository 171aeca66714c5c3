/- C116: what signing complains about is so. -/
import Verif.Lemmas.SignTold
import Verif.Props.V0Sign
import Verif.Props.V2Sign
namespace Psbt
open Spec

namespace V2
variable {L : Lib} {S : SigLib L}

/-- C116. The output type of an input is refused with an error if and only if the reason the error names is so: there is no
such input map, the input count does not cover it, the output spent is not known, or its script is a witness program without
a meaning. The numbers in the error are the index asked for and the number of inputs there are. -/
theorem C116_output_type (p : Psbt L) (n : Nat) (e : SignErr) : p.outputType n = .error (.err e) ↔ TypeFault p n e :=
  outputType_told

/-- C116. The same for the ECDSA message of an input: it is refused with an error if and only if what the error names is so. -/
theorem C116_sighash (p : Psbt L) (n : Nat) (tx : Tx) (e : SignErr) :
    p.sighashEcdsa n tx = .error (.err e) ↔ SighashFault p n tx e := sighashEcdsa_told

/-- C116. The errors signing reports: an input is reported with this error if and only if ECDSA signing applies to it, the
provider has a key for it, and what the error names is so. -/
theorem C116_sign {p q : Psbt L} {tx : Tx} {k : Provider S} {r} (h : p.sign S tx k = .ok (q, r)) (n : Nat) (e : SignErr) :
    (Spec.V0.errorsReported r).get n = some e ↔ ∃ i, Signable p n i ∧ keysFor S k i ≠ [] ∧ SighashFault p n tx e := by
  obtain ⟨used, errors, hr, -, he⟩ := C35_reports h
  have : (Spec.V0.errorsReported r).get n = errors.get n := by
    rcases hr with ⟨rfl, h0⟩ | ⟨rfl, -⟩
    · show BMap.get BMap.empty n = _
      obtain ⟨l, hl⟩ := errors
      obtain rfl : l = [] := h0
      rfl
    · rfl
  rw [this, he n e]
  simp only [sighashEcdsa_told]

/-! ### Cases that meet the hypotheses -/

-- Each complaint about the output type.
example : TypeFault (sP [sIn spkWpkh]) 1 (.index (.inputs 1 1)) := .noMap (by decide)
example : TypeFault (let p := sP [sIn spkWpkh]; { p with global := { p.global with inputCount := 0 } }) 0 (.index (.count 0 0)) :=
  .notCounted (by decide) (by decide)
example : TypeFault (sP [sIn spkUnknown]) 0 .unknownOutputType := (C116_output_type _ _ _).mp (by decide +kernel)
example : TypeFault (sP [{ sIn spkWpkh with witnessUtxo := none }]) 0 (.fundingUtxo .missing) :=
  (C116_output_type _ _ _).mp (by decide +kernel)
-- And of the message.
example : SighashFault (sP [sIn spkWsh]) 0 (sTx (sP [sIn spkWsh])) .missingWitnessScript := (C116_sighash _ _ _ _).mp (by decide +kernel)
example : SighashFault (sP [sIn spkTr]) 0 (sTx (sP [sIn spkTr])) .wrongSigningAlgorithm := (C116_sighash _ _ _ _).mp (by decide +kernel)
example : SighashFault (sP [sIn spkSh]) 0 (sTx (sP [sIn spkSh])) .missingRedeemScript := (C116_sighash _ _ _ _).mp (by decide +kernel)
example : SighashFault (sP [{ sIn spkWpkh with sighashType := some 4 }]) 0 (sTx (sP [sIn spkWpkh])) .invalidSighashType :=
  (C116_sighash _ _ _ _).mp (by decide +kernel)
example : SighashFault (sP [sIn spkWpkh]) 0 ⟨2, 0, [], []⟩ (.p2wpkhSighash .sighash) := (C116_sighash _ _ _ _).mp (by decide +kernel)
-- The run of `C35_reports` has an error.
example : (Spec.V0.errorsReported (.error (sUsed, sErrs) : Except (BMap Nat (List SL.pubkey.T) × BMap Nat SignErr) (BMap Nat (List SL.pubkey.T)))).get 1 =
    some .missingWitnessScript := by decide +kernel
example := C116_sign sRun 1 .missingWitnessScript

end V2

namespace V0
variable {L : Lib} {S : SigLib L}

/-- C116, PSBT v0. The output type of an input is refused with an error if and only if the reason the error names is so. -/
theorem C116_output_type (p : Psbt L) (n : Nat) (e : SignErr) : p.outputType n = .error (.err e) ↔ Spec.V0.TypeFault p n e :=
  outputType_told

/-- C116, PSBT v0. The ECDSA message of an input is refused with an error if and only if what the error names is so. -/
theorem C116_sighash (p : Psbt L) (n : Nat) (tx : Tx) (e : SignErr) :
    p.sighashEcdsa n tx = .error (.err e) ↔ Spec.V0.SighashFault p n tx e := sighashEcdsa_told

/-- C116, PSBT v0. If the taproot message of an input is refused with an error, what the error names is so; and it is refused
with this error then, unless the indices of the UTXOs are such that looking them up panics. -/
theorem C116_taproot (p : Psbt L) (n : Nat) (leaf : Option Hash32) (e : SignErr) :
    (p.sighashTaproot n p.unsignedTx leaf = .error (.err e) → Spec.V0.TapFault p n e) ∧
    (Spec.V0.IndicesInRange p → Spec.V0.TapFault p n e → p.sighashTaproot n p.unsignedTx leaf = .error (.err e)) :=
  ⟨sighashTaproot_told, fun hr => sighashTaproot_fault hr⟩

/-- C116, PSBT v0. The errors signing reports: what they name is so. Either the way the input is spent is not known, or it is
spent with ECDSA signatures and there is a key to sign with, or it is spent with taproot signatures and the provider has
the key of one that is missing. -/
theorem C116_sign {p q : Psbt L} {k : Provider S} {r} (h : p.sign S k = .ok (q, r)) {n : Nat} {e : SignErr}
    (he : (Spec.V0.errorsReported r).get n = some e) :
    Spec.V0.TypeFault p n e ∨
    (Spec.V0.SpendsEcdsa p n ∧ (∃ t i, Spec.V0.HasInput p n t i ∧ Spec.V0.keysFor S k i ≠ []) ∧
      Spec.V0.SighashFault p n p.unsignedTx e) ∨
    (Spec.V0.SpendsTaproot p n ∧ (∃ t i leaf, Spec.V0.HasInput p n t i ∧ Spec.V0.Needs S k i leaf) ∧ Spec.V0.TapFault p n e) := by
  obtain ⟨-, hp, -, h3⟩ := sign_spec h
  have h4 := h3 n
  by_cases hn : n < p.inputs.length
  · rw [if_pos hn] at h4
    rw [h4.2.2] at he
    unfold outcome at he
    cases ha : p.signingAlgorithm n with
    | error x =>
      simp only [ha] at he
      cases x with
      | panic s => cases he
      | err x =>
        cases he
        left
        unfold Psbt.signingAlgorithm at ha
        rw [bind_err] at ha
        rcases ha with ha | ⟨ty, -, ha⟩
        · exact outputType_told.mp ha
        · cases ty <;> cases ha
    | ok a =>
      have hin : ∃ ty t i u, Spec.V0.HasInput p n t i ∧ Spec.V0.FundedBy t i u ∧ SpendType u.scriptPubkey i.redeemScript ty ∧
          (a = .ecdsa ↔ ty ≠ .tr) := by
        unfold Psbt.signingAlgorithm at ha
        rw [bind_ok] at ha
        obtain ⟨ty, ho, ha⟩ := ha
        obtain ⟨t, i, u, h1, h2, h5⟩ := (outputType_iff _ n ty).mp ho
        refine ⟨ty, t, i, u, h1, h2, h5, ?_⟩
        cases ty <;> cases ha <;> exact ⟨fun h => by cases h <;> exact nofun, fun h => by first | rfl | exact absurd rfl h⟩
      obtain ⟨ty, t, i, u, h1, h2, h5, h6⟩ := hin
      right
      cases a with
      | ecdsa =>
        left
        simp only [ha, h1.2] at he
        cases hs : p.sighashEcdsa n p.unsignedTx with
        | error x =>
          rw [hs] at he
          cases x with
          | panic s => cases he
          | err x =>
            simp only at he
            by_cases hk : (Spec.V0.keysFor S k i).isEmpty = true
            · rw [if_pos hk] at he; cases he
            · rw [if_neg hk] at he
              cases he
              exact ⟨⟨t, i, u, ty, h1, h2, h5, h6.mp rfl⟩, ⟨t, i, h1, fun h0 => hk (by rw [h0]; rfl)⟩, sighashEcdsa_told.mp hs⟩
        | ok m => rw [hs] at he; cases he
      | schnorr =>
        right
        obtain rfl : ty = .tr := Classical.byContradiction fun hty => by cases h6.mpr hty
        simp only [ha, h1.2] at he
        rcases schnorrLoop_spec (S := S) (msg := p.sighashTaproot n p.unsignedTx) k i i.tapKeyOrigins.l
          (keys_ne i.tapKeyOrigins) (fun d hd => BMap.mem_iff_get.mp hd) i.tapKeySig i.tapScriptSigs []
          with ⟨sig, sigs, g1, -⟩ | ⟨leaf, x, g1, g2, g3⟩
        · rw [g1] at he; cases he
        · rw [g1] at he
          cases x with
          | panic s => cases he
          | err x =>
            cases he
            cases h5 with
            | tr h5 => exact ⟨⟨t, i, u, h1, h2, h5⟩, ⟨t, i, leaf, h1, due_iff.mp g3⟩, sighashTaproot_told g2⟩
  · rw [if_neg hn] at h4
    rw [h4.2] at he
    cases he

/-! ### Cases that meet the hypotheses -/

example : (Spec.V0.errorsReported (gR gMixed)).get 2 = some .missingWitnessScript ∧
    (Spec.V0.errorsReported (gR gMixed)).get 3 = some .unknownOutputType := by decide +kernel
example := C116_sign (rfl : gMixed.sign gS gKeys = .ok (gQ gMixed, gR gMixed)) (n := 2) (e := .missingWitnessScript) (by decide +kernel)
example := C116_sign (rfl : (gP [gTap, cI]).sign gS gKeys = .ok (gQ (gP [gTap, cI]), gR (gP [gTap, cI]))) (n := 0)
  (e := .missingSpendUtxo) (by decide +kernel)
example : Spec.V0.TypeFault (gP [gTap]) 1 (.index (.inputs 1 1)) := (C116_output_type _ _ _).mp (by decide +kernel)
example : Spec.V0.TypeFault (let p := gP [gTap]; { p with unsignedTx := { p.unsignedTx with input := [] } }) 0 (.index (.txInput 0 0)) :=
  (C116_output_type _ _ _).mp (by decide +kernel)
example : Spec.V0.SighashFault (gP [gIn V2.spkSh]) 0 (gP [gIn V2.spkSh]).unsignedTx .missingRedeemScript :=
  (C116_sighash _ _ _ _).mp (by decide +kernel)
-- A taproot input that signs an output which is not there, and one of a type taproot does not have.
example : Spec.V0.TapFault (gP [gTap, { gTap with sighashType := some 3 }]) 1 (.taproot .singleMissingOutput) :=
  (C116_taproot _ _ none _).1 (by decide +kernel)
example : (gP [gTap, { gTap with sighashType := some 0x83 }]).sighashTaproot 1 (gP [gTap, gTap]).unsignedTx none =
    .error (.err (.taproot .singleMissingOutput)) :=
  (C116_taproot (gP [gTap, { gTap with sighashType := some 0x83 }]) 1 none _).2
    (fun k t i tx h1 h2 h3 h4 => by
      rcases k with _ | _ | k
      · cases h2; cases h4
      · cases h2; cases h4
      · cases h2)
    ((C116_taproot _ _ none _).1 (by decide +kernel))
example : Spec.V0.TapFault (gP [{ gTap with sighashType := some 4 }]) 0 .invalidSighashType := (C116_taproot _ _ none _).1 (by decide +kernel)

end V0
end Psbt
