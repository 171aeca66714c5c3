/- Theorems about PSBT v0 applied to concrete PSBTs: cases that meet their hypotheses, beside those in the files of the theorems. -/
import Verif.Props.V0Combine
import Verif.Props.V0Extract
import Verif.Props.V0Checks
namespace Psbt.V0
open Psbt

/-! ### Combining, Props/V0Combine.lean -/

/-- Two PSBTs that complement each other. -/
def csA : Psbt DL := { cXP 1 [1, 2, 3] with inputs := [{ cI with redeemScript := some [1] }, cI] }
def csB : Psbt DL := { cXP 9 [2, 3] with inputs := [{ cI with witnessScript := some [2] }, { cI with witnessUtxo := some cU }] }
theorem csAB : csA.combine csB = ((csA.combine csB).1, .ok ()) := Prod.ext rfl (by decide +kernel)
example := C48_unsigned_tx csAB
example := C48_signatures csAB (k := 1) rfl rfl rfl
example := C48_utxos csAB (k := 1) rfl rfl rfl
example := C48_xpubs csAB cX
/-- Paths that differ. -/
theorem csPanic : ((cXP 1 [1, 2, 3]).combine (cXP 1 [5, 3])).2 = .error (.panic "attempt to subtract with overflow") ∨
    ((cXP 1 [5, 3]).combine (cXP 1 [1, 2, 3])).2 = .error (.panic "attempt to subtract with overflow") := by decide +kernel
example : ∃ p q : Psbt DL, ∃ x s t, p.xpub.get x = some s ∧ q.xpub.get x = some t ∧ t.2.length < s.2.length ∧ ¬ t.2 <:+ s.2 :=
  csPanic.elim (fun h => ⟨_, _, C48_panic_only_partial h⟩) (fun h => ⟨_, _, C48_panic_only_partial h⟩)
example : ∃ p q r : Psbt DL, ∃ e, p.combine q = (r, .error e) :=
  csPanic.elim (fun h => ⟨_, _, _, _, Prod.ext rfl h⟩) (fun h => ⟨_, _, _, _, Prod.ext rfl h⟩)
example := fun d => C61_assoc_partial (a := csA) (b := csB) (c := csA) rfl rfl rfl rfl
  (by rintro (_ | _ | k) i j l h1 h2 h3
      · cases h1; cases h2; cases h3; exact .inl ⟨rfl, rfl, rfl⟩
      · cases h1; cases h2; cases h3; exact .inl ⟨rfl, rfl, rfl⟩
      · cases h1) d

/-! ### Extracting, Props/V0Extract.lean -/

theorem csFee : (eP (eFin (eW 4100)) (eFin (eW 5))).fee = .ok ((eP (eFin (eW 4100)) (eFin (eW 5))).fee.toOption.getD 0) := by decide +kernel
example := C49_rate_partial (max := 1000) csFee (by decide +kernel)
example := C49_default_partial csFee (by decide +kernel)
example := C49_fee_errors (p := eP (eW 20) cI) (e := .err .missingUtxo) (by decide +kernel)
example := C49_fee_errors (p := eP (eW 20) (eW 5)) (e := .err .negativeFee) (by decide +kernel)
example := C49_errors (p := eP (eW 20) (eW 5)) (max := 1000) (e := .sendingTooMuch (eP (eW 20) (eW 5))) (by decide +kernel)
example := C49_errors (p := eP (eFin (eW 4100)) (eFin (eW 5))) (max := 0)
  (e := .absurdFeeRate (((eP (eFin (eW 4100)) (eFin (eW 5))).fee.toOption.getD 0).toNat * 1000 / (eP (eFin (eW 4100)) (eFin (eW 5))).extractUnchecked.weight)
    (eP (eFin (eW 4100)) (eFin (eW 5))).extractUnchecked) (by decide +kernel)

/-! ### Checks before signing, Props/V0Checks.lean -/

example := C52_error_sound (p := kP (Demo.rep 32 7) (gIn V2.spkBare)) (c := .nonWitnessSig) (by decide +kernel)
example : Spec.V0.Consistent (kP (Demo.rep 32 7) kNative) := C52_sound_partial (by decide +kernel)
  (by rintro (_ | n) i u h1 h2 h3
      · cases h1; cases h2; cases h3 with
        | sh h _ => obtain ⟨_, e⟩ := h; exact absurd (Option.some.inj (congrArg (·.head?) e : some (0x00 : UInt8) = some 0xa9)) (by decide)
      · cases h1)
  (by rintro (_ | n) i u h1 h2 -
      · cases h1; cases h2; exact .inl ⟨_, rfl⟩
      · cases h1)

end Psbt.V0
