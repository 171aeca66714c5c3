/- What an error of the functions that compute signature messages claims about the PSBT. -/
import Verif.Spec.Sign
import Verif.Spec.Fee
import Verif.Spec.V0Sign
namespace Psbt.Spec
open Psbt V2

/-- A script that is a witness program of a version or length without a meaning. -/
def UnknownProgram (s : Bytes) : Prop := WitnessProgram s ∧ ¬ P2wpkh s ∧ ¬ P2wsh s ∧ ¬ P2tr s

/-- The sighash types ECDSA signatures can have, those taproot signatures can have. -/
def ecdsaTypes : List UInt32 := [0x01, 0x02, 0x03, 0x81, 0x82, 0x83]
def taprootTypes : List UInt32 := 0x00 :: ecdsaTypes

variable {L : Lib}

/-- Why the output type of the input at `n` of a PSBT v2 is not known. -/
inductive TypeFault (p : Psbt L) (n : Nat) : SignErr → Prop
  | noMap : p.inputs.length ≤ n → TypeFault p n (.index (.inputs n p.inputs.length))
  | notCounted : n < p.inputs.length → p.global.inputCount.toNat ≤ n → TypeFault p n (.index (.count n p.global.inputCount.toNat))
  | funding {i e} : HasInput p n i → FundingFails i e → TypeFault p n (.fundingUtxo e)
  | unknown {i u} : HasInput p n i → FundedBy i u → UnknownProgram u.scriptPubkey → TypeFault p n .unknownOutputType

/-- Index `n` exists, and the output it spends is known and of this type. -/
def SpendsAs (p : Psbt L) (n : Nat) (i : Input L) (u : TxOut) (t : OutputType) : Prop :=
  HasInput p n i ∧ FundedBy i u ∧ SpendType u.scriptPubkey i.redeemScript t

/-- Why there is no message to sign with ECDSA for the input at `n`, if the transaction signed is `tx`. -/
inductive SighashFault (p : Psbt L) (n : Nat) (tx : Tx) : SignErr → Prop
  | type {e} : TypeFault p n e → SighashFault p n tx e
  | taproot {i u} : SpendsAs p n i u .tr → SighashFault p n tx .wrongSigningAlgorithm
  | sighashType {i u t s} : SpendsAs p n i u t → t ≠ .tr → i.sighashType = some s → s ∉ ecdsaTypes →
      SighashFault p n tx .invalidSighashType
  | redeemScript {i u ty} : SpendsAs p n i u .sh → DeclaredType i ty → i.redeemScript = none →
      SighashFault p n tx .missingRedeemScript
  | witnessScript {i u t ty} : SpendsAs p n i u t → t = .wsh ∨ t = .shWsh → DeclaredType i ty → i.witnessScript = none →
      SighashFault p n tx .missingWitnessScript
  | otherTx {i u t ty} : SpendsAs p n i u t → t = .wpkh ∨ t = .shWpkh → DeclaredType i ty → tx.input.length ≤ n →
      SighashFault p n tx (.p2wpkhSighash .sighash)
  | otherTx' {i u t ty w} : SpendsAs p n i u t → t = .wsh ∨ t = .shWsh → DeclaredType i ty → i.witnessScript = some w →
      tx.input.length ≤ n → SighashFault p n tx .segwitV0Sighash

end Psbt.Spec

namespace Psbt.Spec.V0
open Psbt V0 Spec

variable {L : Lib}

/-- Why the output type of the input at `n` of a PSBT v0 is not known. -/
inductive TypeFault (p : Psbt L) (n : Nat) : SignErr → Prop
  | noMap : p.inputs.length ≤ n → TypeFault p n (.index (.inputs n p.inputs.length))
  | noInput : n < p.inputs.length → p.unsignedTx.input.length ≤ n → TypeFault p n (.index (.txInput n p.unsignedTx.input.length))
  | funding {t i} : HasInput p n t i → i.witnessUtxo = none → i.nonWitnessUtxo = none → TypeFault p n .missingSpendUtxo
  | unknown {t i u} : HasInput p n t i → FundedBy t i u → UnknownProgram u.scriptPubkey → TypeFault p n .unknownOutputType

/-- Index `n` exists, and the output it spends is known and of this type. -/
def SpendsAs (p : Psbt L) (n : Nat) (i : Input L) (u : TxOut) (ty : OutputType) : Prop :=
  ∃ t, HasInput p n t i ∧ FundedBy t i u ∧ SpendType u.scriptPubkey i.redeemScript ty

/-- Why there is no message to sign with ECDSA for the input at `n`, if the transaction signed is `tx`. -/
inductive SighashFault (p : Psbt L) (n : Nat) (tx : Tx) : SignErr → Prop
  | type {e} : TypeFault p n e → SighashFault p n tx e
  | taproot {i u} : SpendsAs p n i u .tr → SighashFault p n tx .wrongSigningAlgorithm
  | sighashType {i u t s} : SpendsAs p n i u t → t ≠ .tr → i.sighashType = some s → s ∉ ecdsaTypes →
      SighashFault p n tx .invalidSighashType
  | redeemScript {i u ty} : SpendsAs p n i u .sh → DeclaredType i ty → i.redeemScript = none →
      SighashFault p n tx .missingRedeemScript
  | witnessScript {i u t ty} : SpendsAs p n i u t → t = .wsh ∨ t = .shWsh → DeclaredType i ty → i.witnessScript = none →
      SighashFault p n tx .missingWitnessScript
  | otherTx {i u t ty} : SpendsAs p n i u t → t = .wpkh ∨ t = .shWpkh → DeclaredType i ty → tx.input.length ≤ n →
      SighashFault p n tx (.p2wpkhSighash .sighash)
  | otherTx' {i u t ty w} : SpendsAs p n i u t → t = .wsh ∨ t = .shWsh → DeclaredType i ty → i.witnessScript = some w →
      tx.input.length ≤ n → SighashFault p n tx .segwitV0Sighash

/-- The output spent is known of every input map. -/
def AllFunded (p : Psbt L) : Prop := ∀ m < p.inputs.length, ∃ t j v, HasInput p m t j ∧ FundedBy t j v

/-- Why there is no message to sign for taproot for the input at `n`, of the transaction of the PSBT. -/
inductive TapFault (p : Psbt L) (n : Nat) : SignErr → Prop
  | type {e} : TypeFault p n e → TapFault p n e
  | ecdsa {i u t} : SpendsAs p n i u t → t ≠ .tr → TapFault p n .wrongSigningAlgorithm
  | sighashType {i u s} : SpendsAs p n i u .tr → i.sighashType = some s → s ∉ taprootTypes → TapFault p n .invalidSighashType
  | otherInput {i u ty m} : SpendsAs p n i u .tr → DeclaredTapType i ty → tapCommitsInputs ty → m < p.inputs.length →
      (∀ t j v, HasInput p m t j → ¬ FundedBy t j v) → TapFault p n .missingSpendUtxo
  | moreInputs {i u ty} : SpendsAs p n i u .tr → DeclaredTapType i ty → tapCommitsInputs ty → AllFunded p →
      p.inputs.length ≠ p.unsignedTx.input.length → TapFault p n (.taproot .prevoutsSize)
  | noOutput {i u ty} : SpendsAs p n i u .tr → DeclaredTapType i ty → tapCommitsOutput ty →
      (tapCommitsInputs ty → AllFunded p ∧ p.inputs.length = p.unsignedTx.input.length) → p.unsignedTx.output.length ≤ n →
      TapFault p n (.taproot .singleMissingOutput)

end Psbt.Spec.V0
