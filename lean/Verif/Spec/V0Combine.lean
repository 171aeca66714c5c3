/- When two PSBTs v0 do not contradict each other. -/
import Verif.Model.V0.Psbt
import Verif.Spec.Combine
namespace Psbt.Spec.V0
open Psbt.V0 Psbt.Spec

variable {L : Lib}

/-- Inputs without contradictions. The last clause is about the rule that a witness UTXO replaces a non-witness UTXO. -/
structure CompatibleInputs (a b : Input L) : Prop where
  partialSigs : AgreeMap a.partialSigs b.partialSigs
  sighashType : a.sighashType = b.sighashType
  redeemScript : Agree a.redeemScript b.redeemScript
  witnessScript : Agree a.witnessScript b.witnessScript
  bip32 : AgreeMap a.bip32Derivation b.bip32Derivation
  finalScriptSig : Agree a.finalScriptSig b.finalScriptSig
  finalScriptWitness : Agree a.finalScriptWitness b.finalScriptWitness
  ripemd160 : AgreeMap a.ripemd160Preimages b.ripemd160Preimages
  sha256 : AgreeMap a.sha256Preimages b.sha256Preimages
  hash160 : AgreeMap a.hash160Preimages b.hash160Preimages
  hash256 : AgreeMap a.hash256Preimages b.hash256Preimages
  tapKeySig : Agree a.tapKeySig b.tapKeySig
  tapScriptSigs : AgreeMap a.tapScriptSigs b.tapScriptSigs
  tapScripts : AgreeMap a.tapScripts b.tapScripts
  tapKeyOrigins : AgreeMap a.tapKeyOrigins b.tapKeyOrigins
  tapInternalKey : Agree a.tapInternalKey b.tapInternalKey
  tapMerkleRoot : Agree a.tapMerkleRoot b.tapMerkleRoot
  proprietary : AgreeMap a.proprietary b.proprietary
  unknown : AgreeMap a.unknown b.unknown
  witnessUtxo : Agree a.witnessUtxo b.witnessUtxo
  nonWitnessUtxo : Agree a.nonWitnessUtxo b.nonWitnessUtxo
  oneSided : a.witnessUtxo.isSome ≠ b.witnessUtxo.isSome → a.nonWitnessUtxo = none ∧ b.nonWitnessUtxo = none

/-- Outputs without contradictions. -/
structure CompatibleOutputs (a b : Output L) : Prop where
  redeemScript : Agree a.redeemScript b.redeemScript
  witnessScript : Agree a.witnessScript b.witnessScript
  bip32 : AgreeMap a.bip32Derivation b.bip32Derivation
  tapInternalKey : Agree a.tapInternalKey b.tapInternalKey
  tapTree : Agree a.tapTree b.tapTree
  tapKeyOrigins : AgreeMap a.tapKeyOrigins b.tapKeyOrigins
  proprietary : AgreeMap a.proprietary b.proprietary
  unknown : AgreeMap a.unknown b.unknown

/-- PSBTs without contradictions; two origins of one extended key are equal or their paths have different lengths. -/
structure Compatible (p q : Psbt L) : Prop where
  xpub : ∀ x s t, p.xpub.get x = some s → q.xpub.get x = some t → s = t ∨ s.2.length ≠ t.2.length
  proprietary : AgreeMap p.proprietary q.proprietary
  unknown : AgreeMap p.unknown q.unknown
  inputsLength : p.inputs.length = q.inputs.length
  outputsLength : p.outputs.length = q.outputs.length
  inputs : ∀ (k : Nat) a b, p.inputs[k]? = some a → q.inputs[k]? = some b → CompatibleInputs a b
  outputs : ∀ (k : Nat) a b, p.outputs[k]? = some a → q.outputs[k]? = some b → CompatibleOutputs a b

end Psbt.Spec.V0
