/- What combining two PSBTs should mean. -/
import Verif.Model.V2.Psbt
namespace Psbt.Spec
open Psbt.V2

/-- Two optional values do not contradict each other. -/
def Agree {α : Type} (x y : Option α) : Prop := ∀ a b, x = some a → y = some b → a = b

/-- Two maps have no key with different values. -/
def AgreeMap {K V : Type} [OrdKey K] [DecidableEq K] (m n : BMap K V) : Prop :=
  ∀ k a b, m.get k = some a → n.get k = some b → a = b

/-- The pairs `z` are a merge of the pairs `x` and `y`: nothing is invented, and every key of `x` not in the key types
`ex` and every key of `y` not in the key types `ey` is there. -/
structure Merged (ex ey : List UInt8) (x y z : List Pair) : Prop where
  from_either : ∀ p ∈ z, p ∈ x ∨ p ∈ y
  left : ∀ p ∈ x, p.key.ty ∉ ex → ∃ q ∈ z, q.key = p.key
  right : ∀ p ∈ y, p.key.ty ∉ ey → ∃ q ∈ z, q.key = p.key

variable {L : Lib}

/-- `r` is what two key origins of the same extended key should merge to: the one with the longer path, if the shorter
path is its ending (for equal paths: theirs). -/
inductive MergedKey (mine theirs : KeySource) : KeySource → Prop
  | mine : theirs.2.length < mine.2.length → theirs.2 <:+ mine.2 → MergedKey mine theirs mine
  | theirs : mine.2 <:+ theirs.2 → MergedKey mine theirs theirs

/-- Inputs without contradictions: combining them should not depend on the order. The last clause is about the rule
that a witness UTXO replaces a non-witness UTXO. -/
structure CompatibleInputs (a b : Input L) : Prop where
  sequence : Agree a.sequence b.sequence
  minTime : Agree a.minTime b.minTime
  minHeight : Agree a.minHeight b.minHeight
  partialSigs : AgreeMap a.partialSigs b.partialSigs
  sighashType : a.sighashType = b.sighashType
  redeemScript : Agree a.redeemScript b.redeemScript
  witnessScript : Agree a.witnessScript b.witnessScript
  bip32 : AgreeMap a.bip32Derivations b.bip32Derivations
  finalScriptSig : Agree a.finalScriptSig b.finalScriptSig
  finalScriptWitness : Agree a.finalScriptWitness b.finalScriptWitness
  ripemd160 : AgreeMap a.ripemd160Preimages b.ripemd160Preimages
  sha256 : AgreeMap a.sha256Preimages b.sha256Preimages
  hash160 : AgreeMap a.hash160Preimages b.hash160Preimages
  hash256 : AgreeMap a.hash256Preimages b.hash256Preimages
  tapKeySig : Agree a.tapKeySig b.tapKeySig
  tapScriptSigs : AgreeMap a.tapScriptSigs b.tapScriptSigs
  tapScripts : AgreeMap a.tapScripts b.tapScripts
  tapKeyOrigins : AgreeMap a.tapKeyOrigins b.tapKeyOrigins
  tapInternalKey : Agree a.tapInternalKey b.tapInternalKey
  tapMerkleRoot : Agree a.tapMerkleRoot b.tapMerkleRoot
  spEcdh : AgreeMap a.spEcdhShares b.spEcdhShares
  spDleq : AgreeMap a.spDleqProofs b.spDleqProofs
  proprietaries : AgreeMap a.proprietaries b.proprietaries
  unknowns : AgreeMap a.unknowns b.unknowns
  witnessUtxo : Agree a.witnessUtxo b.witnessUtxo
  nonWitnessUtxo : Agree a.nonWitnessUtxo b.nonWitnessUtxo
  oneSided : a.witnessUtxo.isSome ≠ b.witnessUtxo.isSome → a.nonWitnessUtxo = none ∧ b.nonWitnessUtxo = none

/-- Outputs without contradictions. -/
structure CompatibleOutputs (a b : Output L) : Prop where
  redeemScript : Agree a.redeemScript b.redeemScript
  witnessScript : Agree a.witnessScript b.witnessScript
  bip32 : AgreeMap a.bip32Derivations b.bip32Derivations
  tapInternalKey : Agree a.tapInternalKey b.tapInternalKey
  tapTree : Agree a.tapTree b.tapTree
  tapKeyOrigins : AgreeMap a.tapKeyOrigins b.tapKeyOrigins
  spInfo : Agree a.spV0Info b.spV0Info
  spLabel : Agree a.spV0Label b.spV0Label
  proprietaries : AgreeMap a.proprietaries b.proprietaries
  unknowns : AgreeMap a.unknowns b.unknowns

/-- Global maps without contradictions; two origins of one extended key are equal or one path is a longer version of
the other. -/
structure CompatibleGlobals (a b : Global L) : Prop where
  fallback : a.fallbackLockTime = b.fallbackLockTime
  flags : a.txModifiableFlags = b.txModifiableFlags
  inputCount : a.inputCount = b.inputCount
  outputCount : a.outputCount = b.outputCount
  xpubs : ∀ x s t, a.xpubs.get x = some s → b.xpubs.get x = some t → s = t ∨ s.2.length ≠ t.2.length
  spEcdh : AgreeMap a.spEcdhShares b.spEcdhShares
  spDleq : AgreeMap a.spDleqProofs b.spDleqProofs
  proprietaries : AgreeMap a.proprietaries b.proprietaries
  unknowns : AgreeMap a.unknowns b.unknowns

/-- PSBTs without contradictions. -/
structure Compatible (p q : Psbt L) : Prop where
  global : CompatibleGlobals p.global q.global
  inputsLength : p.inputs.length = q.inputs.length
  outputsLength : p.outputs.length = q.outputs.length
  inputs : ∀ (k : Nat) a b, p.inputs[k]? = some a → q.inputs[k]? = some b → CompatibleInputs a b
  outputs : ∀ (k : Nat) a b, p.outputs[k]? = some a → q.outputs[k]? = some b → CompatibleOutputs a b

end Psbt.Spec
