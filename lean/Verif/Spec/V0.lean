/-
Specification of the PSBT v0 data that the wire format can carry. Nothing here refers to the parser: only to the fields
of the three maps, to the pairs a map is written as, to the key types BIP-174/370/371 define, and to plain size limits.
-/
import Verif.Model.V0.Psbt
import Verif.Spec.Limits
import Verif.Spec.V2Format
namespace Psbt.Spec.V0
open Psbt Psbt.V0

/-- The key types of the global map that have a meaning (BIP-174), and those that only PSBT v2 has (BIP-370). -/
def globalTypes : List UInt8 := [0x00, 0x01, 0xFB, 0xFC, 0x02, 0x03, 0x04, 0x05, 0x06]

/-- The key types of an input map (BIP-174, BIP-371), and those that only PSBT v2 has (0x0e-0x12). 0x09 (proof of
reserves) is not supported by the crate. -/
def inputTypes : List UInt8 :=
  [0x00, 0x01, 0x02, 0x03, 0x04, 0x05, 0x06, 0x07, 0x08, 0x0a, 0x0b, 0x0c, 0x0d, 0x0e, 0x0f, 0x10, 0x11, 0x12, 0x13,
   0x14, 0x15, 0x16, 0x17, 0x18, 0xFC]

/-- The key types of an output map (BIP-174, BIP-371), and those that only PSBT v2 has (0x03, 0x04). -/
def outputTypes : List UInt8 := [0x00, 0x01, 0x02, 0x03, 0x04, 0x05, 0x06, 0x07, 0xFC]

/-- An input map the wire format can carry. -/
structure InputWF {L : Lib} (i : Input L) : Prop where
  sizes : ∀ p ∈ i.getPairs, PairOk p
  ripemd160 : ∀ h pre, i.ripemd160Preimages.get h = some pre → L.ripemd160 pre = h
  sha256 : ∀ h pre, i.sha256Preimages.get h = some pre → L.sha256 pre = h
  hash160 : ∀ h pre, i.hash160Preimages.get h = some pre → L.hash160 pre = h
  hash256 : ∀ h pre, i.hash256Preimages.get h = some pre → L.sha256d pre = h
  props : ∀ k v, i.proprietary.get k = some v → PropOk k
  unknowns : ∀ k v, i.unknown.get k = some v → k.ty ∉ inputTypes

/-- An output map the wire format can carry. -/
structure OutputWF {L : Lib} (o : Output L) : Prop where
  sizes : ∀ p ∈ o.getPairs, PairOk p
  props : ∀ k v, o.proprietary.get k = some v → PropOk k
  unknowns : ∀ k v, o.unknown.get k = some v → k.ty ∉ outputTypes

/-- A PSBT v0 the wire format can carry: version 0, an unsigned transaction without scriptSigs and witnesses, one map
for each of its inputs and outputs, well-formed maps, a global map that takes at most 4,000,000 bytes together with the
zero byte that ends it, and fewer maps than the address space can hold. -/
structure WF {L : Lib} (p : V0.Psbt L) : Prop where
  version : p.version = 0
  unsigned : ∀ i ∈ p.unsignedTx.input, i.scriptSig = [] ∧ i.witness = []
  globalSize : (p.getPairs.flatMap fun q => pairBytes q.key.ty q.key.key q.value).length + 1 ≤ 4000000
  sizes : ∀ q ∈ p.getPairs, PairOk q
  props : ∀ k v, p.proprietary.get k = some v → PropOk k
  unknowns : ∀ k v, p.unknown.get k = some v → k.ty ∉ globalTypes
  inputs : ∀ i ∈ p.inputs, InputWF i
  outputs : ∀ o ∈ p.outputs, OutputWF o
  inputCount : p.inputs.length = p.unsignedTx.input.length
  outputCount : p.outputs.length = p.unsignedTx.output.length
  inputMem : p.inputs.length * L.inputSize < 2 ^ 63
  outputMem : p.outputs.length * L.outputSize < 2 ^ 63

end Psbt.Spec.V0
