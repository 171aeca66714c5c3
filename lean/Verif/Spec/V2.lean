/-
Specification of the PSBT v2 data that the wire format can carry. Nothing here refers to the parser: only to the
fields of the three maps, to the pairs a map is written as, to the key types BIP-174/370/371/375 define, and to plain
size limits.
-/
import Verif.Model.V2.Psbt
import Verif.Spec.Limits
namespace Psbt.Spec
open Psbt Psbt.V2

/-- The key types of the global map that have a meaning to a PSBT v2 (BIP-174, BIP-370; BIP-375 with silent
payments). 0x00 is the PSBT v0 unsigned transaction, which a v2 PSBT must not have. -/
def globalTypes (sp : Bool) : List UInt8 :=
  [0x00, 0x01, 0x02, 0x03, 0x04, 0x05, 0x06, 0xFB, 0xFC] ++ if sp then [0x07, 0x08] else []

/-- The key types of an input map (BIP-174, BIP-370, BIP-371; BIP-375 with silent payments). 0x09 (proof of
reserves) is not supported by the crate. -/
def inputTypes (sp : Bool) : List UInt8 :=
  [0x00, 0x01, 0x02, 0x03, 0x04, 0x05, 0x06, 0x07, 0x08, 0x0a, 0x0b, 0x0c, 0x0d, 0x0e, 0x0f, 0x10, 0x11, 0x12, 0x13,
   0x14, 0x15, 0x16, 0x17, 0x18, 0xFC] ++ if sp then [0x1D, 0x1E] else []

/-- The key types of an output map. -/
def outputTypes (sp : Bool) : List UInt8 :=
  [0x00, 0x01, 0x02, 0x03, 0x04, 0x05, 0x06, 0x07, 0xFC] ++ if sp then [0x09, 0x0A] else []

/-- A global map the wire format can carry. -/
structure GlobalWF {L : Lib} (g : Global L) : Prop where
  version : g.version = 2
  sizes : ∀ p ∈ g.getPairs, PairOk p
  props : ∀ k v, g.proprietaries.get k = some v → PropOk k
  unknowns : ∀ k v, g.unknowns.get k = some v → k.ty ∉ globalTypes L.sp
  spOff : L.sp = false → g.spEcdhShares = .empty ∧ g.spDleqProofs = .empty
  spOn : L.sp = true → (g.spEcdhShares = .empty ↔ g.spDleqProofs = .empty)

/-- An input map the wire format can carry. -/
structure InputWF {L : Lib} (i : Input L) : Prop where
  txid : i.previousTxid.1 ≠ List.replicate 32 0
  vout : i.spentOutputIndex ≠ 0xFFFFFFFF
  sizes : ∀ p ∈ i.getPairs, PairOk p
  ripemd160 : ∀ h pre, i.ripemd160Preimages.get h = some pre → L.ripemd160 pre = h
  sha256 : ∀ h pre, i.sha256Preimages.get h = some pre → L.sha256 pre = h
  hash160 : ∀ h pre, i.hash160Preimages.get h = some pre → L.hash160 pre = h
  hash256 : ∀ h pre, i.hash256Preimages.get h = some pre → L.sha256d pre = h
  props : ∀ k v, i.proprietaries.get k = some v → PropOk k
  unknowns : ∀ k v, i.unknowns.get k = some v → k.ty ∉ inputTypes L.sp
  spOff : L.sp = false → i.spEcdhShares = .empty ∧ i.spDleqProofs = .empty
  spOn : L.sp = true → (i.spEcdhShares = .empty ↔ i.spDleqProofs = .empty)

/-- An output map the wire format can carry. -/
structure OutputWF {L : Lib} (o : Output L) : Prop where
  amount : o.amount ≠ 0
  script : L.sp = false → o.scriptPubkey ≠ []
  sizes : ∀ p ∈ o.getPairs, PairOk p
  props : ∀ k v, o.proprietaries.get k = some v → PropOk k
  unknowns : ∀ k v, o.unknowns.get k = some v → k.ty ∉ outputTypes L.sp
  info : ∀ v, o.spV0Info = some v → v.length = 66
  spOff : L.sp = false → o.spV0Info = none ∧ o.spV0Label = none
  spOn : L.sp = true → o.spV0Label ≠ none → o.spV0Info ≠ none

/-- A PSBT v2 the wire format can carry: three kinds of well-formed maps, counts equal to the numbers of maps, and
fewer maps than the address space can hold. -/
structure WF {L : Lib} (p : V2.Psbt L) : Prop where
  global : GlobalWF p.global
  inputs : ∀ i ∈ p.inputs, InputWF i
  outputs : ∀ o ∈ p.outputs, OutputWF o
  inputCount : p.global.inputCount.toNat = p.inputs.length
  outputCount : p.global.outputCount.toNat = p.outputs.length
  inputMem : p.inputs.length * L.inputSize < 2 ^ 63
  outputMem : p.outputs.length * L.outputSize < 2 ^ 63

end Psbt.Spec
