/-
Who wins when two PSBTs are combined: which of two PSBTs the record for a key is taken from, in terms of the records a
map consists of (`Spec.V2Format`, `Spec.V0Format`).
-/
import Verif.Spec.V2Format
import Verif.Spec.V0Format
namespace Psbt.Spec
open Psbt

/-- The records (key type, key data, value) of a map. -/
abbrev Records := UInt8 → Bytes → Bytes → Prop

/-- The records `z` are made from the records `x` of the first and `y` of the second participant in this way: for the key
types `single` the first participant wins, for all others the second one; a participant that has nothing to say about a
key leaves it to the other one; and no record comes from elsewhere. Nothing is said about the key types `merged`, and the
second participant cannot fill in the key types `own`. -/
structure Precedence (single merged own : List UInt8) (x y z : Records) : Prop where
  first : ∀ t k v, t ∈ single → t ∉ merged → x t k v → z t k v
  second : ∀ t k v, t ∉ single → t ∉ merged → y t k v → z t k v
  firstAlone : ∀ t k v, t ∉ merged → x t k v → (∀ w, ¬ y t k w) → z t k v
  secondAlone : ∀ t k v, t ∉ merged → t ∉ own → y t k v → (∀ w, ¬ x t k w) → z t k v
  origin : ∀ t k v, t ∉ merged → z t k v → x t k v ∨ y t k v

/-- The key types of which a map of a PSBT v2 has one record at most: these have no key data. 0x09 and 0x0A are known with silent payments only. -/
def singleGlobal : List UInt8 := [0xFB, 0x02, 0x03, 0x04, 0x05, 0x06]
def singleInput : List UInt8 := [0x0e, 0x0f, 0x10, 0x11, 0x12, 0x00, 0x01, 0x03, 0x04, 0x05, 0x07, 0x08, 0x13, 0x17, 0x18]
def singleOutput (sp : Bool) : List UInt8 := [0x03, 0x04, 0x00, 0x01, 0x05, 0x06] ++ if sp then [0x09, 0x0A] else []

/-- The unknown records of a PSBT v2 have none of these types. -/
structure UnknownsApart {L : Lib} (p : V2.Psbt L) : Prop where
  global : ∀ k v, p.global.unknowns.get k = some v → k.ty ∉ singleGlobal
  inputs : ∀ i ∈ p.inputs, ∀ k v, i.unknowns.get k = some v → k.ty ∉ singleInput
  outputs : ∀ o ∈ p.outputs, ∀ k v, o.unknowns.get k = some v → k.ty ∉ singleOutput L.sp

/-- A PSBT v2 made from those of two participants: the maps at the same positions are combined; where the second
participant has no map, that of the first is kept. In a global map xpubs are merged; the fallback lock time and, in an
input map, the sighash type are those of the first participant; the non-witness UTXO may be given up. -/
structure Combined {L : Lib} (p q r : V2.Psbt L) : Prop where
  global : Precedence singleGlobal [0x01] [0x03] (GlobalPair p.global) (GlobalPair q.global) (GlobalPair r.global)
  inputCount : r.inputs.length = p.inputs.length
  inputs : ∀ (n : Nat) i j c, p.inputs[n]? = some i → q.inputs[n]? = some j → r.inputs[n]? = some c →
    Precedence singleInput [0x00] [0x03] (InputPair i) (InputPair j) (InputPair c)
  inputsLeft : ∀ n : Nat, q.inputs[n]? = none → r.inputs[n]? = p.inputs[n]?
  outputCount : r.outputs.length = p.outputs.length
  outputs : ∀ (n : Nat) i j c, p.outputs[n]? = some i → q.outputs[n]? = some j → r.outputs[n]? = some c →
    Precedence (singleOutput L.sp) [] [] (OutputPair i) (OutputPair j) (OutputPair c)
  outputsLeft : ∀ n : Nat, q.outputs[n]? = none → r.outputs[n]? = p.outputs[n]?

/-- `r` has every record that `p` has, xpubs and non-witness UTXOs apart. -/
structure Preserves {L : Lib} (p r : V2.Psbt L) : Prop where
  global : ∀ t k v, t ≠ 0x01 → GlobalPair p.global t k v → GlobalPair r.global t k v
  inputs : ∀ (n : Nat) i, p.inputs[n]? = some i → ∃ c, r.inputs[n]? = some c ∧
    ∀ t k v, t ≠ 0x00 → InputPair i t k v → InputPair c t k v
  outputs : ∀ (n : Nat) i, p.outputs[n]? = some i → ∃ c, r.outputs[n]? = some c ∧
    ∀ t k v, OutputPair i t k v → OutputPair c t k v

namespace V0

/-- The same for a PSBT v0. -/
def singleGlobal : List UInt8 := [0x00, 0xFB]
def singleInput : List UInt8 := [0x00, 0x01, 0x03, 0x04, 0x05, 0x07, 0x08, 0x13, 0x17, 0x18]
def singleOutput : List UInt8 := [0x00, 0x01, 0x05, 0x06]

structure UnknownsApart {L : Lib} (p : V0.Psbt L) : Prop where
  global : ∀ k v, p.unknown.get k = some v → k.ty ∉ singleGlobal
  inputs : ∀ i ∈ p.inputs, ∀ k v, i.unknown.get k = some v → k.ty ∉ singleInput
  outputs : ∀ o ∈ p.outputs, ∀ k v, o.unknown.get k = some v → k.ty ∉ singleOutput

/-- A PSBT v0 made from those of two participants. The version is the higher one. -/
structure Combined {L : Lib} (p q r : V0.Psbt L) : Prop where
  global : Precedence singleGlobal [0x01, 0xFB] [] (GlobalPair p) (GlobalPair q) (GlobalPair r)
  inputCount : r.inputs.length = p.inputs.length
  inputs : ∀ (n : Nat) i j c, p.inputs[n]? = some i → q.inputs[n]? = some j → r.inputs[n]? = some c →
    Precedence singleInput [0x00] [0x03] (InputPair i) (InputPair j) (InputPair c)
  inputsLeft : ∀ n : Nat, q.inputs[n]? = none → r.inputs[n]? = p.inputs[n]?
  outputCount : r.outputs.length = p.outputs.length
  outputs : ∀ (n : Nat) i j c, p.outputs[n]? = some i → q.outputs[n]? = some j → r.outputs[n]? = some c →
    Precedence singleOutput [] [] (OutputPair i) (OutputPair j) (OutputPair c)
  outputsLeft : ∀ n : Nat, q.outputs[n]? = none → r.outputs[n]? = p.outputs[n]?

/-- `r` has every record that `p` has, xpubs, the version and non-witness UTXOs apart. -/
structure Preserves {L : Lib} (p r : V0.Psbt L) : Prop where
  global : ∀ t k v, t ≠ 0x01 → t ≠ 0xFB → GlobalPair p t k v → GlobalPair r t k v
  inputs : ∀ (n : Nat) i, p.inputs[n]? = some i → ∃ c, r.inputs[n]? = some c ∧
    ∀ t k v, t ≠ 0x00 → InputPair i t k v → InputPair c t k v
  outputs : ∀ (n : Nat) i, p.outputs[n]? = some i → ∃ c, r.outputs[n]? = some c ∧
    ∀ t k v, OutputPair i t k v → OutputPair c t k v

end V0
end Psbt.Spec
