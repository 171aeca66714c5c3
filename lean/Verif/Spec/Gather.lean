/- Collecting many copies of a PSBT: combining them in any order and in any groups. -/
import Verif.Spec.Precedence
import Verif.Model.V2.Combine
import Verif.Model.V0.Combine
namespace Psbt.Spec
open Psbt

/-- An arrangement for combining copies: which of them are combined first, and in which order. -/
inductive Gathering (α : Type)
  | copy (p : α)
  | join (x y : Gathering α)

def Gathering.copies {α : Type} : Gathering α → List α
  | .copy p => [p]
  | .join x y => x.copies ++ y.copies

/-- Two maps have no key with different values. -/
def NoConflict (x y : Records) : Prop := ∀ t k v w, x t k v → y t k w → v = w

/-- A map has a record of key type `t`. -/
def HasType (x : Records) (t : UInt8) : Prop := ∃ k v, x t k v

/-- Input maps of two copies that can be gathered: they do not contradict each other, both have a sighash type or none (that
of the second one would be lost), and if one of them has a witness UTXO and one has a non-witness UTXO, then both have the
witness UTXO (else a non-witness UTXO would be lost). -/
structure InputFits (x y : Records) : Prop where
  noConflict : NoConflict x y
  sighashType : HasType x 0x03 ↔ HasType y 0x03
  utxo : HasType x 0x01 → HasType x 0x00 ∨ HasType y 0x00 → HasType y 0x01

/-- Two copies of a PSBT v2 to which different things may have been added. -/
structure Together {L : Lib} (p q : V2.Psbt L) : Prop where
  global : NoConflict (GlobalPair p.global) (GlobalPair q.global)
  fallback : HasType (GlobalPair p.global) 0x03 ↔ HasType (GlobalPair q.global) 0x03
  inputCount : p.inputs.length = q.inputs.length
  outputCount : p.outputs.length = q.outputs.length
  inputs : ∀ (n : Nat) i j, p.inputs[n]? = some i → q.inputs[n]? = some j → InputFits (InputPair i) (InputPair j)
  outputs : ∀ (n : Nat) i j, p.outputs[n]? = some i → q.outputs[n]? = some j → NoConflict (OutputPair i) (OutputPair j)

/-- `r` has the records of all PSBTs in `ps` and no others. -/
structure UnionOf {L : Lib} (ps : List (V2.Psbt L)) (r : V2.Psbt L) : Prop where
  global : ∀ t k v, GlobalPair r.global t k v ↔ ∃ p ∈ ps, GlobalPair p.global t k v
  inputCount : ∀ p ∈ ps, r.inputs.length = p.inputs.length
  outputCount : ∀ p ∈ ps, r.outputs.length = p.outputs.length
  inputs : ∀ (n : Nat) c, r.inputs[n]? = some c → ∀ t k v,
    InputPair c t k v ↔ ∃ p ∈ ps, ∃ i, p.inputs[n]? = some i ∧ InputPair i t k v
  outputs : ∀ (n : Nat) c, r.outputs[n]? = some c → ∀ t k v,
    OutputPair c t k v ↔ ∃ p ∈ ps, ∃ i, p.outputs[n]? = some i ∧ OutputPair i t k v

/-- Combining the copies as arranged. -/
def gather {L : Lib} : Gathering (V2.Psbt L) → Out (V2.CombErr L) (V2.Psbt L)
  | .copy p => .ok p
  | .join x y => do
    let a ← gather x
    let b ← gather y
    a.combine b

namespace V0

/-- Two copies of a PSBT v0 to which different things may have been added. -/
structure Together {L : Lib} (p q : V0.Psbt L) : Prop where
  transaction : p.unsignedTx = q.unsignedTx
  global : NoConflict (GlobalPair p) (GlobalPair q)
  inputCount : p.inputs.length = q.inputs.length
  outputCount : p.outputs.length = q.outputs.length
  inputs : ∀ (n : Nat) i j, p.inputs[n]? = some i → q.inputs[n]? = some j → InputFits (InputPair i) (InputPair j)
  outputs : ∀ (n : Nat) i j, p.outputs[n]? = some i → q.outputs[n]? = some j → NoConflict (OutputPair i) (OutputPair j)

/-- `r` has the records of all PSBTs in `ps` and no others. -/
structure UnionOf {L : Lib} (ps : List (V0.Psbt L)) (r : V0.Psbt L) : Prop where
  global : ∀ t k v, GlobalPair r t k v ↔ ∃ p ∈ ps, GlobalPair p t k v
  inputCount : ∀ p ∈ ps, r.inputs.length = p.inputs.length
  outputCount : ∀ p ∈ ps, r.outputs.length = p.outputs.length
  inputs : ∀ (n : Nat) c, r.inputs[n]? = some c → ∀ t k v,
    InputPair c t k v ↔ ∃ p ∈ ps, ∃ i, p.inputs[n]? = some i ∧ InputPair i t k v
  outputs : ∀ (n : Nat) c, r.outputs[n]? = some c → ∀ t k v,
    OutputPair c t k v ↔ ∃ p ∈ ps, ∃ i, p.outputs[n]? = some i ∧ OutputPair i t k v

/-- Combining the copies as arranged. -/
def gather {L : Lib} : Gathering (V0.Psbt L) → Out V0.Err (V0.Psbt L)
  | .copy p => .ok p
  | .join x y => do
    let a ← gather x
    let b ← gather y
    match a.combine b with
    | (r, .ok ()) => .ok r
    | (_, .error e) => .error e

end V0
end Psbt.Spec
