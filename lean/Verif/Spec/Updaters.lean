/- Several updaters of a PSBT v0. -/
import Verif.Spec.V0Update
import Verif.Model.V0.Combine
namespace Psbt.Spec.V0
open Psbt.V0

variable {L : Lib} (U : UpdLib L)

/-- Filling in one input or output from a descriptor. -/
inductive Update where
  | input (n : Nat) (d : Descriptor U.Shape U.Key)
  | output (n : Nat) (d : Descriptor U.Shape U.Key)

/-- Which map is filled in. -/
inductive Place where
  | input (n : Nat)
  | output (n : Nat)
  deriving DecidableEq

variable {U}
def Update.place : Update U → Place
  | .input n _ => .input n
  | .output n _ => .output n

/-- The call, and what it says. -/
def Update.call (p : Psbt L) : Update U → Out Empty (Psbt L × Except UpdateErr Unit)
  | .input n d => p.updateInput U n d
  | .output n d => p.updateOutput U n d

/-- The calls made one after the other on the same PSBT, whatever they say: the PSBT at the end, and what each call said. -/
def updateInTurn (p : Psbt L) : List (Update U) → Out Empty (Psbt L × List (Update U × Except UpdateErr Unit))
  | [] => .ok (p, [])
  | u :: us => do
    let (q, r) ← u.call p
    let (s, rs) ← updateInTurn q us
    .ok (s, (u, r) :: rs)

/-- The second input map has all the first has, and possibly more scripts, keys and origins. -/
structure InputAdds (i j : Input L) : Prop where
  redeem : ∀ x, i.redeemScript = some x → j.redeemScript = some x
  witness : ∀ x, i.witnessScript = some x → j.witnessScript = some x
  derivation : ∀ k v, i.bip32Derivation.get k = some v → j.bip32Derivation.get k = some v
  internalKey : ∀ x, i.tapInternalKey = some x → j.tapInternalKey = some x
  origins : ∀ k v, i.tapKeyOrigins.get k = some v → j.tapKeyOrigins.get k = some v
  scripts : ∀ k v, i.tapScripts.get k = some v → j.tapScripts.get k = some v
  root : ∀ x, i.tapMerkleRoot = some x → j.tapMerkleRoot = some x

/-- The same for output maps. -/
structure OutputAdds (i j : Output L) : Prop where
  redeem : ∀ x, i.redeemScript = some x → j.redeemScript = some x
  witness : ∀ x, i.witnessScript = some x → j.witnessScript = some x
  derivation : ∀ k v, i.bip32Derivation.get k = some v → j.bip32Derivation.get k = some v
  internalKey : ∀ x, i.tapInternalKey = some x → j.tapInternalKey = some x
  origins : ∀ k v, i.tapKeyOrigins.get k = some v → j.tapKeyOrigins.get k = some v
  tree : ∀ x, i.tapTree = some x → j.tapTree = some x

/-- Nothing that was in the maps of the first PSBT is replaced in those of the second. -/
structure OnlyAdds (p q : Psbt L) : Prop where
  inputs : ∀ (n : Nat) i j, p.inputs[n]? = some i → q.inputs[n]? = some j → InputAdds i j
  outputs : ∀ (n : Nat) i j, p.outputs[n]? = some i → q.outputs[n]? = some j → OutputAdds i j

/-- Nobody has filled in this map yet. -/
def Blank (p : Psbt L) : Place → Prop
  | .input n => ∀ i, p.inputs[n]? = some i → i.redeemScript = none ∧ i.witnessScript = none ∧ i.bip32Derivation = .empty ∧
      i.tapInternalKey = none ∧ i.tapKeyOrigins = .empty ∧ i.tapScripts = .empty ∧ i.tapMerkleRoot = none
  | .output n => ∀ o, p.outputs[n]? = some o → o.redeemScript = none ∧ o.witnessScript = none ∧ o.bip32Derivation = .empty ∧
      o.tapInternalKey = none ∧ o.tapKeyOrigins = .empty ∧ o.tapTree = none

/-- Copies of a PSBT, each filled in by somebody else, are combined into another PSBT one after the other. -/
def combineUpdated (p : Psbt L) : Psbt L → List (List (Update U)) → Option (Psbt L)
  | q, [] => some q
  | q, us :: rest =>
    match updateInTurn p us with
    | .error _ => none
    | .ok (a, _) =>
      match q.combine a with
      | (c, .ok ()) => combineUpdated p c rest
      | (_, .error _) => none

end Psbt.Spec.V0
