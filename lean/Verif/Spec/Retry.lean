/- Calls that fail and are made again. -/
import Verif.Spec.V0Finalize
namespace Psbt.Spec

variable {L : Lib}

/-- Two origins of an extended key can be merged: one path is an ending of the other. -/
def Mergeable (s t : KeySource) : Prop := s.2 <:+ t.2 ∨ t.2 <:+ s.2

/-- `theirs'` still has every extended key of `theirs` that does not conflict with one of `ours`. -/
def Mended (ours theirs theirs' : BMap L.xpub.T KeySource) : Prop :=
  ∀ x t, theirs.get x = some t → (∀ s, ours.get x = some s → Mergeable s t) → theirs'.get x = some t

/-- The output is paid to a key hash, a script hash or a taproot key. -/
def Addressed (spk : Bytes) : Prop := P2pkh spk ∨ P2wpkh spk ∨ P2wsh spk ∨ P2sh spk ∨ P2tr spk

/-- What is missing when an input is finalized that holds only UTXOs and final scripts. -/
inductive Lacking (spk : Bytes) : MsInputErr L → Prop
  | pkh : P2pkh spk → Lacking spk .missingPubkey
  | wpkh : P2wpkh spk → Lacking spk .missingPubkey
  | wsh : P2wsh spk → Lacking spk .missingWitnessScript
  | sh : P2sh spk → Lacking spk .missingRedeemScript
  | tr : P2tr spk → Lacking spk .couldNotSatisfyTr

namespace V0
open Psbt.V0

/-- The same transaction, and the same UTXOs in the inputs. -/
def SameCoins (p q : Psbt L) : Prop :=
  q.unsignedTx = p.unsignedTx ∧
    q.inputs.map (fun i => (i.nonWitnessUtxo, i.witnessUtxo)) = p.inputs.map fun i => (i.nonWitnessUtxo, i.witnessUtxo)

/-- The input holds UTXOs and final scripts only. -/
def OnlyFinal (j : Input L) : Prop := ∃ i s w, j = onlyFinal i s w

/-- What the caller has after finalizing `p` gave `q` and the inputs that failed were replaced with those of `p'`. -/
def Repaired (p q p' q' : Psbt L) : Prop :=
  q'.unsignedTx = p.unsignedTx ∧ q'.inputs.length = p.inputs.length ∧
    ∀ n : Nat, (q.inputs[n]? = p.inputs[n]? → q'.inputs[n]? = p'.inputs[n]?) ∧
      (q.inputs[n]? ≠ p.inputs[n]? → p'.inputs[n]? = p.inputs[n]? ∧ q'.inputs[n]? = q.inputs[n]?)

end V0
end Psbt.Spec
