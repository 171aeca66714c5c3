/- C104: what the signature of one input may depend on. -/
import Verif.Spec.V0Sign
namespace Psbt.Spec.V0
variable {L : Lib}

/-- The UTXO fields of all inputs are the same. -/
def SameUtxos (p q : Psbt.V0.Psbt L) : Prop :=
  p.inputs.map (fun i => (i.witnessUtxo, i.nonWitnessUtxo)) = q.inputs.map fun i => (i.witnessUtxo, i.nonWitnessUtxo)
end Psbt.Spec.V0
