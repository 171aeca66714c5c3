/- When the same PSBT asks for the same lock times in the two versions of the format. -/
import Verif.Spec.BothVersions
namespace Psbt.Spec

variable {L : Lib}

/-- The v2 input requires no lock time, and lock times are disabled by the sequence number; or it requires one, which is that of the
transaction, and the sequence number enables lock times. `n` is the lock time and `t` the input of the unsigned transaction of v0. -/
inductive SameLock (n : UInt32) (t : TxIn) (j : V2.Input L) : Prop
  | none : j.minHeight = .none → j.minTime = .none → t.sequence = 0xFFFFFFFF → SameLock n t j
  | height {h} : j.minHeight = some h → j.minTime = .none → h.1 = n → t.sequence ≠ 0xFFFFFFFF → SameLock n t j
  | time {h} : j.minHeight = .none → j.minTime = some h → h.1 = n → t.sequence ≠ 0xFFFFFFFF → SameLock n t j

/-- The inputs have the same final scripts and say the same about the outputs spent. A script sig that is absent is empty. -/
structure SameFinal (i : V0.Input L) (j : V2.Input L) : Prop where
  scriptSig : i.finalScriptSig.getD [] = j.finalScriptSig.getD []
  witness : i.finalScriptWitness = j.finalScriptWitness
  nonWitnessUtxo : i.nonWitnessUtxo = j.nonWitnessUtxo
  witnessUtxo : i.witnessUtxo = j.witnessUtxo

end Psbt.Spec
