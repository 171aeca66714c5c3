/- C128: parties that finalize inputs in their copies of a PSBT v0 and combine the copies. -/
import Verif.Spec.V0Finalize
import Verif.Model.V0.Combine
import Verif.Model.V0.Extract
namespace Psbt.Spec.V0
open Psbt.V0 Psbt.Spec

variable {L : Lib}

/-- The input has a final script sig or a final witness. -/
def IsFinal (i : Input L) : Prop := i.finalScriptSig ≠ none ∨ i.finalScriptWitness ≠ none
/-- Both have the same final script sig and the same final witness. -/
def SameFinal (i j : Input L) : Prop := i.finalScriptSig = j.finalScriptSig ∧ i.finalScriptWitness = j.finalScriptWitness

/-- A PSBT for the same transaction that knows the same outputs spent. All the rest may differ: keys, scripts, signatures. -/
def CopyOf (p q : Psbt L) : Prop :=
  q.unsignedTx = p.unsignedTx ∧ q.inputs.length = p.inputs.length ∧
  ∀ (n : Nat) i j, p.inputs[n]? = some i → q.inputs[n]? = some j → j.nonWitnessUtxo = i.nonWitnessUtxo ∧ j.witnessUtxo = i.witnessUtxo

/-- No input is final in both. -/
def Disjoint (a b : Psbt L) : Prop :=
  ∀ (n : Nat) i j, a.inputs[n]? = some i → b.inputs[n]? = some j → ¬ (IsFinal i ∧ IsFinal j)

/-- What becomes of copies of `p`, those that meet `C`, when any of their inputs are finalized, one at a time or as many as possible,
and copies in which different inputs are final are combined, in any order. -/
inductive Divided (M : MsLib L) (p : Psbt L) (C : Psbt L → Prop) : Psbt L → Prop
  | copy {q} : C q → CopyOf p q → (∀ j ∈ q.inputs, ¬ IsFinal j) → Divided M p C q
  | one {q n q'} : Divided M p C q → q.finalizeInp M n = .ok q' → Divided M p C q'
  | all {q mall q' es} : Divided M p C q → q.finalizeMut M mall = .ok (q', es) → Divided M p C q'
  | combined {a b r} : Divided M p C a → Divided M p C b → Disjoint a b → a.combine b = (r, .ok ()) → Divided M p C r

/-- No sighash type but ALL is declared or used. -/
def OnlyAll (p : Psbt L) : Prop :=
  ∀ i ∈ p.inputs, (i.sighashType = none ∨ i.sighashType = some 0x01) ∧ ∀ pk sig, i.partialSigs.get pk = some sig → sig.ty.1 = 0x01

end Psbt.Spec.V0
