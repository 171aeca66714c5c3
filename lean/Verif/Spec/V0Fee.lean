/- Which outputs fund a PSBT v0, and the transaction extracted from it. -/
import Verif.Model.V0.Psbt
import Verif.Spec.Fee
namespace Psbt.Spec.V0
open Psbt.V0 Psbt.Spec

variable {L : Lib}

/-- `u` is the output that input `t` of the unsigned transaction spends, as far as its input map knows: the witness UTXO,
else the output of the non-witness UTXO at the index spent. -/
inductive FundedBy (t : TxIn) (i : Input L) : TxOut → Prop
  | witness {u : TxOut} : i.witnessUtxo = some u → FundedBy t i u
  | nonWitness {tx : Tx} {u : TxOut} : i.witnessUtxo = none → i.nonWitnessUtxo = some tx →
      tx.output[t.previousOutput.vout.toNat]? = some u → FundedBy t i u

/-- The transaction inputs with these input maps spend exactly these outputs, in order. -/
inductive Funding : List TxIn → List (Input L) → List TxOut → Prop
  | nil : Funding [] [] []
  | cons {t : TxIn} {i : Input L} {u : TxOut} {ts : List TxIn} {is : List (Input L)} {us : List TxOut} :
      FundedBy t i u → Funding ts is us → Funding (t :: ts) (i :: is) (u :: us)

/-- Non-witness UTXOs that are needed have the output that is spent. -/
def IndicesInRange (p : Psbt L) : Prop := ∀ (k : Nat) t i tx, p.unsignedTx.input[k]? = some t → p.inputs[k]? = some i →
  i.witnessUtxo = none → i.nonWitnessUtxo = some tx → t.previousOutput.vout.toNat < tx.output.length

/-- `s` is `t` with the final scripts of `i` filled in; what is missing is left empty. -/
def Filled (t : TxIn) (i : Input L) (s : TxIn) : Prop :=
  s.previousOutput = t.previousOutput ∧ s.sequence = t.sequence ∧
  (i.finalScriptSig = some s.scriptSig ∨ i.finalScriptSig = none ∧ s.scriptSig = []) ∧
  (i.finalScriptWitness = some s.witness ∨ i.finalScriptWitness = none ∧ s.witness = [])

end Psbt.Spec.V0
