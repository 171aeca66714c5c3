/- What fees and extracted transactions should be. -/
import Verif.Model.V2.Psbt
import Verif.Model.Fee
namespace Psbt.Spec
open Psbt.V2

variable {L : Lib}

/-- `u` is the output the input spends, as far as the PSBT knows: its witness UTXO, else the output of its non-witness
UTXO at the input's index. -/
inductive FundedBy (i : Input L) : TxOut → Prop
  | witness {u : TxOut} : i.witnessUtxo = some u → FundedBy i u
  | nonWitness {tx : Tx} {u : TxOut} : i.witnessUtxo = none → i.nonWitnessUtxo = some tx →
      tx.output[i.spentOutputIndex.toNat]? = some u → FundedBy i u

/-- Why the output an input spends is not known: there is no UTXO, or the transaction given has no such output. -/
def FundingFails (i : Input L) : FundingErr → Prop
  | .missing => i.witnessUtxo = none ∧ i.nonWitnessUtxo = none
  | .outOfBounds n len => i.witnessUtxo = none ∧ n = i.spentOutputIndex.toNat ∧ len ≤ n ∧
      ∃ tx, i.nonWitnessUtxo = some tx ∧ tx.output.length = len

/-- Sum of satoshi amounts, without any limit on its size. -/
def total (l : List UInt64) : Nat := (l.map UInt64.toNat).sum

/-- What the outputs of the PSBT add up to. -/
def totalOut (p : Psbt L) : Nat := total (p.outputs.map Output.amount)

/-- The inputs are funded by exactly these outputs, in order. -/
inductive Funding : List (Input L) → List TxOut → Prop
  | nil : Funding [] []
  | cons {i : Input L} {u : TxOut} {is : List (Input L)} {us : List TxOut} :
      FundedBy i u → Funding is us → Funding (i :: is) (u :: us)

end Psbt.Spec
