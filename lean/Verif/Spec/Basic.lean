/- The checks of a transaction that every node makes before it looks at the chain. -/
import Verif.Model.Wire
import Verif.Spec.Fee
namespace Psbt.Spec

/-- 21 million bitcoin, in satoshi. -/
def maxMoney : Nat := 21000000 * 100000000

/-- The outpoint that only coinbase transactions have. -/
def nullOutPoint (o : OutPoint) : Prop := o.txid.1 = List.replicate 32 0 ∧ o.vout = 0xFFFFFFFF

/-- A transaction with these outpoints and outputs passes `CheckTransaction` of Bitcoin Core (except for the limit on its size): it has
inputs and outputs, pays no more than there can be, spends no output twice and is not a coinbase transaction. -/
structure Acceptable (spent : List OutPoint) (paid : List TxOut) : Prop where
  inputs : spent ≠ []
  outputs : paid ≠ []
  money : total (paid.map TxOut.value) ≤ maxMoney
  distinct : spent.Nodup
  notNull : ∀ o ∈ spent, ¬ nullOutPoint o

end Psbt.Spec
