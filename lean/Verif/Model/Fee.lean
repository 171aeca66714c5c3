/- Fees, weights and other pieces shared by the two PSBT versions. -/
import Verif.Model.Wire
import Verif.Model.Maps
namespace Psbt

/-- `Sequence::MAX`. -/
def SEQUENCE_MAX : UInt32 := 0xFFFFFFFF

/-- `FundingUtxoError`, src/error.rs:69-79. -/
inductive FundingErr where
  | outOfBounds (vout len : Nat)
  | missing
  deriving DecidableEq

/-- `FeeError`, src/error.rs:26-35. -/
inductive FeeErr where
  | fundingUtxo (e : FundingErr)
  | inputOverflow
  | outputOverflow
  | negative
  deriving DecidableEq

/-- `u64::checked_add`. -/
def checkedAdd (a b : UInt64) : Option UInt64 := if a.toNat + b.toNat < 2 ^ 64 then some (a + b) else none
/-- `u64::checked_sub`. -/
def checkedSub (a b : UInt64) : Option UInt64 := if b ≤ a then some (a - b) else none

/-- The input loop of `Psbt::fee`, src/v2/mod.rs:955-958. -/
def sumInputs (acc : UInt64) : List (Except FundingErr TxOut) → Except FeeErr UInt64
  | [] => .ok acc
  | u :: us =>
    match u with
    | .error e => .error (.fundingUtxo e)
    | .ok u =>
      match checkedAdd acc u.value with
      | none => .error .inputOverflow
      | some acc => sumInputs acc us

/-- The output loop of `Psbt::fee`, src/v2/mod.rs:960-964. -/
def sumOutputs (acc : UInt64) : List UInt64 → Except FeeErr UInt64
  | [] => .ok acc
  | a :: as =>
    match checkedAdd acc a with
    | none => .error .outputOverflow
    | some acc => sumOutputs acc as

/-- Collecting an iterator of possibly panicking items, in order. -/
def collect {ε α : Type} : List (Out ε α) → Out ε (List α)
  | [] => .ok []
  | x :: xs => do
    let a ← x
    let as ← collect xs
    .ok (a :: as)

/-- A value that cannot be an error, inside a function that can. -/
def noErr {ε α : Type} : Out Empty α → Out ε α
  | .ok a => .ok a
  | .error (.err e) => e.elim
  | .error (.panic s) => .error (.panic s)

/-- `Transaction::weight` of rust-bitcoin: three times the size without witnesses plus the size with them. -/
def Tx.weight (t : Tx) : Nat := 3 * (encTxLegacy t).length + (encTx t).length

/-- `FeeRate::from_sat_per_kwu(fee.to_sat().saturating_mul(1000) / tx.weight().to_wu())`, src/v2/extract.rs:95-96. -/
def feeRate (fee : UInt64) (weight : Nat) : Nat := min (fee.toNat * 1000) (2 ^ 64 - 1) / weight

end Psbt
