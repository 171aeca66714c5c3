/- Fees and extraction for PSBT v0: src/v0/bitcoin/mod.rs:77-89, 126-219, 715-725. -/
import Verif.Model.V0.Psbt
import Verif.Model.Fee
import Verif.Model.V2.Extract
namespace Psbt.V0
open Psbt

variable {L : Lib}

/-- One item of `iter_funding_utxos`, src/v0/bitcoin/mod.rs:79-88. -/
def fundingUtxo (t : TxIn) (i : Input L) : Except Err TxOut :=
  match i.witnessUtxo, i.nonWitnessUtxo with
  | some u, _ => .ok u
  | none, some tx =>
    match tx.output[t.previousOutput.vout.toNat]? with
    | some u => .ok u
    | none => .error .psbtUtxoOutOfbounds
  | none, none => .error .missingUtxo

/-- The zip of `iter_funding_utxos`. -/
def fundingZip : List TxIn → List (Input L) → List (Except Err TxOut)
  | t :: ts, i :: is => fundingUtxo t i :: fundingZip ts is
  | _, _ => []

/-- `Psbt::iter_funding_utxos`, src/v0/bitcoin/mod.rs:77-89, with its assertion. The items are computed lazily, which makes
no difference: computing an item has no effect. -/
def Psbt.fundingUtxos (p : Psbt L) : Out Empty (List (Except Err TxOut)) :=
  if p.inputs.length ≠ p.unsignedTx.input.length then .error (.panic "assertion `left == right` failed")
  else .ok (fundingZip p.unsignedTx.input p.inputs)

/-- The input loop of `Psbt::fee`, src/v0/bitcoin/mod.rs:717-719. -/
def sumInputs (acc : UInt64) : List (Except Err TxOut) → Except Err UInt64
  | [] => .ok acc
  | u :: us =>
    match u with
    | .error e => .error e
    | .ok u =>
      match checkedAdd acc u.value with
      | none => .error .feeOverflow
      | some acc => sumInputs acc us

/-- The output loop of `Psbt::fee`, src/v0/bitcoin/mod.rs:721-723. -/
def sumOutputs (acc : UInt64) : List TxOut → Except Err UInt64
  | [] => .ok acc
  | o :: os =>
    match checkedAdd acc o.value with
    | none => .error .feeOverflow
    | some acc => sumOutputs acc os

/-- `Psbt::fee`, src/v0/bitcoin/mod.rs:715-725. -/
def Psbt.fee (p : Psbt L) : Out Err UInt64 := do
  let us ← noErr p.fundingUtxos
  let i ← V2.orFail id (sumInputs 0 us)
  let o ← V2.orFail id (sumOutputs 0 p.unsignedTx.output)
  match checkedSub i o with
  | some f => .ok f
  | none => .error (.err .negativeFee)

/-- The loop of `internal_extract_tx`, src/v0/bitcoin/mod.rs:180-183. -/
def fillInputs : List TxIn → List (Input L) → List TxIn
  | t :: ts, i :: is =>
    { t with scriptSig := i.finalScriptSig.getD [], witness := i.finalScriptWitness.getD [] } :: fillInputs ts is
  | ts, _ => ts

/-- `Psbt::internal_extract_tx`, src/v0/bitcoin/mod.rs:177-186, and `extract_tx_unchecked_fee_rate`, 174. -/
def Psbt.extractUnchecked (p : Psbt L) : Tx := { p.unsignedTx with input := fillInputs p.unsignedTx.input p.inputs }

/-- `ExtractTxError`, src/v0/bitcoin/mod.rs:1046-1064. Fee rates in sat/kwu. -/
inductive ExtractErr (L : Lib) where
  | absurdFeeRate (rate : Nat) (tx : Tx)
  | missingInputValue (tx : Tx)
  | sendingTooMuch (psbt : Psbt L)
  deriving DecidableEq

/-- `FeeRate::MAX`, in sat/kwu. -/
def FEE_RATE_MAX : Nat := 2 ^ 64 - 1

/-- `Psbt::internal_extract_tx_with_fee_rate_limit`, src/v0/bitcoin/mod.rs:190-219, and `extract_tx_with_fee_rate_limit`,
162-167; `max` in sat/kwu. A zero weight would make the division panic. -/
def Psbt.extractWithLimit (p : Psbt L) (max : UInt64) : Out (ExtractErr L) Tx :=
  match p.fee with
  | .error (.panic s) => .error (.panic s)
  | .error (.err .missingUtxo) => .error (.err (.missingInputValue p.extractUnchecked))
  | .error (.err .negativeFee) => .error (.err (.sendingTooMuch p))
  | .error (.err .feeOverflow) => .error (.err (.absurdFeeRate FEE_RATE_MAX p.extractUnchecked))
  | .error (.err _) => .error (.panic "internal error: entered unreachable code")
  | .ok fee =>
    let tx := p.extractUnchecked
    if tx.weight = 0 then .error (.panic "attempt to divide by zero")
    else if feeRate fee tx.weight > max.toNat then .error (.err (.absurdFeeRate (feeRate fee tx.weight) tx))
    else .ok tx

/-- `Psbt::DEFAULT_MAX_FEE_RATE`, src/v0/bitcoin/mod.rs:132. -/
def DEFAULT_MAX_FEE_RATE : UInt64 := 25000 * 1000 / 4

/-- `Psbt::extract_tx` and `extract_tx_fee_rate_limit`, src/v0/bitcoin/mod.rs:138-153. -/
def Psbt.extractTx (p : Psbt L) : Out (ExtractErr L) Tx := p.extractWithLimit DEFAULT_MAX_FEE_RATE

end Psbt.V0
