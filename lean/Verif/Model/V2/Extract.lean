/- Fees and the extractor: src/v2/mod.rs:951-967, src/v2/extract.rs, src/v2/map/input.rs:318-331. -/
import Verif.Model.V2.Roles
import Verif.Model.Fee
namespace Psbt.V2
open Psbt

variable {L : Lib}

/-- `Input::signed_tx_in`, src/v2/map/input.rs:318-331. The two `expect`s and the debug assertion panic on an input
that is not finalized. -/
def Input.signedTxIn (i : Input L) : Out Empty TxIn :=
  match i.finalScriptSig, i.finalScriptWitness with
  | some s, some w => .ok ⟨i.outPoint, s, i.sequence.getD SEQUENCE_MAX, w⟩
  | _, _ => .error (.panic "checked by is_finalized")

/-- `Psbt::iter_funding_utxos`, src/v2/mod.rs:664-666. -/
def Psbt.fundingUtxos (p : Psbt L) : List (Except FundingErr TxOut) := p.inputs.map Input.fundingUtxo

/-- `Psbt::fee`, src/v2/mod.rs:951-967. -/
def Psbt.fee (p : Psbt L) : Except FeeErr UInt64 := do
  let i ← sumInputs 0 p.fundingUtxos
  let o ← sumOutputs 0 (p.outputs.map Output.amount)
  match checkedSub i o with
  | some f => .ok f
  | none => .error .negative

/-- `ExtractError`, src/v2/extract.rs:128-135. -/
inductive ExtractErr where
  | notFinalized
  | lockTime (e : LockTimeErr)
  deriving DecidableEq

/-- `Extractor::new`, src/v2/extract.rs:32-39. -/
def Extractor.new (p : Psbt L) : Out ExtractErr (Psbt L) :=
  if p.inputs.any (fun i => !i.isFinalized) then .error (.err .notFinalized)
  else
    match p.determineLockTime with
    | .ok _ => .ok p
    | .error (.err e) => .error (.err (.lockTime e))
    | .error (.panic s) => .error (.panic s)

/-- `Extractor::id`, src/v2/extract.rs:42-44. -/
def Extractor.id (p : Psbt L) : Out Empty Hash32 := expect "Extractor guarantees lock time can be determined" p.id

/-- `ExtractTxError`, src/v2/extract.rs:217-224. -/
inductive ExtractTxErr where
  | unfinalized
  | lockTime (e : LockTimeErr)
  deriving DecidableEq

/-- `Extractor::internal_extract_tx`, src/v2/extract.rs:110-125, also `extract_tx_unchecked_fee_rate`, 80-82. -/
def Extractor.extractUnchecked (p : Psbt L) : Out ExtractTxErr Tx :=
  if !p.isFinalized then .error (.err .unfinalized)
  else
    match p.determineLockTime with
    | .error (.err e) => .error (.err (.lockTime e))
    | .error (.panic s) => .error (.panic s)
    | .ok n => do
      let ins ← noErr (collect (p.inputs.map Input.signedTxIn))
      .ok ⟨p.global.txVersion, n, ins, p.outputs.map Output.txOut⟩

/-- `ExtractTxFeeRateError`, src/v2/extract.rs:168-180. -/
inductive ExtractRateErr where
  | fee (e : FeeErr)
  | extractTx (e : ExtractTxErr)
  | feeTooHigh (fee max : Nat)
  deriving DecidableEq

/-- `Extractor::internal_extract_tx_with_fee_rate_limit`, src/v2/extract.rs:87-103; `max` in sat/kwu. A zero weight would
make the division panic. -/
def Extractor.extractWithLimit (p : Psbt L) (max : UInt64) : Out ExtractRateErr Tx :=
  match p.fee with
  | .error e => .error (.err (.fee e))
  | .ok fee =>
    match Extractor.extractUnchecked p with
    | .error (.err e) => .error (.err (.extractTx e))
    | .error (.panic s) => .error (.panic s)
    | .ok tx =>
      if tx.weight = 0 then .error (.panic "attempt to divide by zero")
      else if feeRate fee tx.weight > max.toNat then .error (.err (.feeTooHigh (feeRate fee tx.weight) max.toNat))
      else .ok tx

/-- `Extractor::DEFAULT_MAX_FEE_RATE`, src/v2/extract.rs:52: `from_sat_per_vb_unchecked` multiplies by 1000 / 4. -/
def DEFAULT_MAX_FEE_RATE : UInt64 := 25000 * 1000 / 4

/-- `Extractor::extract_tx` and `extract_tx_fee_rate_limit`, src/v2/extract.rs:55-68. -/
def Extractor.extractTx (p : Psbt L) : Out ExtractRateErr Tx := Extractor.extractWithLimit p DEFAULT_MAX_FEE_RATE

end Psbt.V2
