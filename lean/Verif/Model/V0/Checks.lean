/- The checks before signing a PSBT v0: src/v0/mod.rs:42-136. -/
import Verif.Model.V0.Sign
namespace Psbt.V0
open Psbt

variable {L : Lib}

/-- `SignerChecksError`, src/v0/mod.rs:124-139. -/
inductive ChecksErr where
  | nonWitnessSig
  | nonWitnessUtxoTxidMismatch
  | witnessAndNonWitnessUtxo
  | redeemScriptMismatch
  | missingTxOut
  | witnessScriptMismatchWsh
  | witnessScriptMismatchShWsh
  deriving DecidableEq

/-- `ScriptBuf::new_p2sh` of a `Script::script_hash` (rust-bitcoin): HASH160 <hash160 of the script> EQUAL. -/
def newP2sh (L : Lib) (r : Bytes) : Bytes := [0xa9, 0x14] ++ (L.hash160 r).1 ++ [0x87]
/-- `ScriptBuf::new_p2wsh` of a `Script::wscript_hash` (rust-bitcoin): version 0 and the SHA-256 of the script. -/
def newP2wsh (L : Lib) (w : Bytes) : Bytes := [0x00, 0x20] ++ (L.sha256 w).1

/-- The first check, src/v0/mod.rs:60-66; errors of `output_type` are ignored. -/
def Psbt.checkSpend (p : Psbt L) (n : Nat) (i : Input L) : Out ChecksErr Unit :=
  if i.witnessUtxo.isSome then
    match p.outputType n with
    | .ok .bare => .error (.err .nonWitnessSig)
    | .error (.panic s) => .error (.panic s)
    | _ => .ok ()
  else .ok ()

/-- The second check, src/v0/mod.rs:68-72; the indexing can panic. -/
def Psbt.checkTxid (p : Psbt L) (n : Nat) (i : Input L) : Out ChecksErr Unit :=
  match i.nonWitnessUtxo with
  | some tx =>
    match p.unsignedTx.input[n]? with
    | none => .error (.panic "index out of bounds")
    | some t => if V2.txid L tx ≠ t.previousOutput.txid then .error (.err .nonWitnessUtxoTxidMismatch) else .ok ()
  | none => .ok ()

/-- The third check, src/v0/mod.rs:74-84. -/
def checkRedeem (i : Input L) : Out ChecksErr Unit :=
  match i.redeemScript with
  | some r =>
    match i.witnessUtxo with
    | some u => if u.scriptPubkey ≠ newP2sh L r then .error (.err .redeemScriptMismatch) else .ok ()
    | none => .error (.err .missingTxOut)
  | none => .ok ()

/-- The fourth check, src/v0/mod.rs:86-110. -/
def checkWitnessScript (i : Input L) : Out ChecksErr Unit :=
  match i.witnessScript with
  | some w =>
    match i.witnessUtxo with
    | some u =>
      if isP2wsh u.scriptPubkey then
        if newP2wsh L w ≠ u.scriptPubkey then .error (.err .witnessScriptMismatchWsh) else .ok ()
      else if isP2sh u.scriptPubkey then
        match i.redeemScript with
        | some r => if newP2wsh L r ≠ u.scriptPubkey then .error (.err .witnessScriptMismatchShWsh) else .ok ()
        | none => .ok ()
      else .ok ()
    | none => .error (.err .missingTxOut)
  | none => .ok ()

/-- The body of the loop in `Psbt::signer_checks`, src/v0/mod.rs:59-116. The last check, 112-115, does nothing. -/
def Psbt.checkInput (p : Psbt L) (n : Nat) (i : Input L) : Out ChecksErr Unit := do
  p.checkSpend n i
  p.checkTxid n i
  checkRedeem i
  checkWitnessScript i

/-- The loop in `Psbt::signer_checks`, from input `n` on. -/
def Psbt.checkFrom (p : Psbt L) : Nat → List (Input L) → Out ChecksErr Unit
  | _, [] => .ok ()
  | n, i :: is => do
    p.checkInput n i
    p.checkFrom (n + 1) is

/-- `Psbt::signer_checks`, src/v0/mod.rs:57-118. -/
def Psbt.signerChecks (p : Psbt L) : Out ChecksErr Unit := p.checkFrom 0 p.inputs

end Psbt.V0
