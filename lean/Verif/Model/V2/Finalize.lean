/- The finalizer of PSBT v2: src/v2/map/input.rs:205-284, src/v2/miniscript/{finalize,mod,satisfy}.rs. -/
import Verif.Model.Miniscript
import Verif.Model.V2.Sign
namespace Psbt.V2
open Psbt

variable {L : Lib}

/-- `input::FinalizeError`, src/v2/map/input.rs. -/
inductive InputFinalizeErr where
  | emptyWitness
  deriving DecidableEq

/-- `Input::finalize`, src/v2/map/input.rs:213-271. The debug assertion (the input has a funding output) holds at its
only call, in `Finalizer::finalize_input`; it is not modelled. -/
def Input.finalize (i : Input L) (scriptSig : Bytes) (witness : List Bytes) : Except InputFinalizeErr (Input L) :=
  let ret : Input L :=
    { previousTxid := i.previousTxid
      spentOutputIndex := i.spentOutputIndex
      nonWitnessUtxo := i.nonWitnessUtxo
      witnessUtxo := i.witnessUtxo
      finalScriptSig := none
      finalScriptWitness := none
      sequence := none
      minTime := none
      minHeight := none
      partialSigs := .empty
      sighashType := none
      redeemScript := none
      witnessScript := none
      bip32Derivations := .empty
      ripemd160Preimages := .empty
      sha256Preimages := .empty
      hash160Preimages := .empty
      hash256Preimages := .empty
      tapKeySig := none
      tapScriptSigs := .empty
      tapScripts := .empty
      tapKeyOrigins := .empty
      tapInternalKey := none
      tapMerkleRoot := none
      spEcdhShares := .empty
      spDleqProofs := .empty
      proprietaries := .empty
      unknowns := .empty }
  if i.witnessUtxo.isSome then
    if witness.isEmpty then .error .emptyWitness
    else .ok { ret with finalScriptSig := some scriptSig, finalScriptWitness := some witness }
  else .ok { ret with finalScriptSig := some scriptSig }

/-- `Input::lock_time`, src/v2/map/input.rs:275-284, as its consensus `u32`. -/
def Input.lockTime (i : Input L) : UInt32 :=
  match i.minHeight, i.minTime with
  | some h, some _ => h.1
  | some h, none => h.1
  | none, some t => t.1
  | none, none => 0

variable (M : MsLib L)

/-- `check_after`, src/v2/miniscript/satisfy.rs:71-85. -/
def Input.checkAfter (i : Input L) : AbsLock → Bool
  | .blocks h =>
    match i.minHeight with
    | some m => decide (h.1 ≤ m.1)
    | none => false
  | .seconds t =>
    match i.minTime with
    | some m => decide (t.1 ≤ m.1)
    | none => false

/-- `check_older`, src/v2/miniscript/satisfy.rs:88-96. -/
def Input.checkOlder (i : Input L) (n : RelLock) : Bool :=
  match i.sequence with
  | some seq =>
    match relOfSequence seq with
    | none => false
    | some lock => n.isImpliedBy lock
  | none => false

/-- `impl Satisfier for InputSatisfier`, src/v2/miniscript/satisfy.rs:21-117. -/
def Input.satisfier (i : Input L) : Satisfier L where
  tapKeySpendSig := i.tapKeySig
  tapLeafScriptSig pk lh := i.tapScriptSigs.get (pk, lh)
  rawPkhPk pkh :=
    (i.bip32Derivations.l.find? fun kv => L.hash160 (M.ofSecp kv.1).bytes == pkh).map fun kv => M.ofSecp kv.1
  tapControlBlocks := i.tapScripts
  rawPkhTapLeafScriptSig pkh lh :=
    (i.tapScriptSigs.l.find? fun kv => L.hash160 kv.1.1.bytes == pkh && kv.1.2 == lh).map fun kv => (kv.1.1, kv.2)
  ecdsaSig pk := i.partialSigs.get pk
  rawPkhEcdsaSig pkh := (i.partialSigs.l.find? fun kv => L.hash160 kv.1.bytes == pkh).map fun kv => (kv.1, kv.2)
  after := i.checkAfter
  older := i.checkOlder
  hash160 h := (i.hash160Preimages.get h).bind preimage32?
  sha256 h := (i.sha256Preimages.get h).bind preimage32?
  hash256 h := (i.hash256Preimages.get h).bind preimage32?
  ripemd160 h := (i.ripemd160Preimages.get h).bind preimage32?

/-- `Error` of `Finalizer::new`, src/v2/miniscript/finalize.rs:376-384. -/
inductive FinalizerErr (L : Lib) where
  | fundingUtxo (e : FundingErr)
  | lockTime (e : LockTimeErr)
  | partialSigs (e : PartialSigsErr L)
  deriving DecidableEq

/-- The loop of `Finalizer::new`, src/v2/miniscript/finalize.rs:37-39. -/
def checkFunded : List (Input L) → Except FundingErr Unit
  | [] => .ok ()
  | i :: is =>
    match i.fundingUtxo with
    | .ok _ => checkFunded is
    | .error e => .error e

/-- `Finalizer::new`, src/v2/miniscript/finalize.rs:35-44. -/
def Finalizer.new (p : Psbt L) : Out (FinalizerErr L) (Psbt L) :=
  match checkFunded p.inputs with
  | .error e => .error (.err (.fundingUtxo e))
  | .ok () =>
    match p.determineLockTime with
    | .error (.err e) => .error (.err (.lockTime e))
    | .error (.panic s) => .error (.panic s)
    | .ok _ =>
      match p.checkPartialSigsSighashType with
      | .error e => .error (.err (.partialSigs e))
      | .ok () => .ok p

/-- `Finalizer::id`, src/v2/miniscript/finalize.rs:47-49. -/
def Finalizer.id (p : Psbt L) : Out Empty Hash32 := expect "Finalizer guarantees lock time can be determined" p.id

/-- `Finalizer::get_descriptor`, src/v2/miniscript/finalize.rs:140-295. -/
def Finalizer.getDescriptor (p : Psbt L) (i : Input L) : Out (MsInputErr L) (Desc L M.Ms) :=
  let map := hashMap M (p.inputs.flatMap fun j => j.bip32Derivations.l.map Prod.fst)
  match i.fundingUtxo with
  | .error _ => .error (.panic "guaranteed by Finalizer")
  | .ok u => orFail (fun e => e) (descriptorOf M map i.partialSigs.l u.scriptPubkey i.redeemScript i.witnessScript)

/-- `Finalizer::final_script_sig_and_witness`, src/v2/miniscript/finalize.rs:101-132, called with `allow_mall = true`. The
two `println!` calls are not modelled. -/
def Finalizer.finalScripts (p : Psbt L) (i : Input L) : Out (MsInputErr L) (Bytes × List Bytes) :=
  match i.fundingUtxo with
  | .error _ => .error (.panic "guaranteed by Finalizer invariant")
  | .ok u =>
    if isP2tr u.scriptPubkey then do
      let wit ← constructTapWitness M true (i.tapKeyOrigins.l.map Prod.fst) u.scriptPubkey (i.satisfier M)
      .ok ([], wit)
    else do
      let desc ← getDescriptor M p i
      match M.satisfy true desc (i.satisfier M) with
      | some (wit, scriptSig) => .ok (scriptSig, wit)
      | none => .error (.err .miniscript)

/-- `FinalizeInputError`, src/v2/miniscript/finalize.rs:469-474. -/
inductive FinalizeInputErr (L : Lib) where
  | final (e : MsInputErr L)
  | input (e : InputFinalizeErr)
  deriving DecidableEq

/-- `Finalizer::finalize_input`, src/v2/miniscript/finalize.rs:75-80. -/
def Finalizer.finalizeInput (p : Psbt L) (i : Input L) : Out (FinalizeInputErr L) (Input L) :=
  match finalScripts M p i with
  | .error (.err e) => .error (.err (.final e))
  | .error (.panic s) => .error (.panic s)
  | .ok (scriptSig, witness) => orFail .input (i.finalize scriptSig witness)

/-- `InterpreterCheckError` and `InterpreterCheckInputError`, src/v2/miniscript/mod.rs:147-202. -/
inductive InterpCheckErr where
  | lockTime (e : LockTimeErr)
  | input (index : Nat) (e : InterpErr)
  deriving DecidableEq

/-- `FinalizeError`, src/v2/miniscript/finalize.rs:427-437. -/
inductive FinalizeErr (L : Lib) where
  | finalizeInput (index : Nat) (e : FinalizeInputErr L)
  | interpreterCheck (e : InterpCheckErr)
  deriving DecidableEq

/-- `Psbt::interpreter_check_input`, src/v2/miniscript/mod.rs:77-106. -/
def interpCheckInput (tx : Tx) (n : Nat) (i : Input L) (utxos : List TxOut) (witness : List Bytes) (scriptSig : Bytes) :
    Out InterpCheckErr Unit :=
  match i.fundingUtxo with
  | .error _ => .error (.panic "have funding utxo")
  | .ok u =>
    match M.interp ⟨u.scriptPubkey, scriptSig, witness, i.sequence.getD SEQUENCE_MAX, i.lockTime, tx, n, utxos⟩ with
    | some e => .error (.err (.input n e))
    | none => .ok ()

/-- The loop of `interpreter_check`, src/v2/miniscript/mod.rs:61-71. -/
def interpCheckFrom (tx : Tx) (utxos : List TxOut) (n : Nat) : List (Input L) → Out InterpCheckErr Unit
  | [] => .ok ()
  | i :: is =>
    match i.finalScriptWitness with
    | none => .error (.panic "checked in is_finalized")
    | some w =>
      match i.finalScriptSig with
      | none => .error (.panic "checked in is_finalized")
      | some s => do
        interpCheckInput M tx n i utxos w s
        interpCheckFrom tx utxos (n + 1) is

/-- One funding output with its `expect`, src/v2/miniscript/mod.rs:57-58. -/
def Input.fundingExpect (i : Input L) : Out Empty TxOut :=
  match i.fundingUtxo with
  | .ok u => .ok u
  | .error _ => .error (.panic "finalized PSBT has funding utxos")

/-- `Psbt::interpreter_check`, src/v2/miniscript/mod.rs:48-73. `debug`: is this a build with debug assertions? -/
def Psbt.interpreterCheck (debug : Bool) (p : Psbt L) : Out InterpCheckErr Unit :=
  if debug && !p.isFinalized then .error (.panic "assertion failed: self.is_finalized()")
  else
    match p.unsignedTx with
    | .error (.err e) => .error (.err (.lockTime e))
    | .error (.panic s) => .error (.panic s)
    | .ok tx => do
      let utxos ← noErr (collect (p.inputs.map Input.fundingExpect))
      interpCheckFrom M tx utxos 0 p.inputs

/-- The loop of `Finalizer::finalize`, src/v2/miniscript/finalize.rs:58-65. -/
def Finalizer.finalizeInputs (p : Psbt L) (n : Nat) : List (Input L) → Out (FinalizeErr L) (List (Input L))
  | [] => .ok []
  | i :: is =>
    match finalizeInput M p i with
    | .error (.err e) => .error (.err (.finalizeInput n e))
    | .error (.panic s) => .error (.panic s)
    | .ok j => do
      let js ← finalizeInputs p (n + 1) is
      .ok (j :: js)

/-- `Finalizer::finalize`, src/v2/miniscript/finalize.rs:57-72. -/
def Finalizer.finalize (debug : Bool) (p : Psbt L) : Out (FinalizeErr L) (Psbt L) := do
  let inputs ← finalizeInputs M p 0 p.inputs
  let finalized : Psbt L := ⟨p.global, inputs, p.outputs⟩
  match finalized.interpreterCheck M debug with
  | .error (.err e) => .error (.err (.interpreterCheck e))
  | .error (.panic s) => .error (.panic s)
  | .ok () => .ok finalized

end Psbt.V2
