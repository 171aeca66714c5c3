/- Finalizing and extracting a PSBT v0 with miniscript: src/v0/miniscript/finalizer.rs, src/v0/miniscript/mod.rs:244-423,
591-905. -/
import Verif.Model.Miniscript
import Verif.Model.V0.Sign
namespace Psbt.V0
open Psbt

variable {L : Lib}

/-- `Error`, src/v0/miniscript/mod.rs:39-56. `missingWitness` is `InputError(InputError::MissingWitness, _)`. -/
inductive FinErr (L : Lib) where
  | input (e : MsInputErr L) (index : Nat)
  | missingWitness (index : Nat)
  | wrongInputCount (inTx inMap : Nat)
  | inputIdxOutOfBounds (psbtInp index : Nat)
  deriving DecidableEq

/-- `get_utxo`, src/v0/miniscript/finalizer.rs:113-124; three indexings can panic. -/
def Psbt.getUtxo (p : Psbt L) (n : Nat) : Out (MsInputErr L) TxOut :=
  match p.inputs[n]? with
  | none => .error (.panic "index out of bounds")
  | some i =>
    match i.witnessUtxo with
    | some u => .ok u
    | none =>
      match i.nonWitnessUtxo with
      | some tx =>
        match p.unsignedTx.input[n]? with
        | none => .error (.panic "index out of bounds")
        | some t =>
          match tx.output[t.previousOutput.vout.toNat]? with
          | none => .error (.panic "index out of bounds")
          | some u => .ok u
      | none => .error (.err .missingUtxo)

/-- `get_scriptpubkey`, src/v0/miniscript/finalizer.rs:108-110. -/
def Psbt.getScriptPubkey (p : Psbt L) (n : Nat) : Out (MsInputErr L) Bytes := do
  let u ← p.getUtxo n
  .ok u.scriptPubkey

/-- `.map_err(|e| Error::InputError(e, index))`. -/
def atIndex {α : Type} (n : Nat) : Out (MsInputErr L) α → Out (FinErr L) α
  | .ok a => .ok a
  | .error (.err e) => .error (.err (.input e n))
  | .error (.panic s) => .error (.panic s)

/-- The loop of `prevouts`, src/v0/miniscript/finalizer.rs:129-132. -/
def Psbt.prevoutsFrom (p : Psbt L) : List Nat → Out (FinErr L) (List TxOut)
  | [] => .ok []
  | n :: ns => do
    let u ← atIndex n (p.getUtxo n)
    let us ← p.prevoutsFrom ns
    .ok (u :: us)

/-- `prevouts`, src/v0/miniscript/finalizer.rs:127-134. -/
def Psbt.prevouts (p : Psbt L) : Out (FinErr L) (List TxOut) := p.prevoutsFrom (List.range p.inputs.length)

/-- `absolute::LockTime::from_consensus` of rust-bitcoin. -/
def absOfConsensus (n : UInt32) : AbsLock :=
  if h : n < LOCK_TIME_THRESHOLD then .blocks ⟨n, h⟩ else .seconds ⟨n, UInt32.not_lt.mp h⟩

/-- `check_after`, src/v0/miniscript/mod.rs:318-326, with `TxIn::enables_lock_time` of rust-bitcoin and the `Satisfier` of
`absolute::LockTime` of rust-miniscript. `t` is the input of the unsigned transaction. -/
def checkAfter (tx : Tx) (t : TxIn) (n : AbsLock) : Bool :=
  if t.sequence = SEQUENCE_MAX then false
  else
    match n, absOfConsensus tx.lockTime with
    | .blocks n, .blocks l => decide (n.1 ≤ l.1)
    | .seconds n, .seconds l => decide (n.1 ≤ l.1)
    | _, _ => false

/-- `check_older`, src/v0/miniscript/mod.rs:328-337, with `Sequence::is_relative_lock_time` of rust-bitcoin and the `Satisfier`
of `Sequence` of rust-miniscript. Versions are compared as signed numbers. -/
def checkOlder (tx : Tx) (t : TxIn) (n : RelLock) : Bool :=
  if tx.version.toInt32 < 2 || t.sequence &&& 0x80000000 ≠ 0 then false
  else
    match relOfSequence t.sequence with
    | none => false
    | some lock => n.isImpliedBy lock

variable (M : MsLib L)

/-- `impl Satisfier for PsbtInputSatisfier`, src/v0/miniscript/mod.rs:257-366. If the unsigned transaction has no input at
the index, the timelock methods panic in Rust and answer `false` here; `interpreter_inp_check` panics then anyway if a
satisfaction is found. -/
def Psbt.satisfier (p : Psbt L) (n : Nat) (i : Input L) : Satisfier L where
  tapKeySpendSig := i.tapKeySig
  tapLeafScriptSig pk lh := i.tapScriptSigs.get (pk, lh)
  rawPkhPk pkh :=
    (i.bip32Derivation.l.find? fun kv => L.hash160 (M.ofSecp kv.1).bytes == pkh).map fun kv => M.ofSecp kv.1
  tapControlBlocks := i.tapScripts
  rawPkhTapLeafScriptSig pkh lh :=
    (i.tapScriptSigs.l.find? fun kv => L.hash160 kv.1.1.bytes == pkh && kv.1.2 == lh).map fun kv => (kv.1.1, kv.2)
  ecdsaSig pk := i.partialSigs.get pk
  rawPkhEcdsaSig pkh := (i.partialSigs.l.find? fun kv => L.hash160 kv.1.bytes == pkh).map fun kv => (kv.1, kv.2)
  after l :=
    match p.unsignedTx.input[n]? with
    | some t => checkAfter p.unsignedTx t l
    | none => false
  older l :=
    match p.unsignedTx.input[n]? with
    | some t => checkOlder p.unsignedTx t l
    | none => false
  hash160 h := (i.hash160Preimages.get h).bind preimage32?
  sha256 h := (i.sha256Preimages.get h).bind preimage32?
  hash256 h := (i.hash256Preimages.get h).bind preimage32?
  ripemd160 h := (i.ripemd160Preimages.get h).bind preimage32?

/-- The signatures of one input, src/v0/miniscript/mod.rs:398-419. A signature here has a standard type, so
`from_standard` does not fail. -/
def sanitySigs (n : Nat) (target : EcdsaTy) : List (L.pubkey.T × EcdsaSig L) → Except (FinErr L) Unit
  | [] => .ok ()
  | (key, sig) :: r => if target ≠ sig.ty then .error (.input (.wrongSighashFlag target sig.ty key) n) else sanitySigs n target r

/-- The loop of `sanity_check`, src/v0/miniscript/mod.rs:390-420. -/
def sanityFrom (n : Nat) : List (Input L) → Except (FinErr L) Unit
  | [] => .ok ()
  | i :: is =>
    match i.ecdsaHashTy with
    | none => .error (.input .nonStandardSighashType n)
    | some target =>
      match sanitySigs n target i.partialSigs.l with
      | .error e => .error e
      | .ok () => sanityFrom (n + 1) is

/-- `sanity_check`, src/v0/miniscript/mod.rs:381-423. -/
def Psbt.sanityCheck (p : Psbt L) : Except (FinErr L) Unit :=
  if p.unsignedTx.input.length ≠ p.inputs.length then .error (.wrongInputCount p.unsignedTx.input.length p.inputs.length)
  else sanityFrom 0 p.inputs

/-- `get_descriptor`, src/v0/miniscript/finalizer.rs:144-297. -/
def Psbt.getDescriptor (p : Psbt L) (n : Nat) (i : Input L) : Out (MsInputErr L) (Desc L M.Ms) := do
  let map := hashMap M (p.inputs.flatMap fun j => j.bip32Derivation.l.map Prod.fst)
  let spk ← p.getScriptPubkey n
  V2.orFail (fun e => e) (descriptorOf M map i.partialSigs.l spk i.redeemScript i.witnessScript)

/-- `interpreter_inp_check`, src/v0/miniscript/finalizer.rs:326-351. -/
def Psbt.interpInpCheck (p : Psbt L) (n : Nat) (utxos : List TxOut) (witness : List Bytes) (scriptSig : Bytes) :
    Out (FinErr L) Unit := do
  let spk ← atIndex n (p.getScriptPubkey n)
  match p.unsignedTx.input[n]? with
  | none => .error (.panic "index out of bounds")
  | some t =>
    match M.interp ⟨spk, scriptSig, witness, t.sequence, p.unsignedTx.lockTime, p.unsignedTx, n, utxos⟩ with
    | some e => .error (.err (.input (.interpreter e) n))
    | none => .ok ()

/-- The loop of `interpreter_check`, src/v0/miniscript/finalizer.rs:310-321. -/
def Psbt.interpFrom (p : Psbt L) (utxos : List TxOut) (n : Nat) : List (Input L) → Out (FinErr L) Unit
  | [] => .ok ()
  | i :: is => do
    p.interpInpCheck M n utxos (i.finalScriptWitness.getD []) (i.finalScriptSig.getD [])
    p.interpFrom utxos (n + 1) is

/-- `interpreter_check`, src/v0/miniscript/finalizer.rs:304-323. -/
def Psbt.interpreterCheck (p : Psbt L) : Out (FinErr L) Unit := do
  let utxos ← p.prevouts
  p.interpFrom M utxos 0 p.inputs

/-- The witness and the script sig for an input before they are checked, src/v0/miniscript/finalizer.rs:401-423. -/
def Psbt.satisfyInput (p : Psbt L) (n : Nat) (mall : Bool) : Out (FinErr L) (List Bytes × Bytes) := do
  let spk ← atIndex n (p.getScriptPubkey n)
  match p.inputs[n]? with
  | none => .error (.panic "index out of bounds")
  | some i =>
    if isP2tr spk then do
      let wit ← atIndex n
        (constructTapWitness M mall (p.inputs.flatMap fun j => j.tapKeyOrigins.l.map Prod.fst) spk (p.satisfier M n i))
      .ok (wit, [])
    else do
      let desc ← atIndex n (p.getDescriptor M n i)
      match M.satisfy mall desc (p.satisfier M n i) with
      | some (wit, scriptSig) => .ok (wit, scriptSig)
      | none => .error (.err (.input .miniscript n))

/-- `finalize_input_helper`, src/v0/miniscript/finalizer.rs:395-431. -/
def Psbt.finalizeInputHelper (p : Psbt L) (n : Nat) (mall : Bool) : Out (FinErr L) (List Bytes × Bytes) := do
  let (witness, scriptSig) ← p.satisfyInput M n mall
  let utxos ← p.prevouts
  p.interpInpCheck M n utxos witness scriptSig
  .ok (witness, scriptSig)

/-- `finalize_input`, src/v0/miniscript/finalizer.rs:433-461. An error leaves the PSBT as it is. -/
def Psbt.finalizeInput (p : Psbt L) (n : Nat) (mall : Bool) : Out (FinErr L) (Psbt L) := do
  let (witness, scriptSig) ← p.finalizeInputHelper M n mall
  match p.inputs[n]? with
  | none => .error (.panic "index out of bounds")
  | some original =>
    let input : Input L := { Input.default L with
      nonWitnessUtxo := original.nonWitnessUtxo
      witnessUtxo := original.witnessUtxo
      finalScriptSig := if scriptSig.isEmpty then none else some scriptSig
      finalScriptWitness := if witness.isEmpty then none else some witness }
    .ok { p with inputs := p.inputs.set n input }

/-- The loop of `finalize_helper`, src/v0/miniscript/finalizer.rs:386-388. The PSBT is returned with an error too. -/
def Psbt.finalizeWhile (p : Psbt L) (mall : Bool) : List Nat → Out Empty (Psbt L × Except (FinErr L) Unit)
  | [] => .ok (p, .ok ())
  | n :: ns =>
    match p.finalizeInput M n mall with
    | .ok p => p.finalizeWhile mall ns
    | .error (.err e) => .ok (p, .error e)
    | .error (.panic s) => .error (.panic s)

/-- `finalize_helper`, src/v0/miniscript/finalizer.rs:378-391; `finalize` and `finalize_mall`, 363-376. -/
def Psbt.finalizeHelper (p : Psbt L) (mall : Bool) : Out Empty (Psbt L × Except (FinErr L) Unit) :=
  match p.sanityCheck with
  | .error e => .ok (p, .error e)
  | .ok () => p.finalizeWhile M mall (List.range p.inputs.length)

/-- The loop of `finalize_mut` and `finalize_mall_mut`, src/v0/miniscript/mod.rs:598-605, 628-635. -/
def Psbt.finalizeEach (p : Psbt L) (mall : Bool) : List Nat → Out Empty (Psbt L × List (FinErr L))
  | [] => .ok (p, [])
  | n :: ns =>
    match p.finalizeInput M n mall with
    | .ok p => p.finalizeEach mall ns
    | .error (.err e) => do
      let (q, es) ← p.finalizeEach mall ns
      .ok (q, e :: es)
    | .error (.panic s) => .error (.panic s)

/-- `finalize_mut` and `finalize` (`mall = false`), `finalize_mall_mut` and `finalize_mall` (`mall = true`),
src/v0/miniscript/mod.rs:592-651: the PSBT afterwards and the errors; they return `Ok` if there are none. -/
def Psbt.finalizeMut (p : Psbt L) (mall : Bool) : Out Empty (Psbt L × List (FinErr L)) :=
  p.finalizeEach M mall (List.range p.inputs.length)

/-- `finalize_inp_mut` and `finalize_inp`, src/v0/miniscript/mod.rs:653-673. -/
def Psbt.finalizeInp (p : Psbt L) (n : Nat) : Out (FinErr L) (Psbt L) :=
  if n ≥ p.inputs.length then .error (.err (.inputIdxOutOfBounds p.inputs.length n)) else p.finalizeInput M n false

/-- `finalize_inp_mall_mut` and `finalize_inp_mall`, src/v0/miniscript/mod.rs:675-695. It passes `false`. -/
def Psbt.finalizeInpMall (p : Psbt L) (n : Nat) : Out (FinErr L) (Psbt L) :=
  if n ≥ p.inputs.length then .error (.err (.inputIdxOutOfBounds p.inputs.length n)) else p.finalizeInput M n false

/-- The loop of `extract`, src/v0/miniscript/mod.rs:704-715. `ins` are the inputs of the transaction from `n` on; the
indexing can panic. -/
def extractFrom (n : Nat) : List TxIn → List (Input L) → Out (FinErr L) (List TxIn)
  | ins, [] => .ok ins
  | ins, i :: is =>
    if i.finalScriptSig.isNone && i.finalScriptWitness.isNone then .error (.err (.missingWitness n))
    else
      match ins with
      | [] => .error (.panic "index out of bounds")
      | t :: ts => do
        let ts ← extractFrom (n + 1) ts is
        .ok ({ t with
          witness := match i.finalScriptWitness with
            | some w => w
            | none => t.witness
          scriptSig := match i.finalScriptSig with
            | some s => s
            | none => t.scriptSig } :: ts)

/-- `extract`, src/v0/miniscript/mod.rs:697-718. -/
def Psbt.extract (p : Psbt L) : Out (FinErr L) Tx := do
  V2.orFail (fun e => e) p.sanityCheck
  let input ← extractFrom 0 p.unsignedTx.input p.inputs
  p.interpreterCheck M
  .ok { p.unsignedTx with input := input }

/-- `SighashError`, src/v0/miniscript/mod.rs:1309-1328. -/
inductive SighashErr where
  | indexOutOfBounds (index length : Nat)
  | missingInputUtxo
  | missingSpendUtxos
  | invalidSighashType
  | taproot (e : TaprootErr)
  | p2wpkh (e : P2wpkhErr)
  | inputsIndex
  | missingWitnessScript
  | missingRedeemScript
  deriving DecidableEq

/-- `PsbtSighashMsg`, src/v0/miniscript/mod.rs:1381-1388. -/
inductive SighashMsg where
  | tap (h : Hash32)
  | legacy (h : Hash32)
  | segwitV0 (h : Hash32)
  deriving DecidableEq

/-- `sighash_msg`, src/v0/miniscript/mod.rs:813-899; `tx` is the transaction of the cache. Converting the sighash type to
`u32` and back inside `legacy_signature_hash` changes nothing for standard types. -/
def Psbt.sighashMsg (p : Psbt L) (n : Nat) (tx : Tx) (leaf : Option Hash32) : Out SighashErr SighashMsg :=
  if n ≥ p.inputs.length then .error (.err (.indexOutOfBounds n p.inputs.length))
  else
    match p.inputs[n]? with
    | none => .error (.panic "index out of bounds")
    | some i => do
      let us ← V2.mapFail (fun _ => .missingSpendUtxos) p.prevouts
      let u ← V2.mapFail (fun _ => .missingInputUtxo) (p.getUtxo n)
      let spk := u.scriptPubkey
      if isP2tr spk then
        match i.taprootHashTy with
        | none => .error (.err .invalidSighashType)
        | some ty =>
          match tapSighash L tx n (.all us) leaf ty with
          | .ok h => .ok (.tap h)
          | .error e => .error (.err (.taproot e))
      else
        match i.ecdsaHashTy with
        | none => .error (.err .invalidSighashType)
        | some ty =>
          let nestedWpkh := isP2sh spk && (i.redeemScript.map isP2wpkh).getD false
          let nestedWsh := isP2sh spk && (i.redeemScript.map isP2wsh).getD false
          if isP2wpkh spk || isP2wsh spk || nestedWpkh || nestedWsh then
            if isP2wpkh spk then
              match p2wpkhSighash L tx n spk u.value ty with
              | .ok h => .ok (.segwitV0 h)
              | .error e => .error (.err (.p2wpkh e))
            else if nestedWpkh then
              match i.redeemScript with
              | none => .error (.panic "redeem script non-empty checked earlier")
              | some r =>
                match p2wpkhSighash L tx n r u.value ty with
                | .ok h => .ok (.segwitV0 h)
                | .error e => .error (.err (.p2wpkh e))
            else
              match i.witnessScript with
              | none => .error (.err .missingWitnessScript)
              | some w =>
                match segwitSighash L tx n w u.value ty with
                | some h => .ok (.segwitV0 h)
                | none => .error (.err .inputsIndex)
          else if isP2sh spk then
            match i.redeemScript with
            | none => .error (.err .missingRedeemScript)
            | some r =>
              match legacySighash L tx n r ty with
              | some h => .ok (.legacy h)
              | none => .error (.err .inputsIndex)
          else
            match legacySighash L tx n spk ty with
            | some h => .ok (.legacy h)
            | none => .error (.err .inputsIndex)

end Psbt.V0
