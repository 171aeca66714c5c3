/- Signing PSBT v2: src/v2/mod.rs:460-490, 728-945, 973-1000. -/
import Verif.Model.V2.Roles
import Verif.Model.Sighash
import Verif.Model.SighashType
import Verif.Model.SigLib
namespace Psbt.V2
open Psbt

variable {L : Lib}

/-- `SignError`, src/v2/error.rs:107-140. -/
inductive SignErr where
  | index (e : IndexErr)
  | invalidSighashType
  | missingInputUtxo
  | missingRedeemScript
  | fundingUtxo (e : FundingErr)
  | missingWitnessScript
  | mismatchedAlgoKey
  | notEcdsa
  | notWpkh
  | segwitV0Sighash
  | p2wpkhSighash (e : P2wpkhErr)
  | unknownOutputType
  | keyNotFound
  | wrongSigningAlgorithm
  | unsupported
  deriving DecidableEq

/-- The `From` conversion applied by `?` to the error of a function that may also panic. -/
def mapFail {ε ε' α : Type} (f : ε → ε') : Out ε α → Out ε' α
  | .ok a => .ok a
  | .error (.err e) => .error (.err (f e))
  | .error (.panic s) => .error (.panic s)

/-- `Input::ecdsa_hash_ty`, src/v2/map/input.rs:377-381. -/
def Input.ecdsaHashTy (i : Input L) : Option EcdsaTy :=
  match i.sighashType with
  | some n => Psbt.ecdsaHashTy n
  | none => some ⟨0x01, by decide⟩

/-- `Input::taproot_hash_ty`, src/v2/map/input.rs:389-393. -/
def Input.taprootHashTy (i : Input L) : Option TapTy :=
  match i.sighashType with
  | some n => Psbt.taprootHashTy n
  | none => some ⟨0x00, by decide⟩

/-- `Psbt::output_type`, src/v2/mod.rs:910-945. -/
def Psbt.outputType (p : Psbt L) (n : Nat) : Out SignErr OutputType := do
  let i ← mapFail .index (p.checkedInput n)
  let u ← orFail .fundingUtxo i.fundingUtxo
  match outputTypeOf u.scriptPubkey i.redeemScript with
  | some t => .ok t
  | none => .error (.err .unknownOutputType)

/-- `Psbt::signing_algorithm`, src/v2/mod.rs:904-907. -/
def Psbt.signingAlgorithm (p : Psbt L) (n : Nat) : Out SignErr SigningAlgorithm := do
  let t ← p.outputType n
  .ok t.signingAlgorithm

/-- `Psbt::sighash_ecdsa`, src/v2/mod.rs:824-879. `tx` is the transaction of the cache. The `expect`s are kept. -/
def Psbt.sighashEcdsa (p : Psbt L) (n : Nat) (tx : Tx) : Out SignErr (Hash32 × EcdsaTy) := do
  let a ← p.signingAlgorithm n
  if a ≠ .ecdsa then .error (.err .wrongSigningAlgorithm)
  else
    let i ← mapFail .index (p.checkedInput n)
    let u ← orFail .fundingUtxo i.fundingUtxo
    let spk := u.scriptPubkey
    match i.ecdsaHashTy with
    | none => .error (.err .invalidSighashType)
    | some ty =>
      let t ← p.outputType n
      match t with
      | .bare =>
        match legacySighash L tx n spk ty with
        | some h => .ok (h, ty)
        | none => .error (.panic "input checked above")
      | .sh =>
        match i.redeemScript with
        | none => .error (.err .missingRedeemScript)
        | some code =>
          match legacySighash L tx n code ty with
          | some h => .ok (h, ty)
          | none => .error (.panic "input checked above")
      | .wpkh =>
        match p2wpkhSighash L tx n spk u.value ty with
        | .ok h => .ok (h, ty)
        | .error e => .error (.err (.p2wpkhSighash e))
      | .shWpkh =>
        match i.redeemScript with
        | none => .error (.panic "checked above")
        | some r =>
          match p2wpkhSighash L tx n r u.value ty with
          | .ok h => .ok (h, ty)
          | .error e => .error (.err (.p2wpkhSighash e))
      | .wsh | .shWsh =>
        match i.witnessScript with
        | none => .error (.err .missingWitnessScript)
        | some code =>
          match segwitSighash L tx n code u.value ty with
          | some h => .ok (h, ty)
          | none => .error (.err .segwitV0Sighash)
      | .tr => .error (.err .unsupported)

variable (S : SigLib L)

/-- The key for one entry of `bip32_derivations`, src/v2/mod.rs:788-794. -/
def findKey (k : Provider S) (pk : L.secpPk.T) (ks : KeySource) : Option S.SK :=
  match k (.bip32 ks) with
  | .ok (some sk) => some sk
  | _ =>
    match k (.pubkey (S.ofSecp pk)) with
    | .ok (some sk) => some sk
    | _ => none

/-- The loop of `bip32_sign_ecdsa`, src/v2/mod.rs:787-811 (src/v0/bitcoin/mod.rs:372-395 is the same). -/
def signLoop {ε : Type} (k : Provider S) (res : Except ε (Hash32 × EcdsaTy)) :
    List (L.secpPk.T × KeySource) → BMap L.pubkey.T (EcdsaSig L) → List L.pubkey.T →
      Except ε (BMap L.pubkey.T (EcdsaSig L) × List L.pubkey.T)
  | [], sigs, used => .ok (sigs, used)
  | (pk, ks) :: ds, sigs, used =>
    match findKey S k pk ks with
    | none => signLoop k res ds sigs used
    | some sk =>
      match res with
      | .error e => .error e
      | .ok (msg, ty) => signLoop k res ds (sigs.insert (S.pub sk) ⟨S.signEcdsa msg sk, ty⟩) (used ++ [S.pub sk])

/-- `bip32_sign_ecdsa` after the signature hash `res` was computed, src/v2/mod.rs:784-816. The resulting PSBT is returned
also with the error. The loop returns an error only before any signature was inserted, so nothing is lost by not
returning its map then. -/
def Psbt.signWith (p : Psbt L) (k : Provider S) (n : Nat) (res : Except SignErr (Hash32 × EcdsaTy)) :
    Out Empty (Psbt L × Except SignErr (List L.pubkey.T)) :=
  match p.inputs[n]? with
  | none => .error (.panic "index out of bounds")
  | some i =>
    match signLoop S k res i.bip32Derivations.l i.partialSigs [] with
    | .error e => .ok (p, .error e)
    | .ok (sigs, used) =>
      match res with
      | .error _ => .error (.panic "at this stage we know its ok")
      | .ok (_, ty) =>
        .ok (Psbt.clearTxModifiable { p with inputs := p.inputs.set n { i with partialSigs := sigs } } ty.1, .ok used)

/-- `Psbt::bip32_sign_ecdsa`, src/v2/mod.rs:769-817. -/
def Psbt.bip32SignEcdsa (p : Psbt L) (k : Provider S) (n : Nat) (tx : Tx) :
    Out Empty (Psbt L × Except SignErr (List L.pubkey.T)) :=
  match p.sighashEcdsa n tx with
  | .error (.panic s) => .error (.panic s)
  | .error (.err e) => p.signWith S k n (.error e)
  | .ok m => p.signWith S k n (.ok m)

/-- What `sign` has computed so far: the PSBT, the keys used and the errors, both by input index. -/
structure Signing (L : Lib) where
  psbt : Psbt L
  used : BMap Nat (List L.pubkey.T)
  errors : BMap Nat SignErr
  deriving DecidableEq

/-- One pass of the loop of `sign`, src/v2/mod.rs:743-754. -/
def signStep (k : Provider S) (tx : Tx) (s : Signing L) (n : Nat) : Out Empty (Signing L) :=
  match s.psbt.signingAlgorithm n with
  | .error (.panic m) => .error (.panic m)
  | .ok .ecdsa =>
    match s.psbt.bip32SignEcdsa S k n tx with
    | .error e => .error e
    | .ok (p, .ok v) => .ok { s with psbt := p, used := s.used.insert n v }
    | .ok (p, .error e) => .ok { s with psbt := p, errors := s.errors.insert n e }
  | _ => .ok s

/-- The loop of `sign`. -/
def signAll (k : Provider S) (tx : Tx) : Signing L → List Nat → Out Empty (Signing L)
  | s, [] => .ok s
  | s, n :: ns =>
    match signStep S k tx s n with
    | .error e => .error e
    | .ok s => signAll k tx s ns

/-- `Psbt::sign`, src/v2/mod.rs:728-760: the mutated PSBT and the result. -/
def Psbt.sign (p : Psbt L) (tx : Tx) (k : Provider S) :
    Out Empty (Psbt L × Except (BMap Nat (List L.pubkey.T) × BMap Nat SignErr) (BMap Nat (List L.pubkey.T))) :=
  match signAll S k tx ⟨p, .empty, .empty⟩ (List.range p.global.inputCount.toNat) with
  | .error e => .error e
  | .ok s => .ok (s.psbt, if s.errors.isEmpty then .ok s.used else .error (s.used, s.errors))

/-- `Signer::sign`, src/v2/mod.rs:469-482: the PSBT is returned only on success. -/
def Signer.sign (p : Psbt L) (k : Provider S) :
    Out (BMap Nat (List L.pubkey.T) × BMap Nat SignErr) (Psbt L × BMap Nat (List L.pubkey.T)) :=
  match Signer.unsignedTx p with
  | .error (.panic s) => .error (.panic s)
  | .error (.err e) => e.elim
  | .ok tx =>
    match p.sign S tx k with
    | .error (.panic s) => .error (.panic s)
    | .error (.err e) => e.elim
    | .ok (p, .ok used) => .ok (p, used)
    | .ok (_, .error e) => .error (.err e)

/-- `Signer::ecdsa_clear_tx_modifiable`, src/v2/mod.rs:488-490. -/
def Signer.ecdsaClearTxModifiable (p : Psbt L) (ty : EcdsaTy) : Psbt L := p.clearTxModifiable ty.1

/-- `PartialSigsSighashTypeError`, src/v2/error.rs. -/
inductive PartialSigsErr (L : Lib) where
  | nonStandardInput (index : Nat)
  | nonStandardPartialSig (index : Nat)
  | wrongFlag (index : Nat) (required got : EcdsaTy) (pk : L.pubkey.T)
  deriving DecidableEq

/-- The inner loop of the check, src/v2/mod.rs:984-996. The sighash type of a signature is a value of a Rust enum with
the six standard values only (a signature with another type does not parse), so `from_standard` of it cannot fail;
the call is kept. -/
def checkSigs (n : Nat) (target : EcdsaTy) : List (L.pubkey.T × EcdsaSig L) → Except (PartialSigsErr L) Unit
  | [] => .ok ()
  | (pk, sig) :: r =>
    match ecdsaTyOf sig.ty.1.toUInt32 with
    | none => .error (.nonStandardPartialSig n)
    | some got => if target ≠ got then .error (.wrongFlag n target got pk) else checkSigs n target r

/-- The outer loop, src/v2/mod.rs:974-983. -/
def checkPartialSigsFrom (n : Nat) : List (Input L) → Except (PartialSigsErr L) Unit
  | [] => .ok ()
  | i :: is =>
    match i.ecdsaHashTy with
    | none => .error (.nonStandardInput n)
    | some target =>
      match checkSigs n target i.partialSigs.l with
      | .error e => .error e
      | .ok () => checkPartialSigsFrom (n + 1) is

/-- `Psbt::check_partial_sigs_sighash_type`, src/v2/mod.rs:973-1000. -/
def Psbt.checkPartialSigsSighashType (p : Psbt L) : Except (PartialSigsErr L) Unit := checkPartialSigsFrom 0 p.inputs

end Psbt.V2
