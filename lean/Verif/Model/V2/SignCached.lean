/- Signing a PSBT v2 with the sighash cache as memory. -/
import Verif.Model.SighashCache
import Verif.Model.V2.Sign
namespace Psbt.V2
open CacheM

variable {L : Lib}

/-- `Psbt::sighash_ecdsa`, src/v2/mod.rs:824-879. -/
def Psbt.sighashEcdsaCached (p : Psbt L) (n : Nat) : CacheM SignErr (Hash32 × EcdsaTy) := do
  let a ← lift (p.signingAlgorithm n)
  if a ≠ .ecdsa then lift (.error (.err .wrongSigningAlgorithm))
  else
    let i ← lift (mapFail .index (p.checkedInput n))
    let u ← lift (orFail .fundingUtxo i.fundingUtxo)
    let spk := u.scriptPubkey
    match i.ecdsaHashTy with
    | none => lift (.error (.err .invalidSighashType))
    | some ty =>
      let t ← lift (p.outputType n)
      match t with
      | .bare =>
        match ← call fun c => c.legacySighash L n spk ty with
        | some h => lift (.ok (h, ty))
        | none => lift (.error (.panic "input checked above"))
      | .sh =>
        match i.redeemScript with
        | none => lift (.error (.err .missingRedeemScript))
        | some code =>
          match ← call fun c => c.legacySighash L n code ty with
          | some h => lift (.ok (h, ty))
          | none => lift (.error (.panic "input checked above"))
      | .wpkh =>
        match ← call fun c => c.p2wpkhSighash L n spk u.value ty with
        | .ok h => lift (.ok (h, ty))
        | .error e => lift (.error (.err (.p2wpkhSighash e)))
      | .shWpkh =>
        match i.redeemScript with
        | none => lift (.error (.panic "checked above"))
        | some r =>
          match ← call fun c => c.p2wpkhSighash L n r u.value ty with
          | .ok h => lift (.ok (h, ty))
          | .error e => lift (.error (.err (.p2wpkhSighash e)))
      | .wsh | .shWsh =>
        match i.witnessScript with
        | none => lift (.error (.err .missingWitnessScript))
        | some code =>
          match ← call fun c => c.segwitSighash L n code u.value ty with
          | some h => lift (.ok (h, ty))
          | none => lift (.error (.err .segwitV0Sighash))
      | .tr => lift (.error (.err .unsupported))

variable (S : SigLib L)

/-- `Psbt::bip32_sign_ecdsa`, src/v2/mod.rs:769-817. -/
def Psbt.bip32SignEcdsaCached (p : Psbt L) (k : Provider S) (n : Nat) : CacheM Empty (Psbt L × Except SignErr (List L.pubkey.T)) :=
  handle (p.sighashEcdsaCached n) fun r => lift (p.signWith S k n r)

/-- One pass of the loop of `sign`, src/v2/mod.rs:743-754. -/
def signStepCached (k : Provider S) (s : Signing L) (n : Nat) : CacheM Empty (Signing L) :=
  match s.psbt.signingAlgorithm n with
  | .error (.panic m) => lift (.error (.panic m))
  | .ok .ecdsa => do
    match ← s.psbt.bip32SignEcdsaCached S k n with
    | (p, .ok v) => lift (.ok { s with psbt := p, used := s.used.insert n v })
    | (p, .error e) => lift (.ok { s with psbt := p, errors := s.errors.insert n e })
  | _ => lift (.ok s)

/-- The loop of `sign`. -/
def signAllCached (k : Provider S) : Signing L → List Nat → CacheM Empty (Signing L)
  | s, [] => lift (.ok s)
  | s, n :: ns => do
    let s ← signStepCached S k s n
    signAllCached k s ns

/-- `Psbt::sign`, src/v2/mod.rs:728-760, with the one cache it creates for all inputs. -/
def Psbt.signCached (p : Psbt L) (tx : Tx) (k : Provider S) :
    Out Empty (Psbt L × Except (BMap Nat (List L.pubkey.T) × BMap Nat SignErr) (BMap Nat (List L.pubkey.T))) :=
  match (signAllCached S k ⟨p, .empty, .empty⟩ (List.range p.global.inputCount.toNat) (.new tx)).1 with
  | .error e => .error e
  | .ok s => .ok (s.psbt, if s.errors.isEmpty then .ok s.used else .error (s.used, s.errors))

end Psbt.V2
