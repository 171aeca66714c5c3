/- Signing a PSBT v0, and its messages, with the sighash cache as memory. -/
import Verif.Model.SighashCache
import Verif.Model.V0.Sign
import Verif.Model.V0.Finalize
namespace Psbt.V0
open CacheM

variable {L : Lib}

/-- `Psbt::sighash_ecdsa`, src/v0/bitcoin/mod.rs:501-556. -/
def Psbt.sighashEcdsaCached (p : Psbt L) (n : Nat) : CacheM SignErr (Hash32 × EcdsaTy) := do
  let a ← lift (p.signingAlgorithm n)
  if a ≠ .ecdsa then lift (.error (.err .wrongSigningAlgorithm))
  else
    let i ← lift (p.checkedInput n)
    let u ← lift (p.spendUtxo n)
    let spk := u.scriptPubkey
    match i.ecdsaHashTy with
    | none => lift (.error (.err .invalidSighashType))
    | some ty =>
      let t ← lift (p.outputType n)
      match t with
      | .bare =>
        match ← call fun c => c.legacySighash L n spk ty with
        | some h => lift (.ok (h, ty))
        | none => lift (.error (.panic "input checked above"))
      | .sh =>
        match i.redeemScript with
        | none => lift (.error (.err .missingRedeemScript))
        | some code =>
          match ← call fun c => c.legacySighash L n code ty with
          | some h => lift (.ok (h, ty))
          | none => lift (.error (.panic "input checked above"))
      | .wpkh =>
        match ← call fun c => c.p2wpkhSighash L n spk u.value ty with
        | .ok h => lift (.ok (h, ty))
        | .error e => lift (.error (.err (.p2wpkhSighash e)))
      | .shWpkh =>
        match i.redeemScript with
        | none => lift (.error (.panic "checked above"))
        | some r =>
          match ← call fun c => c.p2wpkhSighash L n r u.value ty with
          | .ok h => lift (.ok (h, ty))
          | .error e => lift (.error (.err (.p2wpkhSighash e)))
      | .wsh | .shWsh =>
        match i.witnessScript with
        | none => lift (.error (.err .missingWitnessScript))
        | some code =>
          match ← call fun c => c.segwitSighash L n code u.value ty with
          | some h => lift (.ok (h, ty))
          | none => lift (.error (.err .segwitV0Sighash))
      | .tr => lift (.error (.err .unsupported))

/-- `Psbt::sighash_taproot`, src/v0/bitcoin/mod.rs:562-616. -/
def Psbt.sighashTaprootCached (p : Psbt L) (n : Nat) (leaf : Option Hash32) : CacheM SignErr (Hash32 × TapTy) := do
  let a ← lift (p.signingAlgorithm n)
  if a ≠ .schnorr then lift (.error (.err .wrongSigningAlgorithm))
  else
    let i ← lift (p.checkedInput n)
    let t ← lift (p.outputType n)
    match t with
    | .tr =>
      match i.taprootHashTy with
      | none => lift (.error (.err .invalidSighashType))
      | some ty =>
        let us ← lift (p.spendUtxos (List.range p.inputs.length))
        let q ← lift (V0.prevouts n ty us)
        match ← call fun c => c.tapSighash L n q leaf ty with
        | .ok h => lift (.ok (h, ty))
        | .error e => lift (.error (.err (.taproot e)))
    | _ => lift (.error (.err .unsupported))

/-- `sighash_msg`, src/v0/miniscript/mod.rs:813-899. -/
def Psbt.sighashMsgCached (p : Psbt L) (n : Nat) (leaf : Option Hash32) : CacheM SighashErr SighashMsg :=
  if n ≥ p.inputs.length then lift (.error (.err (.indexOutOfBounds n p.inputs.length)))
  else
    match p.inputs[n]? with
    | none => lift (.error (.panic "index out of bounds"))
    | some i => do
      let us ← lift (V2.mapFail (fun _ => .missingSpendUtxos) p.prevouts)
      let u ← lift (V2.mapFail (fun _ => .missingInputUtxo) (p.getUtxo n))
      let spk := u.scriptPubkey
      if isP2tr spk then
        match i.taprootHashTy with
        | none => lift (.error (.err .invalidSighashType))
        | some ty =>
          match ← call fun c => c.tapSighash L n (.all us) leaf ty with
          | .ok h => lift (.ok (.tap h))
          | .error e => lift (.error (.err (.taproot e)))
      else
        match i.ecdsaHashTy with
        | none => lift (.error (.err .invalidSighashType))
        | some ty =>
          let nestedWpkh := isP2sh spk && (i.redeemScript.map isP2wpkh).getD false
          let nestedWsh := isP2sh spk && (i.redeemScript.map isP2wsh).getD false
          if isP2wpkh spk || isP2wsh spk || nestedWpkh || nestedWsh then
            if isP2wpkh spk then
              match ← call fun c => c.p2wpkhSighash L n spk u.value ty with
              | .ok h => lift (.ok (.segwitV0 h))
              | .error e => lift (.error (.err (.p2wpkh e)))
            else if nestedWpkh then
              match i.redeemScript with
              | none => lift (.error (.panic "redeem script non-empty checked earlier"))
              | some r =>
                match ← call fun c => c.p2wpkhSighash L n r u.value ty with
                | .ok h => lift (.ok (.segwitV0 h))
                | .error e => lift (.error (.err (.p2wpkh e)))
            else
              match i.witnessScript with
              | none => lift (.error (.err .missingWitnessScript))
              | some w =>
                match ← call fun c => c.segwitSighash L n w u.value ty with
                | some h => lift (.ok (.segwitV0 h))
                | none => lift (.error (.err .inputsIndex))
          else if isP2sh spk then
            match i.redeemScript with
            | none => lift (.error (.err .missingRedeemScript))
            | some r =>
              match ← call fun c => c.legacySighash L n r ty with
              | some h => lift (.ok (.legacy h))
              | none => lift (.error (.err .inputsIndex))
          else
            match ← call fun c => c.legacySighash L n spk ty with
            | some h => lift (.ok (.legacy h))
            | none => lift (.error (.err .inputsIndex))

variable (S : SigLib L)

/-- `Psbt::bip32_sign_ecdsa`, src/v0/bitcoin/mod.rs:353-398. -/
def Psbt.bip32SignEcdsaCached (p : Psbt L) (k : Provider S) (n : Nat) : CacheM Empty (Psbt L × Except SignErr (List L.pubkey.T)) :=
  handle (p.sighashEcdsaCached n) fun r => lift (p.signWith S k n r)

/-- Signatures for the leaves of one key, src/v0/bitcoin/mod.rs:471-483. -/
def signLeavesCached (msg : Option Hash32 → CacheM SignErr (Hash32 × TapTy)) (kp : S.Keypair) (x : L.xonly.T) :
    List Hash32 → BMap (L.xonly.T × Hash32) TapSig → CacheM SignErr (BMap (L.xonly.T × Hash32) TapSig)
  | [], sigs => lift (.ok sigs)
  | lh :: lhs, sigs => do
    let (m, ty) ← msg (some lh)
    signLeavesCached msg kp x lhs (sigs.insert (x, lh) ⟨S.signSchnorr m kp, ty⟩)

/-- The key path part for one key, src/v0/bitcoin/mod.rs:440-461. -/
def signKeyPathCached (msg : Option Hash32 → CacheM SignErr (Hash32 × TapTy)) (i : Input L) (x : L.xonly.T) (lhs : List Hash32)
    (sk : S.SK) (sig : Option TapSig) : CacheM SignErr (Option TapSig × List L.xonly.T) :=
  match i.tapInternalKey with
  | none => lift (.ok (sig, []))
  | some ik =>
    if ik = x ∧ lhs.isEmpty ∧ sig.isNone then do
      let (m, ty) ← msg none
      lift (.ok (some ⟨S.signSchnorr m (S.tapTweak (S.keypair sk) i.tapMerkleRoot), ty⟩, [ik]))
    else lift (.ok (sig, []))

/-- The script path part for one key, src/v0/bitcoin/mod.rs:463-487. -/
def signScriptPathCached (msg : Option Hash32 → CacheM SignErr (Hash32 × TapTy)) (i : Input L) (x : L.xonly.T)
    (sk : S.SK) (sigs : BMap (L.xonly.T × Hash32) TapSig) : CacheM SignErr (BMap (L.xonly.T × Hash32) TapSig × List L.xonly.T) :=
  match i.tapKeyOrigins.get x with
  | none => lift (.ok (sigs, []))
  | some (lhs, _) =>
    let lhs := lhs.filter fun lh => (sigs.get (x, lh)).isNone
    if lhs.isEmpty then lift (.ok (sigs, []))
    else do
      let sigs ← signLeavesCached S msg (S.keypair sk) x lhs sigs
      lift (.ok (sigs, [S.xonly (S.pub sk)]))

/-- The loop of `bip32_sign_schnorr`, src/v0/bitcoin/mod.rs:424-488. -/
def schnorrLoopCached (k : Provider S) (msg : Option Hash32 → CacheM SignErr (Hash32 × TapTy)) (i : Input L) :
    List (L.xonly.T × List Hash32 × KeySource) → Option TapSig → BMap (L.xonly.T × Hash32) TapSig → List L.xonly.T →
      CacheM SignErr (Option TapSig × BMap (L.xonly.T × Hash32) TapSig × List L.xonly.T)
  | [], sig, sigs, used => lift (.ok (sig, sigs, used))
  | (x, lhs, ks) :: ds, sig, sigs, used =>
    match k (.bip32 ks) with
    | .ok (some sk) => do
      let (sig, u) ← signKeyPathCached S msg i x lhs sk sig
      let (sigs, v) ← signScriptPathCached S msg i x sk sigs
      schnorrLoopCached k msg i ds sig sigs (used ++ u ++ v)
    | _ => schnorrLoopCached k msg i ds sig sigs used

/-- `Psbt::bip32_sign_schnorr`, src/v0/bitcoin/mod.rs:408-494. -/
def Psbt.bip32SignSchnorrCached (p : Psbt L) (k : Provider S) (n : Nat) : CacheM Empty (Psbt L × Except SignErr (List L.xonly.T)) :=
  match p.checkedInput n with
  | .error (.panic s) => lift (.error (.panic s))
  | .error (.err e) => lift (.ok (p, .error e))
  | .ok i =>
    handle (schnorrLoopCached S k (p.sighashTaprootCached n) i i.tapKeyOrigins.l i.tapKeySig i.tapScriptSigs []) fun r =>
      match r with
      | .error e => lift (.ok (p, .error e))
      | .ok (sig, sigs, used) =>
        lift (.ok ({ p with inputs := p.inputs.set n { i with tapKeySig := sig, tapScriptSigs := sigs } }, .ok used))

/-- One pass of the loop of `sign`, src/v0/bitcoin/mod.rs:312-337. -/
def signStepCached (k : Provider S) (s : Signing L) (n : Nat) : CacheM Empty (Signing L) :=
  match s.psbt.signingAlgorithm n with
  | .error (.panic m) => lift (.error (.panic m))
  | .error (.err e) => lift (.ok { s with errors := s.errors.insert n e })
  | .ok .ecdsa => do
    match ← s.psbt.bip32SignEcdsaCached S k n with
    | (p, .ok v) => lift (.ok { s with psbt := p, used := s.used.insert n (.ecdsa v) })
    | (p, .error e) => lift (.ok { s with psbt := p, errors := s.errors.insert n e })
  | .ok .schnorr => do
    match ← s.psbt.bip32SignSchnorrCached S k n with
    | (p, .ok v) => lift (.ok { s with psbt := p, used := s.used.insert n (.schnorr v) })
    | (p, .error e) => lift (.ok { s with psbt := p, errors := s.errors.insert n e })

/-- The loop of `sign`. -/
def signAllCached (k : Provider S) : Signing L → List Nat → CacheM Empty (Signing L)
  | s, [] => lift (.ok s)
  | s, n :: ns => do
    let s ← signStepCached S k s n
    signAllCached k s ns

/-- `Psbt::sign`, src/v0/bitcoin/mod.rs:298-344, with the one cache it creates for all inputs. -/
def Psbt.signCached (p : Psbt L) (k : Provider S) :
    Out Empty (Psbt L × Except (BMap Nat (SigningKeys L) × BMap Nat SignErr) (BMap Nat (SigningKeys L))) :=
  match (signAllCached S k ⟨p, .empty, .empty⟩ (List.range p.inputs.length) (.new p.unsignedTx)).1 with
  | .error e => .error e
  | .ok s => .ok (s.psbt, if s.errors.isEmpty then .ok s.used else .error (s.used, s.errors))

end Psbt.V0
