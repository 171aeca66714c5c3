/- Signing PSBT v0: src/v0/bitcoin/mod.rs:298-703. Key providers are those of Model/SigLib.lean
(src/v0/bitcoin/mod.rs:730-844). -/
import Verif.Model.V0.Extract
import Verif.Model.V2.Sign
namespace Psbt.V0
open Psbt

variable {L : Lib}

/-- `IndexOutOfBoundsError`, src/v0/bitcoin/mod.rs:1103-1118. -/
inductive IndexErr where
  | inputs (index length : Nat)
  | txInput (index length : Nat)
  deriving DecidableEq

/-- `SignError`, src/v0/bitcoin/mod.rs:939-972. -/
inductive SignErr where
  | index (e : IndexErr)
  | invalidSighashType
  | missingInputUtxo
  | missingRedeemScript
  | missingSpendUtxo
  | missingWitnessScript
  | mismatchedAlgoKey
  | notEcdsa
  | notWpkh
  | segwitV0Sighash
  | p2wpkhSighash (e : P2wpkhErr)
  | taproot (e : TaprootErr)
  | unknownOutputType
  | keyNotFound
  | wrongSigningAlgorithm
  | unsupported
  deriving DecidableEq

/-- `Input::ecdsa_hash_ty`, src/v0/bitcoin/map/input.rs:148-152. -/
def Input.ecdsaHashTy (i : Input L) : Option EcdsaTy :=
  match i.sighashType with
  | some n => Psbt.ecdsaHashTy n
  | none => some ⟨0x01, by decide⟩

/-- `Input::taproot_hash_ty`, src/v0/bitcoin/map/input.rs:160-164; also src/v0/bitcoin/mod.rs:578-582. -/
def Input.taprootHashTy (i : Input L) : Option TapTy :=
  match i.sighashType with
  | some n => Psbt.taprootHashTy n
  | none => some ⟨0x00, by decide⟩

/-- `Psbt::checked_input`, src/v0/bitcoin/mod.rs:633-636, with `check_index_is_within_bounds`, 640-659. The slice index is
kept as a possible panic. -/
def Psbt.checkedInput (p : Psbt L) (n : Nat) : Out SignErr (Input L) :=
  if n ≥ p.inputs.length then .error (.err (.index (.inputs n p.inputs.length)))
  else if n ≥ p.unsignedTx.input.length then .error (.err (.index (.txInput n p.unsignedTx.input.length)))
  else
    match p.inputs[n]? with
    | some i => .ok i
    | none => .error (.panic "index out of bounds")

/-- `Psbt::spend_utxo`, src/v0/bitcoin/mod.rs:619-630; two indexings can panic. -/
def Psbt.spendUtxo (p : Psbt L) (n : Nat) : Out SignErr TxOut := do
  let i ← p.checkedInput n
  match i.witnessUtxo, i.nonWitnessUtxo with
  | some u, _ => .ok u
  | none, some tx =>
    match p.unsignedTx.input[n]? with
    | none => .error (.panic "index out of bounds")
    | some t =>
      match tx.output[t.previousOutput.vout.toNat]? with
      | some u => .ok u
      | none => .error (.panic "index out of bounds")
  | none, none => .error (.err .missingSpendUtxo)

/-- `Psbt::output_type`, src/v0/bitcoin/mod.rs:668-703. -/
def Psbt.outputType (p : Psbt L) (n : Nat) : Out SignErr OutputType := do
  let i ← p.checkedInput n
  let u ← p.spendUtxo n
  match outputTypeOf u.scriptPubkey i.redeemScript with
  | some t => .ok t
  | none => .error (.err .unknownOutputType)

/-- `Psbt::signing_algorithm`, src/v0/bitcoin/mod.rs:662-665. -/
def Psbt.signingAlgorithm (p : Psbt L) (n : Nat) : Out SignErr SigningAlgorithm := do
  let t ← p.outputType n
  .ok t.signingAlgorithm

/-- `Psbt::sighash_ecdsa`, src/v0/bitcoin/mod.rs:501-556. `tx` is the transaction of the cache. The `expect`s are kept. -/
def Psbt.sighashEcdsa (p : Psbt L) (n : Nat) (tx : Tx) : Out SignErr (Hash32 × EcdsaTy) := do
  let a ← p.signingAlgorithm n
  if a ≠ .ecdsa then .error (.err .wrongSigningAlgorithm)
  else
    let i ← p.checkedInput n
    let u ← p.spendUtxo n
    let spk := u.scriptPubkey
    match i.ecdsaHashTy with
    | none => .error (.err .invalidSighashType)
    | some ty =>
      let t ← p.outputType n
      match t with
      | .bare =>
        match legacySighash L tx n spk ty with
        | some h => .ok (h, ty)
        | none => .error (.panic "input checked above")
      | .sh =>
        match i.redeemScript with
        | none => .error (.err .missingRedeemScript)
        | some code =>
          match legacySighash L tx n code ty with
          | some h => .ok (h, ty)
          | none => .error (.panic "input checked above")
      | .wpkh =>
        match p2wpkhSighash L tx n spk u.value ty with
        | .ok h => .ok (h, ty)
        | .error e => .error (.err (.p2wpkhSighash e))
      | .shWpkh =>
        match i.redeemScript with
        | none => .error (.panic "checked above")
        | some r =>
          match p2wpkhSighash L tx n r u.value ty with
          | .ok h => .ok (h, ty)
          | .error e => .error (.err (.p2wpkhSighash e))
      | .wsh | .shWsh =>
        match i.witnessScript with
        | none => .error (.err .missingWitnessScript)
        | some code =>
          match segwitSighash L tx n code u.value ty with
          | some h => .ok (h, ty)
          | none => .error (.err .segwitV0Sighash)
      | .tr => .error (.err .unsupported)

/-- `(0..self.inputs.len()).map(|i| self.spend_utxo(i).ok()).collect()`, src/v0/bitcoin/mod.rs:584-585. -/
def Psbt.spendUtxos (p : Psbt L) : List Nat → Out SignErr (List (Option TxOut))
  | [] => .ok []
  | n :: ns =>
    match p.spendUtxo n with
    | .error (.panic s) => .error (.panic s)
    | .error (.err _) => do
      let us ← p.spendUtxos ns
      .ok (none :: us)
    | .ok u => do
      let us ← p.spendUtxos ns
      .ok (some u :: us)

/-- Which previous outputs the signature hash is given, src/v0/bitcoin/mod.rs:588-600. -/
def prevouts (n : Nat) (ty : TapTy) (us : List (Option TxOut)) : Out SignErr Prevouts :=
  if ty.1.toUInt32 &&& 0x80 ≠ 0 then
    match us[n]? with
    | none => .error (.panic "index out of bounds")
    | some none => .error (.err .missingSpendUtxo)
    | some (some u) => .ok (.one n u)
  else if us.all Option.isSome then .ok (.all (us.filterMap fun u => u))
  else .error (.err .missingSpendUtxo)

/-- `Psbt::sighash_taproot`, src/v0/bitcoin/mod.rs:562-616. -/
def Psbt.sighashTaproot (p : Psbt L) (n : Nat) (tx : Tx) (leaf : Option Hash32) : Out SignErr (Hash32 × TapTy) := do
  let a ← p.signingAlgorithm n
  if a ≠ .schnorr then .error (.err .wrongSigningAlgorithm)
  else
    let i ← p.checkedInput n
    let t ← p.outputType n
    match t with
    | .tr =>
      match i.taprootHashTy with
      | none => .error (.err .invalidSighashType)
      | some ty =>
        let us ← p.spendUtxos (List.range p.inputs.length)
        let q ← prevouts n ty us
        match tapSighash L tx n q leaf ty with
        | .ok h => .ok (h, ty)
        | .error e => .error (.err (.taproot e))
    | _ => .error (.err .unsupported)

variable (S : SigLib L)

/-- `Psbt::bip32_sign_ecdsa` after the signature hash `res` was computed, src/v0/bitcoin/mod.rs:366-397. The resulting PSBT
is returned also with the error. The loop returns an error only before any signature was inserted, so nothing is lost
by not returning its map then. -/
def Psbt.signWith (p : Psbt L) (k : Provider S) (n : Nat) (res : Except SignErr (Hash32 × EcdsaTy)) :
    Out Empty (Psbt L × Except SignErr (List L.pubkey.T)) :=
  match p.inputs[n]? with
  | none => .error (.panic "index out of bounds")
  | some i =>
    match V2.signLoop S k res i.bip32Derivation.l i.partialSigs [] with
    | .error e => .ok (p, .error e)
    | .ok (sigs, used) => .ok ({ p with inputs := p.inputs.set n { i with partialSigs := sigs } }, .ok used)

/-- `Psbt::bip32_sign_ecdsa`, src/v0/bitcoin/mod.rs:353-398. -/
def Psbt.bip32SignEcdsa (p : Psbt L) (k : Provider S) (n : Nat) (tx : Tx) :
    Out Empty (Psbt L × Except SignErr (List L.pubkey.T)) :=
  match p.sighashEcdsa n tx with
  | .error (.panic s) => .error (.panic s)
  | .error (.err e) => p.signWith S k n (.error e)
  | .ok m => p.signWith S k n (.ok m)

/-- Signatures for the leaves of one key, src/v0/bitcoin/mod.rs:471-483. `msg` is `sighash_taproot` for this input. -/
def signLeaves (msg : Option Hash32 → Out SignErr (Hash32 × TapTy)) (kp : S.Keypair) (x : L.xonly.T) :
    List Hash32 → BMap (L.xonly.T × Hash32) TapSig → Out SignErr (BMap (L.xonly.T × Hash32) TapSig)
  | [], sigs => .ok sigs
  | lh :: lhs, sigs => do
    let (m, ty) ← msg (some lh)
    signLeaves msg kp x lhs (sigs.insert (x, lh) ⟨S.signSchnorr m kp, ty⟩)

/-- The key path part for one key, src/v0/bitcoin/mod.rs:440-461: the signature and the keys used. -/
def signKeyPath (msg : Option Hash32 → Out SignErr (Hash32 × TapTy)) (i : Input L) (x : L.xonly.T) (lhs : List Hash32)
    (sk : S.SK) (sig : Option TapSig) : Out SignErr (Option TapSig × List L.xonly.T) :=
  match i.tapInternalKey with
  | none => .ok (sig, [])
  | some ik =>
    if ik = x ∧ lhs.isEmpty ∧ sig.isNone then do
      let (m, ty) ← msg none
      .ok (some ⟨S.signSchnorr m (S.tapTweak (S.keypair sk) i.tapMerkleRoot), ty⟩, [ik])
    else .ok (sig, [])

/-- The script path part for one key, src/v0/bitcoin/mod.rs:463-487. -/
def signScriptPath (msg : Option Hash32 → Out SignErr (Hash32 × TapTy)) (i : Input L) (x : L.xonly.T)
    (sk : S.SK) (sigs : BMap (L.xonly.T × Hash32) TapSig) : Out SignErr (BMap (L.xonly.T × Hash32) TapSig × List L.xonly.T) :=
  match i.tapKeyOrigins.get x with
  | none => .ok (sigs, [])
  | some (lhs, _) =>
    let lhs := lhs.filter fun lh => (sigs.get (x, lh)).isNone
    if lhs.isEmpty then .ok (sigs, [])
    else do
      let sigs ← signLeaves S msg (S.keypair sk) x lhs sigs
      .ok (sigs, [S.xonly (S.pub sk)])

/-- The loop of `bip32_sign_schnorr`, src/v0/bitcoin/mod.rs:424-488. `i` is the input before signing; of the copy that the
code changes, only the two kinds of signatures ever differ from it, they are passed on separately. -/
def schnorrLoop (k : Provider S) (msg : Option Hash32 → Out SignErr (Hash32 × TapTy)) (i : Input L) :
    List (L.xonly.T × List Hash32 × KeySource) → Option TapSig → BMap (L.xonly.T × Hash32) TapSig → List L.xonly.T →
      Out SignErr (Option TapSig × BMap (L.xonly.T × Hash32) TapSig × List L.xonly.T)
  | [], sig, sigs, used => .ok (sig, sigs, used)
  | (x, lhs, ks) :: ds, sig, sigs, used =>
    match k (.bip32 ks) with
    | .ok (some sk) => do
      let (sig, u) ← signKeyPath S msg i x lhs sk sig
      let (sigs, v) ← signScriptPath S msg i x sk sigs
      schnorrLoop k msg i ds sig sigs (used ++ u ++ v)
    | _ => schnorrLoop k msg i ds sig sigs used

/-- `Psbt::bip32_sign_schnorr`, src/v0/bitcoin/mod.rs:408-494. The input is written back only at the end. -/
def Psbt.bip32SignSchnorr (p : Psbt L) (k : Provider S) (n : Nat) (tx : Tx) :
    Out Empty (Psbt L × Except SignErr (List L.xonly.T)) :=
  match p.checkedInput n with
  | .error (.panic s) => .error (.panic s)
  | .error (.err e) => .ok (p, .error e)
  | .ok i =>
    match schnorrLoop S k (p.sighashTaproot n tx) i i.tapKeyOrigins.l i.tapKeySig i.tapScriptSigs [] with
    | .error (.panic s) => .error (.panic s)
    | .error (.err e) => .ok (p, .error e)
    | .ok (sig, sigs, used) =>
      .ok ({ p with inputs := p.inputs.set n { i with tapKeySig := sig, tapScriptSigs := sigs } }, .ok used)

/-- `SigningKeys`, src/v0/bitcoin/mod.rs:784-792. -/
inductive SigningKeys (L : Lib) where
  | ecdsa (pks : List L.pubkey.T)
  | schnorr (xs : List L.xonly.T)
  deriving DecidableEq

/-- What `sign` has computed so far: the PSBT, the keys used and the errors, both by input index. -/
structure Signing (L : Lib) where
  psbt : Psbt L
  used : BMap Nat (SigningKeys L)
  errors : BMap Nat SignErr
  deriving DecidableEq

/-- One pass of the loop of `sign`, src/v0/bitcoin/mod.rs:312-337. -/
def signStep (k : Provider S) (tx : Tx) (s : Signing L) (n : Nat) : Out Empty (Signing L) :=
  match s.psbt.signingAlgorithm n with
  | .error (.panic m) => .error (.panic m)
  | .error (.err e) => .ok { s with errors := s.errors.insert n e }
  | .ok .ecdsa =>
    match s.psbt.bip32SignEcdsa S k n tx with
    | .error e => .error e
    | .ok (p, .ok v) => .ok { s with psbt := p, used := s.used.insert n (.ecdsa v) }
    | .ok (p, .error e) => .ok { s with psbt := p, errors := s.errors.insert n e }
  | .ok .schnorr =>
    match s.psbt.bip32SignSchnorr S k n tx with
    | .error e => .error e
    | .ok (p, .ok v) => .ok { s with psbt := p, used := s.used.insert n (.schnorr v) }
    | .ok (p, .error e) => .ok { s with psbt := p, errors := s.errors.insert n e }

/-- The loop of `sign`. -/
def signAll (k : Provider S) (tx : Tx) : Signing L → List Nat → Out Empty (Signing L)
  | s, [] => .ok s
  | s, n :: ns =>
    match signStep S k tx s n with
    | .error e => .error e
    | .ok s => signAll k tx s ns

/-- `Psbt::sign`, src/v0/bitcoin/mod.rs:298-344: the mutated PSBT and the result. -/
def Psbt.sign (p : Psbt L) (k : Provider S) :
    Out Empty (Psbt L × Except (BMap Nat (SigningKeys L) × BMap Nat SignErr) (BMap Nat (SigningKeys L))) :=
  match signAll S k p.unsignedTx ⟨p, .empty, .empty⟩ (List.range p.inputs.length) with
  | .error e => .error e
  | .ok s => .ok (s.psbt, if s.errors.isEmpty then .ok s.used else .error (s.used, s.errors))

end Psbt.V0
