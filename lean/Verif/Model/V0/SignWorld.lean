/-
Signing PSBT v0 in a world with stateful key providers and random nonces (feature `rand`): src/v0/bitcoin/mod.rs:298-494.
-/
import Verif.Model.V0.Sign
import Verif.Model.World
namespace Psbt.V0
variable {L : Lib} {S : SigLib L} (W : World S)

/-- `Psbt::bip32_sign_ecdsa` after the signature hash `res` was computed, src/v0/bitcoin/mod.rs:366-397. -/
def Psbt.signWithW (p : Psbt L) (n : Nat) (res : Except SignErr (Hash32 × EcdsaTy)) (s : W.σ) :
    Out Empty (Psbt L × Except SignErr (List L.pubkey.T)) × W.σ :=
  match p.inputs[n]? with
  | none => (.error (.panic "index out of bounds"), s)
  | some i =>
    match signLoopW W res i.bip32Derivation.l i.partialSigs [] s with
    | (.error e, s) => (.ok (p, .error e), s)
    | (.ok (sigs, used), s) => (.ok ({ p with inputs := p.inputs.set n { i with partialSigs := sigs } }, .ok used), s)

/-- `Psbt::bip32_sign_ecdsa`, src/v0/bitcoin/mod.rs:353-398. -/
def Psbt.bip32SignEcdsaW (p : Psbt L) (n : Nat) (tx : Tx) (s : W.σ) :
    Out Empty (Psbt L × Except SignErr (List L.pubkey.T)) × W.σ :=
  match p.sighashEcdsa n tx with
  | .error (.panic m) => (.error (.panic m), s)
  | .error (.err e) => p.signWithW W n (.error e) s
  | .ok m => p.signWithW W n (.ok m) s

/-- Signatures for the leaves of one key, src/v0/bitcoin/mod.rs:471-483. Each draws a random string. -/
def signLeavesW (msg : Option Hash32 → Out SignErr (Hash32 × TapTy)) (kp : S.Keypair) (x : L.xonly.T) :
    List Hash32 → BMap (L.xonly.T × Hash32) TapSig → Nat → Out SignErr (BMap (L.xonly.T × Hash32) TapSig) × Nat
  | [], sigs, c => (.ok sigs, c)
  | lh :: lhs, sigs, c =>
    match msg (some lh) with
    | .error e => (.error e, c)
    | .ok (m, ty) => signLeavesW msg kp x lhs (sigs.insert (x, lh) ⟨W.signAux m kp (W.aux c), ty⟩) (c + 1)

/-- The key path part for one key, src/v0/bitcoin/mod.rs:440-461. -/
def signKeyPathW (msg : Option Hash32 → Out SignErr (Hash32 × TapTy)) (i : Input L) (x : L.xonly.T) (lhs : List Hash32)
    (sk : S.SK) (sig : Option TapSig) (c : Nat) : Out SignErr (Option TapSig × List L.xonly.T) × Nat :=
  match i.tapInternalKey with
  | none => (.ok (sig, []), c)
  | some ik =>
    if ik = x ∧ lhs.isEmpty ∧ sig.isNone then
      match msg none with
      | .error e => (.error e, c)
      | .ok (m, ty) =>
        (.ok (some ⟨W.signAux m (S.tapTweak (S.keypair sk) i.tapMerkleRoot) (W.aux c), ty⟩, [ik]), c + 1)
    else (.ok (sig, []), c)

/-- The script path part for one key, src/v0/bitcoin/mod.rs:463-487. -/
def signScriptPathW (msg : Option Hash32 → Out SignErr (Hash32 × TapTy)) (i : Input L) (x : L.xonly.T)
    (sk : S.SK) (sigs : BMap (L.xonly.T × Hash32) TapSig) (c : Nat) :
    Out SignErr (BMap (L.xonly.T × Hash32) TapSig × List L.xonly.T) × Nat :=
  match i.tapKeyOrigins.get x with
  | none => (.ok (sigs, []), c)
  | some (lhs, _) =>
    let lhs := lhs.filter fun lh => (sigs.get (x, lh)).isNone
    if lhs.isEmpty then (.ok (sigs, []), c)
    else
      match signLeavesW W msg (S.keypair sk) x lhs sigs c with
      | (.error e, c) => (.error e, c)
      | (.ok sigs, c) => (.ok (sigs, [S.xonly (S.pub sk)]), c)

/-- The loop of `bip32_sign_schnorr`, src/v0/bitcoin/mod.rs:424-488; see `schnorrLoop`. -/
def schnorrLoopW (msg : Option Hash32 → Out SignErr (Hash32 × TapTy)) (i : Input L) :
    List (L.xonly.T × List Hash32 × KeySource) → Option TapSig → BMap (L.xonly.T × Hash32) TapSig → List L.xonly.T →
      W.State → Out SignErr (Option TapSig × BMap (L.xonly.T × Hash32) TapSig × List L.xonly.T) × W.State
  | [], sig, sigs, used, s => (.ok (sig, sigs, used), s)
  | (x, lhs, ks) :: ds, sig, sigs, used, (s, c) =>
    match W.ask s (.bip32 ks) with
    | (.ok (some sk), s) =>
      match signKeyPathW W msg i x lhs sk sig c with
      | (.error e, c) => (.error e, (s, c))
      | (.ok (sig, u), c) =>
        match signScriptPathW W msg i x sk sigs c with
        | (.error e, c) => (.error e, (s, c))
        | (.ok (sigs, v), c) => schnorrLoopW msg i ds sig sigs (used ++ u ++ v) (s, c)
    | (_, s) => schnorrLoopW msg i ds sig sigs used (s, c)

/-- `Psbt::bip32_sign_schnorr`, src/v0/bitcoin/mod.rs:408-494. The input is written back only at the end. -/
def Psbt.bip32SignSchnorrW (p : Psbt L) (n : Nat) (tx : Tx) (s : W.State) :
    Out Empty (Psbt L × Except SignErr (List L.xonly.T)) × W.State :=
  match p.checkedInput n with
  | .error (.panic m) => (.error (.panic m), s)
  | .error (.err e) => (.ok (p, .error e), s)
  | .ok i =>
    match schnorrLoopW W (p.sighashTaproot n tx) i i.tapKeyOrigins.l i.tapKeySig i.tapScriptSigs [] s with
    | (.error (.panic m), s) => (.error (.panic m), s)
    | (.error (.err e), s) => (.ok (p, .error e), s)
    | (.ok (sig, sigs, used), s) =>
      (.ok ({ p with inputs := p.inputs.set n { i with tapKeySig := sig, tapScriptSigs := sigs } }, .ok used), s)

/-- One pass of the loop of `sign`, src/v0/bitcoin/mod.rs:312-337. -/
def signStepW (tx : Tx) (t : Signing L) (n : Nat) (s : W.State) : Out Empty (Signing L) × W.State :=
  match t.psbt.signingAlgorithm n with
  | .error (.panic m) => (.error (.panic m), s)
  | .error (.err e) => (.ok { t with errors := t.errors.insert n e }, s)
  | .ok .ecdsa =>
    match t.psbt.bip32SignEcdsaW W n tx s.1 with
    | (.error e, s1) => (.error e, (s1, s.2))
    | (.ok (p, .ok v), s1) => (.ok { t with psbt := p, used := t.used.insert n (.ecdsa v) }, (s1, s.2))
    | (.ok (p, .error e), s1) => (.ok { t with psbt := p, errors := t.errors.insert n e }, (s1, s.2))
  | .ok .schnorr =>
    match t.psbt.bip32SignSchnorrW W n tx s with
    | (.error e, s) => (.error e, s)
    | (.ok (p, .ok v), s) => (.ok { t with psbt := p, used := t.used.insert n (.schnorr v) }, s)
    | (.ok (p, .error e), s) => (.ok { t with psbt := p, errors := t.errors.insert n e }, s)

/-- The loop of `sign`. -/
def signAllW (tx : Tx) : Signing L → List Nat → W.State → Out Empty (Signing L) × W.State
  | t, [], s => (.ok t, s)
  | t, n :: ns, s =>
    match signStepW W tx t n s with
    | (.error e, s) => (.error e, s)
    | (.ok t, s) => signAllW tx t ns s

/-- `Psbt::sign`, src/v0/bitcoin/mod.rs:298-344: the mutated PSBT and the result, and the state of the world afterwards. -/
def Psbt.signW (p : Psbt L) (s : W.State) :
    Out Empty (Psbt L × Except (BMap Nat (SigningKeys L) × BMap Nat SignErr) (BMap Nat (SigningKeys L))) × W.State :=
  match signAllW W p.unsignedTx ⟨p, .empty, .empty⟩ (List.range p.inputs.length) s with
  | (.error e, s) => (.error e, s)
  | (.ok t, s) => (.ok (t.psbt, if t.errors.isEmpty then .ok t.used else .error (t.used, t.errors)), s)

end Psbt.V0
