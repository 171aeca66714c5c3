/- Signing PSBT v2 with stateful key providers: src/v2/mod.rs:469-482, 728-817. -/
import Verif.Model.World
namespace Psbt.V2
variable {L : Lib} {S : SigLib L} (W : World S)

/-- `bip32_sign_ecdsa` after the signature hash `res` was computed, src/v2/mod.rs:784-816. -/
def Psbt.signWithW (p : Psbt L) (n : Nat) (res : Except SignErr (Hash32 × EcdsaTy)) (s : W.σ) :
    Out Empty (Psbt L × Except SignErr (List L.pubkey.T)) × W.σ :=
  match p.inputs[n]? with
  | none => (.error (.panic "index out of bounds"), s)
  | some i =>
    match signLoopW W res i.bip32Derivations.l i.partialSigs [] s with
    | (.error e, s) => (.ok (p, .error e), s)
    | (.ok (sigs, used), s) =>
      match res with
      | .error _ => (.error (.panic "at this stage we know its ok"), s)
      | .ok (_, ty) =>
        (.ok (Psbt.clearTxModifiable { p with inputs := p.inputs.set n { i with partialSigs := sigs } } ty.1, .ok used), s)

/-- `Psbt::bip32_sign_ecdsa`, src/v2/mod.rs:769-817. -/
def Psbt.bip32SignEcdsaW (p : Psbt L) (n : Nat) (tx : Tx) (s : W.σ) :
    Out Empty (Psbt L × Except SignErr (List L.pubkey.T)) × W.σ :=
  match p.sighashEcdsa n tx with
  | .error (.panic m) => (.error (.panic m), s)
  | .error (.err e) => p.signWithW W n (.error e) s
  | .ok m => p.signWithW W n (.ok m) s

/-- One pass of the loop of `sign`, src/v2/mod.rs:743-754. -/
def signStepW (tx : Tx) (t : Signing L) (n : Nat) (s : W.σ) : Out Empty (Signing L) × W.σ :=
  match t.psbt.signingAlgorithm n with
  | .error (.panic m) => (.error (.panic m), s)
  | .ok .ecdsa =>
    match t.psbt.bip32SignEcdsaW W n tx s with
    | (.error e, s) => (.error e, s)
    | (.ok (p, .ok v), s) => (.ok { t with psbt := p, used := t.used.insert n v }, s)
    | (.ok (p, .error e), s) => (.ok { t with psbt := p, errors := t.errors.insert n e }, s)
  | _ => (.ok t, s)

/-- The loop of `sign`. -/
def signAllW (tx : Tx) : Signing L → List Nat → W.σ → Out Empty (Signing L) × W.σ
  | t, [], s => (.ok t, s)
  | t, n :: ns, s =>
    match signStepW W tx t n s with
    | (.error e, s) => (.error e, s)
    | (.ok t, s) => signAllW tx t ns s

/-- `Psbt::sign`, src/v2/mod.rs:728-760: the mutated PSBT and the result, and the provider afterwards. -/
def Psbt.signW (p : Psbt L) (tx : Tx) (s : W.σ) :
    Out Empty (Psbt L × Except (BMap Nat (List L.pubkey.T) × BMap Nat SignErr) (BMap Nat (List L.pubkey.T))) × W.σ :=
  match signAllW W tx ⟨p, .empty, .empty⟩ (List.range p.global.inputCount.toNat) s with
  | (.error e, s) => (.error e, s)
  | (.ok t, s) => (.ok (t.psbt, if t.errors.isEmpty then .ok t.used else .error (t.used, t.errors)), s)

end Psbt.V2
