/-
Inputs spent by one key that is at hand, what they look like once they are final, and what this takes from signatures,
rust-miniscript and its interpreter.
-/
import Verif.Spec.V0Finalize
namespace Psbt.Spec
open Psbt

variable {L : Lib}

/-- A push of up to 75 bytes; signatures and keys have at most 73. -/
def push (b : Bytes) : Bytes := UInt8.ofNat b.length :: b

/-- The script that a P2WPKH input is signed for. -/
def keyCode (pk : L.pubkey.T) : Bytes := [0x76, 0xa9, 0x14] ++ (L.hash160 pk.bytes).1 ++ [0x88, 0xac]

/-- An ECDSA signature in a script sig or a witness. -/
def ecdsaBytes (S : SigLib L) (m : Hash32) (sk : S.SK) (ty : EcdsaTy) : Bytes := (S.signEcdsa m sk).bytes ++ [ty.1]
/-- A Schnorr signature in a witness. -/
def schnorrBytes (S : SigLib L) (m : Hash32) (kp : S.Keypair) (ty : TapTy) : Bytes :=
  (S.signSchnorr m kp).1 ++ if ty.1 = 0 then [] else [ty.1]

/-- What is expected of the libraries, for spends with one key. rust-miniscript makes descriptors of keys (compressed ones
for segwit) and satisfies them with the key's signature. The interpreter accepts a script sig and a witness that have the
key and a signature made with its secret key, over the message of this input of this transaction; `out` is the x-only
public key of a key pair. -/
structure KeyLaws (S : SigLib L) (M : MsLib L) (out : S.Keypair → FixedBytes 32) : Prop where
  accepts : ∀ pk, M.accepts (.pkh pk) = true ∧
    (pk.bytes.length = 33 → M.accepts (.wpkh pk) = true ∧ M.accepts (.shWpkh pk) = true)
  pkh : ∀ mall pk sat sig, sat.ecdsaSig pk = some sig →
    M.satisfy mall (.pkh pk) sat = some ([], push (sig.der.bytes ++ [sig.ty.1]) ++ push pk.bytes)
  wpkh : ∀ mall pk sat sig, pk.bytes.length = 33 → sat.ecdsaSig pk = some sig →
    M.satisfy mall (.wpkh pk) sat = some ([sig.der.bytes ++ [sig.ty.1], pk.bytes], [])
  shWpkh : ∀ mall pk sat sig, pk.bytes.length = 33 → sat.ecdsaSig pk = some sig →
    M.satisfy mall (.shWpkh pk) sat =
      some ([sig.der.bytes ++ [sig.ty.1], pk.bytes], push ([0x00, 0x14] ++ (L.hash160 pk.bytes).1))
  runPkh : ∀ sk m ty spk csv cltv tx n us, CommitsPkh spk (S.pub sk) → us.length = tx.input.length →
    us[n]?.map TxOut.scriptPubkey = some spk → legacySighash L tx n spk ty = some m →
    M.interp ⟨spk, push (ecdsaBytes S m sk ty) ++ push (S.pub sk).bytes, [], csv, cltv, tx, n, us⟩ = none
  runWpkh : ∀ sk m ty u csv cltv tx n us, CommitsWpkh u.scriptPubkey (S.pub sk) → us.length = tx.input.length →
    us[n]? = some u → segwitSighash L tx n (keyCode (S.pub sk)) u.value ty = some m →
    M.interp ⟨u.scriptPubkey, [], [ecdsaBytes S m sk ty, (S.pub sk).bytes], csv, cltv, tx, n, us⟩ = none
  runShWpkh : ∀ sk m ty u r csv cltv tx n us, CommitsSh L u.scriptPubkey r → CommitsWpkh r (S.pub sk) →
    us.length = tx.input.length → us[n]? = some u → segwitSighash L tx n (keyCode (S.pub sk)) u.value ty = some m →
    M.interp ⟨u.scriptPubkey, push r, [ecdsaBytes S m sk ty, (S.pub sk).bytes], csv, cltv, tx, n, us⟩ = none
  runTr : ∀ kp m ty u csv cltv tx n us q, u.scriptPubkey = [0x51, 0x20] ++ (out kp).1 → us.length = tx.input.length →
    us[n]? = some u → (q = .all us ∨ q = .one n u) → tapSighash L tx n q none ty = .ok m →
    M.interp ⟨u.scriptPubkey, [], [schnorrBytes S m kp ty], csv, cltv, tx, n, us⟩ = none

namespace V0
open Psbt.V0

variable (S : SigLib L) (k : Provider S) (out : S.Keypair → FixedBytes 32)

/-- The input at `n` spends an output to one key, the provider has this key, there is nothing of other signers yet, and
there is a message to sign. Last, the script sig and the witness it is to be spent with. -/
inductive KeyInput (p : Psbt L) (n : Nat) : Bytes → List Bytes → Prop
  | pkh {t i u sk ty m} : HasInput p n t i → FundedBy t i u → i.partialSigs = .empty → keysFor S k i = [sk] →
      DeclaredType i ty → CommitsPkh u.scriptPubkey (S.pub sk) →
      legacySighash L p.unsignedTx n u.scriptPubkey ty = some m →
      KeyInput p n (push (ecdsaBytes S m sk ty) ++ push (S.pub sk).bytes) []
  | wpkh {t i u sk ty m} : HasInput p n t i → FundedBy t i u → i.partialSigs = .empty → keysFor S k i = [sk] →
      DeclaredType i ty → CommitsWpkh u.scriptPubkey (S.pub sk) →
      segwitSighash L p.unsignedTx n (keyCode (S.pub sk)) u.value ty = some m →
      KeyInput p n [] [ecdsaBytes S m sk ty, (S.pub sk).bytes]
  | shWpkh {t i u r sk ty m} : HasInput p n t i → FundedBy t i u → i.partialSigs = .empty → keysFor S k i = [sk] →
      DeclaredType i ty → CommitsSh L u.scriptPubkey r → i.redeemScript = some r → CommitsWpkh r (S.pub sk) →
      segwitSighash L p.unsignedTx n (keyCode (S.pub sk)) u.value ty = some m →
      KeyInput p n (push r) [ecdsaBytes S m sk ty, (S.pub sk).bytes]
  | tr {t i u sk ty m} : HasInput p n t i → FundedBy t i u → keyPathKey S k i = some sk → TapSigns p n none m ty →
      u.scriptPubkey = [0x51, 0x20] ++ (out (S.tapTweak (S.keypair sk) i.tapMerkleRoot)).1 →
      KeyInput p n [] [schnorrBytes S m (S.tapTweak (S.keypair sk) i.tapMerkleRoot) ty]

end V0
end Psbt.Spec
