/- Inputs that several signers can spend together, and what this takes from rust-miniscript for scripts with several keys. -/
import Verif.Spec.Complete
import Verif.Spec.V0Parallel
namespace Psbt.Spec
open Psbt

variable {L : Lib}

/-- The answers include a signature of each of the keys, and all signatures are made with the secret keys of their public
keys, over `m`, with this sighash type. -/
def GoodSigs (S : SigLib L) (sat : Satisfier L) (keys : List L.pubkey.T) (m : Hash32) (ty : EcdsaTy) : Prop :=
  (∀ pk ∈ keys, sat.ecdsaSig pk ≠ none) ∧
  ∀ pk sig, sat.ecdsaSig pk = some sig → ∃ sk, S.pub sk = pk ∧ sig = ⟨S.signEcdsa m sk, ty⟩

/-- What is expected of rust-miniscript for scripts that need nothing but signatures, of keys that are written out, such as
multisig. `enough ctx s keys`: `s` is such a script of the context, and signatures of these keys suffice. Then it
is a miniscript that descriptors can be made of, signatures that include those of the keys satisfy it, and the
interpreter accepts what comes out. -/
structure ScriptLaws (S : SigLib L) (M : MsLib L) (enough : MsCtx → Bytes → List L.pubkey.T → Prop) : Prop where
  segwit : ∀ w keys, enough .segwitv0 w keys → ∃ ms, M.parse .segwitv0 w = some ms ∧
    ∀ map, M.accepts (.wsh (M.substitute map ms)) = true ∧ M.accepts (.shWsh (M.substitute map ms)) = true
  legacy : ∀ r keys, enough .legacy r keys → ∃ ms, M.parse .legacy r = some ms ∧ M.accepts (.sh ms) = true
  wsh : ∀ mall w keys ms map sat u m ty csv cltv tx n us, enough .segwitv0 w keys → M.parse .segwitv0 w = some ms →
    CommitsWsh L u.scriptPubkey w → us.length = tx.input.length → us[n]? = some u →
    segwitSighash L tx n w u.value ty = some m → GoodSigs S sat keys m ty →
    ∃ wit, M.satisfy mall (.wsh (M.substitute map ms)) sat = some (wit, []) ∧ wit ≠ [] ∧
      M.interp ⟨u.scriptPubkey, [], wit, csv, cltv, tx, n, us⟩ = none
  shWsh : ∀ mall w keys ms map sat u r m ty csv cltv tx n us, enough .segwitv0 w keys → M.parse .segwitv0 w = some ms →
    CommitsSh L u.scriptPubkey r → CommitsWsh L r w → us.length = tx.input.length → us[n]? = some u →
    segwitSighash L tx n w u.value ty = some m → GoodSigs S sat keys m ty →
    ∃ wit, M.satisfy mall (.shWsh (M.substitute map ms)) sat = some (wit, push r) ∧ wit ≠ [] ∧
      M.interp ⟨u.scriptPubkey, push r, wit, csv, cltv, tx, n, us⟩ = none
  sh : ∀ mall r keys ms sat spk m ty csv cltv tx n us, enough .legacy r keys → M.parse .legacy r = some ms →
    CommitsSh L spk r → us.length = tx.input.length → us[n]?.map TxOut.scriptPubkey = some spk →
    legacySighash L tx n r ty = some m → GoodSigs S sat keys m ty →
    ∃ sig, M.satisfy mall (.sh ms) sat = some ([], sig) ∧ sig ≠ [] ∧ M.interp ⟨spk, sig, [], csv, cltv, tx, n, us⟩ = none

namespace V0
open Psbt.V0

variable (S : SigLib L) (enough : MsCtx → Bytes → List L.pubkey.T → Prop) (out : S.Keypair → FixedBytes 32)

/-- One of the signers has the secret key of `pk` for the input. -/
def Someone (ks : List (Provider S)) (i : Input L) (pk : L.pubkey.T) : Prop := ∃ k ∈ ks, ∃ sk ∈ keysFor S k i, S.pub sk = pk

/-- How the input at `n` is spent with ECDSA signatures, all of whose keys some signer has. -/
inductive EcdsaSpend (ks : List (Provider S)) (i : Input L) (spk : Bytes) : Prop
  | pkh {pk} : CommitsPkh spk pk → Someone S ks i pk → EcdsaSpend ks i spk
  | wpkh {pk} : CommitsWpkh spk pk → Someone S ks i pk → EcdsaSpend ks i spk
  | shWpkh {r pk} : CommitsSh L spk r → i.redeemScript = some r → CommitsWpkh r pk → Someone S ks i pk → EcdsaSpend ks i spk
  | wsh {w keys} : CommitsWsh L spk w → i.redeemScript = none → i.witnessScript = some w → enough .segwitv0 w keys →
      (∀ pk ∈ keys, Someone S ks i pk) → EcdsaSpend ks i spk
  | shWsh {r w keys} : CommitsSh L spk r → i.redeemScript = some r → CommitsWsh L r w → i.witnessScript = some w →
      enough .segwitv0 w keys → (∀ pk ∈ keys, Someone S ks i pk) → EcdsaSpend ks i spk
  | sh {r keys} : CommitsSh L spk r → i.redeemScript = some r → ¬ P2wpkh r → ¬ P2wsh r → i.witnessScript = none →
      enough .legacy r keys → (∀ pk ∈ keys, Someone S ks i pk) → EcdsaSpend ks i spk

/-- The signers can spend the input at `n`, which has no signatures yet: with ECDSA signatures, or by the key path of
taproot, where all that have a key for it have the right one. -/
inductive CanSpend (ks : List (Provider S)) (p : Psbt L) (n : Nat) : Prop
  | ecdsa {t i u ty} : HasInput p n t i → FundedBy t i u → i.partialSigs = .empty → DeclaredType i ty →
      EcdsaSpend S enough ks i u.scriptPubkey → CanSpend ks p n
  | tr {t i u m ty} : HasInput p n t i → FundedBy t i u → i.tapKeySig = none → TapSigns p n none m ty →
      (∃ k ∈ ks, keyPathKey S k i ≠ none) →
      (∀ k ∈ ks, ∀ sk, keyPathKey S k i = some sk →
        u.scriptPubkey = [0x51, 0x20] ++ (out (S.tapTweak (S.keypair sk) i.tapMerkleRoot)).1) → CanSpend ks p n

end V0
end Psbt.Spec
