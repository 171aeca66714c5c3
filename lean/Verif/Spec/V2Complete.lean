/-
Inputs of a PSBT v2 that one key at hand can spend. What they should look like once they are final, and what an interpreter
that is not fooled by signatures of other messages does.
-/
import Verif.Spec.Complete
import Verif.Spec.Interp
import Verif.Spec.Sign
namespace Psbt.Spec
open Psbt.V2

variable {L : Lib} (S : SigLib L) (k : Provider S)

/-- The input at `n` has a witness UTXO, the output `u` to the one key `sk` that the provider has for it (P2WPKH, also inside
P2SH). There are no signatures yet. `m` is the message to sign in `tx`, with sighash type `ty`; `s` is the script sig it is to
be spent with. -/
inductive OneKeyInput (p : Psbt L) (tx : Tx) (n : Nat) (u : TxOut) (sk : S.SK) (m : Hash32) (ty : EcdsaTy) : Bytes → Prop
  | wpkh {i} : HasInput p n i → i.witnessUtxo = some u → i.partialSigs = .empty → keysFor S k i = [sk] → DeclaredType i ty →
      CommitsWpkh u.scriptPubkey (S.pub sk) → segwitSighash L tx n (keyCode (S.pub sk)) u.value ty = some m →
      OneKeyInput p tx n u sk m ty []
  | shWpkh {i r} : HasInput p n i → i.witnessUtxo = some u → i.partialSigs = .empty → keysFor S k i = [sk] →
      DeclaredType i ty → CommitsSh L u.scriptPubkey r → i.redeemScript = some r → CommitsWpkh r (S.pub sk) →
      segwitSighash L tx n (keyCode (S.pub sk)) u.value ty = some m → OneKeyInput p tx n u sk m ty (push r)

/-- The witness it is to be spent with. -/
def oneKeyWitness (sk : S.SK) (m : Hash32) (ty : EcdsaTy) : List Bytes := [ecdsaBytes S m sk ty, (S.pub sk).bytes]

/-- No input states a sequence number other than zero, and the lock time is the fallback lock time. -/
def Plain (p : Psbt L) : Prop :=
  (∀ i ∈ p.inputs, i.sequence = none ∨ i.sequence = some 0) ∧ LockTime p (p.global.fallbackLockTime.getD 0)

/-- The interpreter accepts a signature only if the message that was signed is that of the transaction it is given. -/
structure Strict (M : MsLib L) : Prop where
  wpkh : ∀ sk m ty u csv cltv tx n us, CommitsWpkh u.scriptPubkey (S.pub sk) → us[n]? = some u →
    M.interp ⟨u.scriptPubkey, [], oneKeyWitness S sk m ty, csv, cltv, tx, n, us⟩ = none →
    segwitSighash L tx n (keyCode (S.pub sk)) u.value ty = some m
  shWpkh : ∀ sk m ty u r csv cltv tx n us, CommitsSh L u.scriptPubkey r → CommitsWpkh r (S.pub sk) → us[n]? = some u →
    M.interp ⟨u.scriptPubkey, push r, oneKeyWitness S sk m ty, csv, cltv, tx, n, us⟩ = none →
    segwitSighash L tx n (keyCode (S.pub sk)) u.value ty = some m

end Psbt.Spec
