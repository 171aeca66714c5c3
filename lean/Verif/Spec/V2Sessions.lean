/- Inputs of a PSBT v2 that several signers can spend together. -/
import Verif.Spec.Signers
import Verif.Spec.Sessions
import Verif.Spec.V2Complete
namespace Psbt.Spec
open Psbt.V2

variable {L : Lib} (S : SigLib L) (enough : MsCtx → Bytes → List L.pubkey.T → Prop)

/-- One of the signers has the secret key of `pk` for the input. -/
def SomeSigner (ks : List (Provider S)) (i : Input L) (pk : L.pubkey.T) : Prop := ∃ k ∈ ks, ∃ sk ∈ keysFor S k i, S.pub sk = pk

/-- How the input is spent with a witness of ECDSA signatures, all of whose keys some signer has. -/
inductive WitnessSpend (ks : List (Provider S)) (i : Input L) (spk : Bytes) : Prop
  | wpkh {pk} : CommitsWpkh spk pk → SomeSigner S ks i pk → WitnessSpend ks i spk
  | shWpkh {r pk} : CommitsSh L spk r → i.redeemScript = some r → CommitsWpkh r pk → SomeSigner S ks i pk → WitnessSpend ks i spk
  | wsh {w keys} : CommitsWsh L spk w → i.redeemScript = none → i.witnessScript = some w → enough .segwitv0 w keys →
      (∀ pk ∈ keys, SomeSigner S ks i pk) → WitnessSpend ks i spk
  | shWsh {r w keys} : CommitsSh L spk r → i.redeemScript = some r → CommitsWsh L r w → i.witnessScript = some w →
      enough .segwitv0 w keys → (∀ pk ∈ keys, SomeSigner S ks i pk) → WitnessSpend ks i spk

/-- The signers can spend the input at `n`, which has a witness UTXO and no signatures yet. -/
def CanSpend (ks : List (Provider S)) (p : Psbt L) (n : Nat) : Prop :=
  ∃ i u ty, HasInput p n i ∧ i.witnessUtxo = some u ∧ i.partialSigs = .empty ∧ DeclaredType i ty ∧
    WitnessSpend S enough ks i u.scriptPubkey


end Psbt.Spec
