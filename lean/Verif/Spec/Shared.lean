/- Outputs of descriptors whose keys several signers have between them. -/
import Verif.Spec.FromDescriptor
import Verif.Spec.Signers
namespace Psbt.Spec.V0
open Psbt.V0 Psbt.Spec

variable {L : Lib} (U : UpdLib L) (S : SigLib L)

/-- The signer has the secret key of the public key `pk` of the descriptor: it gives it for the origin of the key. (If several keys
of the descriptor stand for `pk`, for the origin of each.) -/
def Has (prov : Provider S) (ks : List U.Key) (pk : L.pubkey.T) : Prop :=
  ∃ sk, S.pub sk = pk ∧ (∃ j ∈ ks, U.derive j = .ok pk) ∧
    ∀ j ∈ ks, ∀ q src, KeyIs U j q src → U.inner q = U.inner pk → answer (prov (.bip32 src)) = some sk

variable (enough : MsCtx → Bytes → List L.pubkey.T → Prop)

/-- Together the signers have the keys to spend outputs of the descriptor: its only key; keys that are enough for its
script; or, for taproot, the internal key, which no leaf has, and no signer takes another key for it. -/
inductive SharedKeys (ks : List (Provider S)) : Descriptor U.Shape U.Key → Prop
  | pkh {k pk} : U.derive k = .ok pk → (∃ prov ∈ ks, Has U S prov [k] pk) → SharedKeys ks (.plain (.pkh k))
  | wpkh {k pk} : U.derive k = .ok pk → (∃ prov ∈ ks, Has U S prov [k] pk) → SharedKeys ks (.plain (.wpkh k))
  | shWpkh {k pk} : U.derive k = .ok pk → (∃ prov ∈ ks, Has U S prov [k] pk) → SharedKeys ks (.plain (.shWpkh k))
  | wsh {m x keys} : MiniIs U m x → enough .segwitv0 (U.encode x) keys → (∀ pk ∈ keys, ∃ prov ∈ ks, Has U S prov m.keys pk) →
      SharedKeys ks (.plain (.wsh m))
  | shWsh {m x keys} : MiniIs U m x → enough .segwitv0 (U.encode x) keys → (∀ pk ∈ keys, ∃ prov ∈ ks, Has U S prov m.keys pk) →
      SharedKeys ks (.plain (.shWsh m))
  | sh {m x keys} : MiniIs U m x → enough .legacy (U.encode x) keys → (∀ pk ∈ keys, ∃ prov ∈ ks, Has U S prov m.keys pk) →
      ¬ P2wpkh (U.encode x) → ¬ P2wsh (U.encode x) → SharedKeys ks (.plain (.sh m))
  | tr {k pk src ls} : KeyIs U k pk src → (∃ prov ∈ ks, ∃ sk, answer (prov (.bip32 src)) = some sk) →
      (∀ prov ∈ ks, ∀ sk, answer (prov (.bip32 src)) = some sk → S.pub sk = pk) →
      (∀ h, ¬ InLeaf U ls (U.xonly pk) h) → SharedKeys ks (.tr k ls)

/-- The signers can spend the coin, by the input of `tx` at `n`. Its script is that of the descriptor, whose keys have derivation
paths, and the UTXO fields are right. -/
structure SharedCoin (ks : List (Provider S)) (tx : Tx) (n : Nat) (c : Coin U) : Prop where
  keys : SharedKeys U S enough ks c.descr
  script : ScriptOf U c.descr c.out.scriptPubkey
  definite : Definite U c.descr
  utxo : ∀ t, tx.input[n]? = some t → UtxoAgree (Segwit c.descr) t
    { Input.default L with nonWitnessUtxo := c.nonWitnessUtxo, witnessUtxo := c.witnessUtxo } c.out

end Psbt.Spec.V0
