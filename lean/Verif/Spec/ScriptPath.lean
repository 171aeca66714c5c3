/- Taproot outputs that several signers can spend together by one of the scripts, and what this takes from rust-miniscript. -/
import Verif.Spec.Shared
import Verif.Spec.TapSpend
namespace Psbt.Spec
open Psbt

variable {L : Lib}

/-- The signatures for the leaf `lh` are made with the secret keys of their public keys, over `m`, with this sighash type. -/
def GoodLeafSigs (S : SigLib L) (sat : Satisfier L) (lh m : Hash32) (ty : TapTy) : Prop :=
  ∀ x sig, sat.tapLeafScriptSig x lh = some sig → ∃ sk, S.xonly (S.pub sk) = x ∧ sig = ⟨S.signSchnorr m (S.keypair sk), ty⟩

/-- What is expected of rust-miniscript for leaf scripts that need nothing but signatures, of keys that are written out, such as
`multi_a`. `enough s keys`: `s` is such a script, and signatures of these keys suffice. Then it is a miniscript that is
written as it was read, signatures that include those of the keys satisfy it, and the interpreter accepts what comes out,
with the script and a control block that `proves` that the output commits to the script. -/
structure LeafLaws (S : SigLib L) (M : MsLib L) (enough : Bytes → List L.xonly.T → Prop)
    (proves : Bytes → Bytes → Bytes → LeafVersion → Prop) : Prop where
  parse : ∀ s keys, enough s keys → ∃ ms, M.tapParse s = some ms ∧ ∀ map, M.tapEncode (M.tapSubstitute map ms) = s
  satisfy : ∀ mall s keys ms map sat, enough s keys → M.tapParse s = some ms →
    (∀ x ∈ keys, sat.tapLeafScriptSig x (V0.leafHash L s) ≠ none) → M.tapSatisfy mall (M.tapSubstitute map ms) sat ≠ none
  run : ∀ mall s keys ms map sat stack cb u m ty csv cltv tx n us q, enough s keys → M.tapParse s = some ms →
    M.tapSatisfy mall (M.tapSubstitute map ms) sat = some stack → proves u.scriptPubkey cb s ⟨0xc0, by decide⟩ →
    us.length = tx.input.length → us[n]? = some u → (q = .all us ∨ q = .one n u) →
    tapSighash L tx n q (some (V0.leafHash L s)) ty = .ok m → GoodLeafSigs S sat (V0.leafHash L s) m ty →
    M.interp ⟨u.scriptPubkey, [], stack ++ [s, cb], csv, cltv, tx, n, us⟩ = none

namespace V0
open Psbt.V0

variable (S : SigLib L) (out : S.Keypair → FixedBytes 32) (enough : Bytes → List L.xonly.T → Prop)
  (proves : Bytes → Bytes → Bytes → LeafVersion → Prop)

/-- One of the signers has a secret key for the public key `x` in the leaf `lh`. -/
def LeafSigner (ks : List (Provider S)) (i : Input L) (x : L.xonly.T) (lh : Hash32) : Prop := ∃ k ∈ ks, leafKey S k i x lh ≠ none

/-- The signers can spend the taproot input at `n`, which has no signatures yet, by a script: the scripts in the input are
those of the output and need nothing but signatures, and for one of them some signer has each of the keys that suffice.
All that have a key for a leaf, or for the key path, have the right one. -/
structure LeafSpend (ks : List (Provider S)) (p : Psbt L) (n : Nat) (t : TxIn) (i : Input L) (u : TxOut) : Prop where
  input : HasInput p n t i
  funded : FundedBy t i u
  unsigned : i.tapKeySig = none ∧ i.tapScriptSigs = .empty
  message : ∃ m ty, TapSigns p n none m ty
  scripts : ∀ cb s, i.tapScripts.get cb = some (s, ⟨0xc0, by decide⟩) →
    proves u.scriptPubkey cb.bytes s ⟨0xc0, by decide⟩ ∧ ∃ keys, enough s keys
  one : ∃ (cb : L.ctrl.T) (s : Bytes) (keys : List L.xonly.T), i.tapScripts.get cb = some (s, ⟨0xc0, by decide⟩) ∧ enough s keys ∧
    ∀ x ∈ keys, LeafSigner S ks i x (leafHash L s)
  leafKeys : ∀ k ∈ ks, ∀ x lh sk, leafKey S k i x lh = some sk → S.xonly (S.pub sk) = x
  pathKeys : ∀ k ∈ ks, ∀ sk, keyPathKey S k i = some sk →
    u.scriptPubkey = [0x51, 0x20] ++ (out (S.tapTweak (S.keypair sk) i.tapMerkleRoot)).1

/-- The signers can spend the input at `n`: as in C91, or by a script of a taproot output. -/
inductive CanSpendAny (enough' : MsCtx → Bytes → List L.pubkey.T → Prop) (ks : List (Provider S)) (p : Psbt L) (n : Nat) : Prop
  | known : CanSpend S enough' out ks p n → CanSpendAny enough' ks p n
  | leaf {t i u} : LeafSpend S out enough proves ks p n t i u → CanSpendAny enough' ks p n

variable (U : UpdLib L)

/-- The signer has the secret key of the x-only key `x` of leaves with these keys: it gives it for the origin of the first key that
stands for `x`. -/
def HasX (prov : Provider S) (ks : List U.Key) (x : L.xonly.T) : Prop :=
  ∃ sk src, FirstOrigin U ks x src ∧ answer (prov (.bip32 src)) = some sk

/-- Together the signers have the keys to spend outputs of a taproot descriptor by one of its leaves. All leaves need nothing but
signatures, and the signers take no wrong keys for the origins of the descriptor's keys. -/
structure SharedLeaf (ks : List (Provider S)) (ik : U.Key) (ls : List (UInt8 × Mini U.Shape U.Key)) : Prop where
  leaves : ∀ l ∈ ls, ∃ x keys, MiniIs U l.2 x ∧ enough (U.tapEncode x) keys
  one : ∃ l ∈ ls, ∃ x keys, MiniIs U l.2 x ∧ enough (U.tapEncode x) keys ∧
    ∀ k ∈ keys, (∃ pk ∈ x.keys, U.xonly pk = k) ∧ ∃ prov ∈ ks, HasX S U prov (ik :: leafKeys ls) k
  right : ∀ k ∈ ik :: V0.leafKeys ls, ∀ pk src, KeyIs U k pk src → ∀ prov ∈ ks, ∀ sk, answer (prov (.bip32 src)) = some sk → S.pub sk = pk

/-- The signers can spend the coin, by the input of `tx` at `n`: as in C97, or by a script of a taproot descriptor, unless strings
hashed for the script tree collide. -/
inductive SharedAny (enough' : MsCtx → Bytes → List L.pubkey.T → Prop) (ks : List (Provider S)) (tx : Tx) (n : Nat) (c : Coin U) : Prop
  | known : SharedCoin U S enough' ks tx n c → SharedAny enough' ks tx n c
  | leaf {ik ls} : c.descr = .tr ik ls → SharedLeaf S enough U ks ik ls →
      (∀ xs (T : Tree), LeavesAre U ls xs → T.height ≤ 128 → treeOf U xs = T.list 0 → CollisionFree L (T.hashed L)) →
      ScriptOf U c.descr c.out.scriptPubkey → Definite U c.descr →
      (∀ t, tx.input[n]? = some t → UtxoAgree True t
        { Input.default L with nonWitnessUtxo := c.nonWitnessUtxo, witnessUtxo := c.witnessUtxo } c.out) →
      SharedAny enough' ks tx n c

/-- Both libraries make the same x-only key of a public key. -/
def XonlyLaw : Prop := ∀ pk, U.xonly pk = S.xonly pk

end V0
end Psbt.Spec
