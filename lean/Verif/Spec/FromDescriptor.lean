/- Spending outputs of descriptors with one key: what is given, and the script sigs and witnesses that come out. -/
import Verif.Spec.Complete
import Verif.Spec.V0Update
namespace Psbt.Spec.V0
open Psbt.V0 Psbt.Spec

variable {L : Lib} (U : UpdLib L) (S : SigLib L) (prov : Provider S) (out : S.Keypair → FixedBytes 32)

/-- An output to spend: its descriptor, the output, and what the input says about it in the two UTXO fields. -/
structure Coin where
  descr : Descriptor U.Shape U.Key
  out : TxOut
  nonWitnessUtxo : Option Tx
  witnessUtxo : Option TxOut

/-- The PSBT with the UTXO fields of its inputs set. -/
def fund {U : UpdLib L} (p : Psbt L) (cs : List (Coin U)) : Psbt L :=
  { p with inputs := List.zipWith (fun i c =>
      { i with nonWitnessUtxo := c.nonWitnessUtxo, witnessUtxo := c.witnessUtxo }) p.inputs cs }

/-- Updating the inputs from index `n` on, each with the descriptor of its coin, succeeds. -/
inductive UpdatesAll : Psbt L → Nat → List (Coin U) → Psbt L → Prop
  | nil {p n} : UpdatesAll p n [] p
  | cons {p q r n c cs} : p.updateInput U n c.descr = .ok (q, .ok ()) → UpdatesAll q (n + 1) cs r →
      UpdatesAll p n (c :: cs) r

/-- The provider has the secret key of a descriptor's key: it gives it for the key's origin. -/
def Holds (k : U.Key) (sk : S.SK) : Prop := ∃ src, KeyIs U k (S.pub sk) src ∧ answer (prov (.bip32 src)) = some sk

/-- The descriptor has one key (or is spent by its internal key, which no leaf has), and the provider has it. -/
inductive OneKey : Descriptor U.Shape U.Key → Prop
  | pkh {k sk} : Holds U S prov k sk → OneKey (.plain (.pkh k))
  | wpkh {k sk} : Holds U S prov k sk → OneKey (.plain (.wpkh k))
  | shWpkh {k sk} : Holds U S prov k sk → OneKey (.plain (.shWpkh k))
  | tr {k sk ls} : Holds U S prov k sk → (∀ h, ¬ InLeaf U ls (U.xonly (S.pub sk)) h) → OneKey (.tr k ls)

/-- The coin can be spent with one key, by the input of `tx` at `n`. Its script is that of the descriptor, whose keys have
derivation paths, and the UTXO fields are right. -/
structure Spendable (tx : Tx) (n : Nat) (c : Coin U) : Prop where
  key : OneKey U S prov c.descr
  script : ScriptOf U c.descr c.out.scriptPubkey
  definite : Definite U c.descr
  utxo : ∀ t, tx.input[n]? = some t → UtxoAgree (Segwit c.descr) t
    { Input.default L with nonWitnessUtxo := c.nonWitnessUtxo, witnessUtxo := c.witnessUtxo } c.out

/-- The script sig and the witness that spend an output of a descriptor with one key, in the input of `tx` at `n`; `us` are
the outputs the inputs spend. The sighash types are ALL and, for taproot, DEFAULT. -/
inductive SpentBy (tx : Tx) (us : List TxOut) (n : Nat) (u : TxOut) : Descriptor U.Shape U.Key → Bytes → List Bytes → Prop
  | pkh {k sk m} {ty : EcdsaTy} : Holds U S prov k sk → ty.1 = 0x01 → legacySighash L tx n u.scriptPubkey ty = some m →
      SpentBy tx us n u (.plain (.pkh k)) (push (ecdsaBytes S m sk ty) ++ push (S.pub sk).bytes) []
  | wpkh {k sk m} {ty : EcdsaTy} : Holds U S prov k sk → ty.1 = 0x01 →
      segwitSighash L tx n (keyCode (S.pub sk)) u.value ty = some m →
      SpentBy tx us n u (.plain (.wpkh k)) [] [ecdsaBytes S m sk ty, (S.pub sk).bytes]
  | shWpkh {k sk m} {ty : EcdsaTy} : Holds U S prov k sk → ty.1 = 0x01 →
      segwitSighash L tx n (keyCode (S.pub sk)) u.value ty = some m →
      SpentBy tx us n u (.plain (.shWpkh k)) (push ([0x00, 0x14] ++ (L.hash160 (S.pub sk).bytes).1))
        [ecdsaBytes S m sk ty, (S.pub sk).bytes]
  | tr {k sk ls xs r m} {ty : TapTy} : Holds U S prov k sk → LeavesAre U ls xs → MerkleRoot L (treeOf U xs) r → ty.1 = 0x00 →
      tapSighash L tx n (.all us) none ty = .ok m →
      SpentBy tx us n u (.tr k ls) [] [schnorrBytes S m (S.tapTweak (S.keypair sk) r) ty]

/-- Public and secret keys are tweaked alike. -/
def TweakLaw : Prop := ∀ sk root, (U.outputKey (U.xonly (S.pub sk)) root).bytes = (out (S.tapTweak (S.keypair sk) root)).1

end Psbt.Spec.V0
