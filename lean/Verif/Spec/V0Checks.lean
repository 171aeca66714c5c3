/- What a signer has to check in a PSBT v0, from the Signer section of BIP-174. -/
import Verif.Spec.Encoding
import Verif.Model.V0.Checks
import Verif.Spec.V0Sign
namespace Psbt.Spec.V0
open Psbt.V0 Psbt.Spec

variable {L : Lib}

/-- `spk` is the P2SH output script for the redeem script `r`. -/
def P2shFor (L : Lib) (spk r : Bytes) : Prop := spk = [0xa9, 0x14] ++ (L.hash160 r).1 ++ [0x87]
/-- `s` is the P2WSH script for the witness script `w`. -/
def P2wshFor (L : Lib) (s w : Bytes) : Prop := s = [0x00, 0x20] ++ (L.sha256 w).1
/-- Is a spend of this type signed with witness signatures? -/
def WitnessSpend : OutputType → Prop
  | .bare | .sh => False
  | _ => True

/-- If a non-witness UTXO is provided, its hash matches the one in the prevout. -/
def UtxoMatches (t : TxIn) (i : Input L) : Prop := ∀ tx, i.nonWitnessUtxo = some tx → txid L tx = t.previousOutput.txid
/-- If a witness UTXO is provided, no non-witness signature will be created. -/
def WitnessOnly (i : Input L) : Prop :=
  ∀ u ty, i.witnessUtxo = some u → SpendType u.scriptPubkey i.redeemScript ty → WitnessSpend ty
/-- If a redeem script is provided, the output spent is for that script. -/
def RedeemMatches (t : TxIn) (i : Input L) : Prop := ∀ r, i.redeemScript = some r → ∃ u, FundedBy t i u ∧ P2shFor L u.scriptPubkey r
/-- If a witness script is provided, the output spent or the redeem script is for that script. -/
def WitnessScriptMatches (t : TxIn) (i : Input L) : Prop :=
  ∀ w, i.witnessScript = some w → ∃ u, FundedBy t i u ∧
    (P2wshFor L u.scriptPubkey w ∨ ∃ r, i.redeemScript = some r ∧ P2wshFor L r w)

/-- BIP-174: all four conditions, for every input. -/
def Consistent (p : Psbt L) : Prop :=
  ∀ n t i, HasInput p n t i → UtxoMatches t i ∧ WitnessOnly i ∧ RedeemMatches t i ∧ WitnessScriptMatches t i

/-- What the code checks of input `i` at index `n`. -/
def Passes (p : Psbt L) (n : Nat) (i : Input L) : Prop :=
  (∀ t u, HasInput p n t i → i.witnessUtxo = some u → ¬ SpendType u.scriptPubkey i.redeemScript .bare) ∧
  (i.nonWitnessUtxo ≠ none → ∃ t, HasInput p n t i ∧ UtxoMatches t i) ∧
  (∀ r, i.redeemScript = some r → ∃ u, i.witnessUtxo = some u ∧ P2shFor L u.scriptPubkey r) ∧
  (∀ w, i.witnessScript = some w → ∃ u, i.witnessUtxo = some u ∧
    (P2wsh u.scriptPubkey → P2wshFor L u.scriptPubkey w) ∧ (P2sh u.scriptPubkey → i.redeemScript = none))

/-- The reason an error gives for refusing input `i` at index `n`. -/
inductive Refused (p : Psbt L) (n : Nat) (i : Input L) : ChecksErr → Prop
  | nonWitnessSig {t u} : HasInput p n t i → i.witnessUtxo = some u → SpendType u.scriptPubkey i.redeemScript .bare →
      Refused p n i .nonWitnessSig
  | txid {t tx} : HasInput p n t i → i.nonWitnessUtxo = some tx → txid L tx ≠ t.previousOutput.txid →
      Refused p n i .nonWitnessUtxoTxidMismatch
  | redeem {u r} : i.witnessUtxo = some u → i.redeemScript = some r → ¬ P2shFor L u.scriptPubkey r → Refused p n i .redeemScriptMismatch
  | missing : i.witnessUtxo = none → (i.redeemScript ≠ none ∨ i.witnessScript ≠ none) → Refused p n i .missingTxOut
  | wsh {u w} : i.witnessUtxo = some u → i.witnessScript = some w → P2wsh u.scriptPubkey → ¬ P2wshFor L u.scriptPubkey w →
      Refused p n i .witnessScriptMismatchWsh
  | shWsh {u r w} : i.witnessUtxo = some u → i.witnessScript = some w → i.redeemScript = some r → P2sh u.scriptPubkey →
      Refused p n i .witnessScriptMismatchShWsh

end Psbt.Spec.V0
