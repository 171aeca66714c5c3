/- What finalizing a PSBT v2 gives, input by input. -/
import Verif.Spec.Finalize
import Verif.Spec.Fee
import Verif.Spec.LockTime
import Verif.Model.V2.Finalize
namespace Psbt.Spec
open Psbt.V2

variable {L : Lib} (M : MsLib L)

/-- The keys known from the BIP-32 derivations of all inputs, in order. -/
def derivationKeys (p : Psbt L) : List L.secpPk.T := p.inputs.flatMap fun j => j.bip32Derivations.l.map Prod.fst

/-- What an input holds. -/
def held (i : Input L) : Held L :=
  ⟨i.tapKeySig, i.tapScriptSigs, i.tapScripts, i.partialSigs, i.bip32Derivations.l.map Prod.fst, i.ripemd160Preimages,
    i.sha256Preimages, i.hash160Preimages, i.hash256Preimages⟩

/-- The script sig and the witness an input is finalized with, or why there are none. -/
inductive Scripts (p : Psbt L) (i : Input L) : Except (MsInputErr L) (Bytes × List Bytes) → Prop
  | tap {u w} : FundedBy i u → P2tr u.scriptPubkey →
      TapResult M true (tapHashMap (i.tapKeyOrigins.l.map Prod.fst)) (i.satisfier M) (.ok w) → Scripts p i (.ok ([], w))
  | tapFails {u e} : FundedBy i u → P2tr u.scriptPubkey →
      TapResult M true (tapHashMap (i.tapKeyOrigins.l.map Prod.fst)) (i.satisfier M) (.error e) → Scripts p i (.error e)
  | other {u d s w} : FundedBy i u → ¬ P2tr u.scriptPubkey →
      Descr M (hashMap M (derivationKeys p)) i.partialSigs.l u.scriptPubkey i.redeemScript i.witnessScript (.ok d) →
      M.satisfy true d (i.satisfier M) = some (w, s) → Scripts p i (.ok (s, w))
  | otherFails {u e} : FundedBy i u → ¬ P2tr u.scriptPubkey →
      Descr M (hashMap M (derivationKeys p)) i.partialSigs.l u.scriptPubkey i.redeemScript i.witnessScript (.error e) →
      Scripts p i (.error e)
  | unsatisfied {u d} : FundedBy i u → ¬ P2tr u.scriptPubkey →
      Descr M (hashMap M (derivationKeys p)) i.partialSigs.l u.scriptPubkey i.redeemScript i.witnessScript (.ok d) →
      M.satisfy true d (i.satisfier M) = none → Scripts p i (.error .miniscript)

/-- An input that has the outpoint and the UTXO fields of `i`, the given final scripts, and nothing else. -/
def onlyFinal (i : Input L) (scriptSig : Option Bytes) (witness : Option (List Bytes)) : Input L :=
  { Input.new L ⟨i.previousTxid, i.spentOutputIndex⟩ with
    nonWitnessUtxo := i.nonWitnessUtxo, witnessUtxo := i.witnessUtxo
    finalScriptSig := scriptSig, finalScriptWitness := witness }

/-- What becomes of an input. -/
inductive InputResult (p : Psbt L) (i : Input L) : Except (FinalizeInputErr L) (Input L) → Prop
  | segwit {s w} : Scripts M p i (.ok (s, w)) → i.witnessUtxo ≠ none → w ≠ [] →
      InputResult p i (.ok (onlyFinal i (some s) (some w)))
  | legacy {s w} : Scripts M p i (.ok (s, w)) → i.witnessUtxo = none → InputResult p i (.ok (onlyFinal i (some s) none))
  | noWitness {s} : Scripts M p i (.ok (s, [])) → i.witnessUtxo ≠ none → InputResult p i (.error (.input .emptyWitness))
  | fails {e} : Scripts M p i (.error e) → InputResult p i (.error (.final e))

/-- The transaction signatures are checked against after finalizing: the lock time is the fallback lock time, and all
sequence numbers are zero. -/
def checkedTx (p : Psbt L) : Tx :=
  { version := p.global.txVersion
    lockTime := p.global.fallbackLockTime.getD 0
    input := p.inputs.map fun i => ⟨⟨i.previousTxid, i.spentOutputIndex⟩, [], 0, []⟩
    output := p.outputs.map fun o => ⟨o.amount, o.scriptPubkey⟩ }

/-- The interpreter accepts the final scripts of the input at `n`, with sequence number 0xFFFFFFFF and lock time 0. -/
def Checked (p : Psbt L) (us : List TxOut) (n : Nat) (j : Input L) (r : Option InterpErr) : Prop :=
  ∃ u s w, FundedBy j u ∧ j.finalScriptSig = some s ∧ j.finalScriptWitness = some w ∧
    M.interp ⟨u.scriptPubkey, s, w, 0xFFFFFFFF, 0, checkedTx p, n, us⟩ = r

end Psbt.Spec
