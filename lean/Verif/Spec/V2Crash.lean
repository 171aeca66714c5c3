/- Which calls on a PSBT v2 end in a panic. -/
import Verif.Spec.Sign
import Verif.Spec.V2Finalize
import Verif.Model.V2.Extract
import Verif.Model.V2.Finalize
namespace Psbt.Spec
open Psbt.V2

variable {L : Lib}

/-- Some call on the PSBT, or on a role made from it, panics: working out its transaction, updating, signing, finalizing or
extracting. The public signature hash function is given a cache for the transaction of the PSBT. `debug`: is this a build with
debug assertions? -/
inductive Crashes (S : SigLib L) (M : MsLib L) (debug : Bool) (p : Psbt L) : Prop
  | lockTime {w} : p.determineLockTime = .error (.panic w) → Crashes S M debug p
  | sighashEcdsa {tx n w} : p.unsignedTx = .ok tx → p.sighashEcdsa n tx = .error (.panic w) → Crashes S M debug p
  | updaterNew {w} : Updater.new p = .error (.panic w) → Crashes S M debug p
  | updaterId {r w} : Updater.new p = .ok r → Updater.id r = .error (.panic w) → Crashes S M debug p
  | setSequence {r n k w} : Updater.new p = .ok r → Updater.setSequence r n k = .error (.panic w) → Crashes S M debug p
  | signerNew {w} : Signer.new p = .error (.panic w) → Crashes S M debug p
  | signerId {r w} : Signer.new p = .ok r → Signer.id r = .error (.panic w) → Crashes S M debug p
  | signerTx {r w} : Signer.new p = .ok r → Signer.unsignedTx r = .error (.panic w) → Crashes S M debug p
  | sign {r k w} : Signer.new p = .ok r → Signer.sign S r k = .error (.panic w) → Crashes S M debug p
  | finalizerNew {w} : Finalizer.new p = .error (.panic w) → Crashes S M debug p
  | finalizerId {r w} : Finalizer.new p = .ok r → Finalizer.id r = .error (.panic w) → Crashes S M debug p
  | finalize {r w} : Finalizer.new p = .ok r → Finalizer.finalize M debug r = .error (.panic w) → Crashes S M debug p
  | extractorNew {w} : Extractor.new p = .error (.panic w) → Crashes S M debug p
  | extractorId {r w} : Extractor.new p = .ok r → Extractor.id r = .error (.panic w) → Crashes S M debug p
  | extractUnchecked {r w} : Extractor.new p = .ok r → Extractor.extractUnchecked r = .error (.panic w) → Crashes S M debug p
  | extractTx {r w} : Extractor.new p = .ok r → Extractor.extractTx r = .error (.panic w) → Crashes S M debug p
  | extractWithLimit {r max w} : Extractor.new p = .ok r → Extractor.extractWithLimit r max = .error (.panic w) → Crashes S M debug p

/-- ECDSA signing applies to some input, yet there is no message to sign for it: a script it needs is missing, its sighash type
is not a standard one, or it is nested in a script that does not fit. -/
def NoMessage (p : Psbt L) : Prop :=
  ∃ tx n i, p.unsignedTx = .ok tx ∧ Signable p n i ∧ ∀ m ty, ¬ Signs tx p n i m ty

/-- The finalizer accepts the PSBT and makes final scripts for all inputs, but some input has no witness UTXO, and without debug
assertions, the interpreter accepts all inputs before it. -/
def NoWitnessUtxo (M : MsLib L) (debug : Bool) (p : Psbt L) : Prop :=
  Finalizer.new p = .ok p ∧ ∃ (js : List (Input L)) (us : List TxOut) (n : Nat) (i : Input L), js.length = p.inputs.length ∧
    (∀ (n : Nat) i j, p.inputs[n]? = some i → js[n]? = some j → InputResult M p i (.ok j)) ∧ Funding p.inputs us ∧
    p.inputs[n]? = some i ∧ i.witnessUtxo = none ∧
    (debug = true ∨ ∀ (m : Nat) j', m < n → js[m]? = some j' → Checked M p us m j' none)

end Psbt.Spec
