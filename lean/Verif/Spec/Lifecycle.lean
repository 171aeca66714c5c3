/- The life of a PSBT v2 after its construction. -/
import Verif.Spec.Roles
import Verif.Model.V2.Combine
import Verif.Model.V2.Sign
import Verif.Model.V2.Finalize
import Verif.Model.V2.Extract
namespace Psbt.Spec
open Psbt.V2

variable {L : Lib}

/-- The PSBT after any number of calls of the updater, the signer, the combiner and the finalizer, and of assignments to fields
of the maps other than the spent outpoint, the amount and the script of an output. What is combined with may be anything at all. -/
inductive Worked (S : SigLib L) (M : MsLib L) (p : Psbt L) : Psbt L → Prop
  | refl : Worked S M p p
  | setInput {q n i j} : Worked S M p q → q.inputs[n]? = some i → j.previousTxid = i.previousTxid →
      j.spentOutputIndex = i.spentOutputIndex → Worked S M p { q with inputs := q.inputs.set n j }
  | setOutput {q n o u} : Worked S M p q → q.outputs[n]? = some o → u.amount = o.amount →
      u.scriptPubkey = o.scriptPubkey → Worked S M p { q with outputs := q.outputs.set n u }
  | updaterNew {q r} : Worked S M p q → Updater.new q = .ok r → Worked S M p r
  | setSequence {q r n k} : Worked S M p q → Updater.setSequence q n k = .ok r → Worked S M p r
  | signerNew {q r} : Worked S M p q → Signer.new q = .ok r → Worked S M p r
  | sign {q r tx k e} : Worked S M p q → q.sign S tx k = .ok (r, e) → Worked S M p r
  | combine {q o r} : Worked S M p q → q.combine o = .ok r → Worked S M p r
  | finalizerNew {q r} : Worked S M p q → Finalizer.new q = .ok r → Worked S M p r
  | finalize {q f r debug} : Worked S M p q → Finalizer.new q = .ok f → Finalizer.finalize M debug f = .ok r → Worked S M p r

/-- The transaction spends these outpoints and pays these outputs, in this order. -/
def Moves (t : Tx) (spent : List OutPoint) (paid : List TxOut) : Prop :=
  t.input.map TxIn.previousOutput = spent ∧ t.output = paid

end Psbt.Spec
