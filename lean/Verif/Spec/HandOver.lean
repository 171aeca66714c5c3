/- Everything that can happen to a PSBT v2 through the public functions of the roles, and the size limits of what users bring in. -/
import Verif.Spec.Encoding
import Verif.Spec.V2
import Verif.Model.V2.Roles
import Verif.Model.V2.Combine
import Verif.Model.V2.Sign
import Verif.Model.V2.Finalize
namespace Psbt.Spec
open Psbt.V2

variable {L : Lib}

/-- Public keys and signatures the signing library makes are small (in Bitcoin at most 65 and 72 bytes). -/
def SmallKeys (S : SigLib L) : Prop :=
  ∀ sk, (S.pub sk).bytes.length ≤ 65 ∧ ∀ m, (S.signEcdsa m sk).bytes.length ≤ 72

/-- The final scripts of the inputs are within the limit for values. -/
def SmallFinal (p : Psbt L) : Prop :=
  ∀ i ∈ p.inputs, (∀ s, i.finalScriptSig = some s → s.length ≤ MAX_VALUE) ∧
    ∀ w, i.finalScriptWitness = some w → (witnessBytes w).length ≤ MAX_VALUE

/-- `Reachable S M p`: a user may come to hold `p` by calling public functions of the crate, the inputs and outputs added to
it being ones the format can carry. Nothing is said of who calls which function when; this allows more than the types of the
roles do. -/
inductive Reachable (S : SigLib L) (M : MsLib L) : Psbt L → Prop
  | received {b p} : Psbt.deserialize L b = .ok p → Reachable S M p
  | new : Reachable S M (Creator.new L)
  | fallbackLockTime {p} (n) : Reachable S M p → Reachable S M (Creator.fallbackLockTime p n)
  | sighashSingle {p} : Reachable S M p → Reachable S M (Creator.sighashSingle p)
  | inputsModifiable {p} : Reachable S M p → Reachable S M (Creator.inputsModifiable p)
  | outputsModifiable {p} : Reachable S M p → Reachable S M (Creator.outputsModifiable p)
  | transactionVersion {p} (v) : Reachable S M p → Reachable S M (Creator.transactionVersion p v)
  | constructorModifiable {p} : Reachable S M p → Reachable S M (Creator.constructorModifiable p)
  | constructorInputsOnly {p} : Reachable S M p → Reachable S M (Creator.constructorInputsOnly p)
  | constructorOutputsOnly {p} : Reachable S M p → Reachable S M (Creator.constructorOutputsOnly p)
  | constructorNew {m p q} : Reachable S M p → Constructor.new m p = .ok q → Reachable S M q
  | input {p q i} : Reachable S M p → InputWF i → Constructor.input p i = .ok q → Reachable S M q
  | output {p q o} : Reachable S M p → OutputWF o → Constructor.output p o = .ok q → Reachable S M q
  | noMoreInputs {p} : Reachable S M p → Reachable S M (Constructor.noMoreInputs p)
  | noMoreOutputs {p} : Reachable S M p → Reachable S M (Constructor.noMoreOutputs p)
  | constructorPsbt {p q} : Reachable S M p → Constructor.psbt p = .ok q → Reachable S M q
  | updater {p q} : Reachable S M p → Constructor.updater p = .ok q → Reachable S M q
  | updaterNew {p q} : Reachable S M p → Updater.new p = .ok q → Reachable S M q
  | setSequence {p q n k} : Reachable S M p → Updater.setSequence p n k = .ok q → Reachable S M q
  | signerNew {p q} : Reachable S M p → Signer.new p = .ok q → Reachable S M q
  | sign {p q tx k r} : Reachable S M p → p.sign S tx k = .ok (q, r) → Reachable S M q
  | combine {p q r} : Reachable S M p → Reachable S M q → p.combine q = .ok r → Reachable S M r
  | finalizerNew {p q} : Reachable S M p → Finalizer.new p = .ok q → Reachable S M q
  | finalize {p f q debug} : Reachable S M p → Finalizer.new p = .ok f → Finalizer.finalize M debug f = .ok q → SmallFinal q →
      Reachable S M q

/-- The maps of the PSBT fit into memory. -/
def Fits (p : Psbt L) : Prop := p.inputs.length * L.inputSize < 2 ^ 63 ∧ p.outputs.length * L.outputSize < 2 ^ 63

/-- What a chain of calls of the input builder makes, the funding data being within the limit for values. -/
inductive InputBuilt (o : OutPoint) : InputBuilder L → Prop
  | new : InputBuilt o (InputBuilder.new L o)
  | minTime {b} (t) : InputBuilt o b → InputBuilt o (b.minTime t)
  | minHeight {b} (h) : InputBuilt o b → InputBuilt o (b.minHeight h)
  | segwitFund {b u} : InputBuilt o b → (txOutBytes u).length ≤ MAX_VALUE → InputBuilt o (b.segwitFund u)
  | legacyFund {b t} : InputBuilt o b → (txBytes t).length ≤ MAX_VALUE → InputBuilt o (b.legacyFund t)

end Psbt.Spec
