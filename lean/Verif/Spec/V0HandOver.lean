/- Everything that can happen to a PSBT v0 through the functions of the crate, and the size limits of the format. -/
import Verif.Spec.V0
import Verif.Spec.V0Finalize
import Verif.Model.V0.Combine
import Verif.Model.V0.Sign
import Verif.Model.V0.Finalize
import Verif.Model.V0.Update
namespace Psbt.Spec.V0
open Psbt.V0

variable {L : Lib}

/-- An input map, an output map, the preimages of which match and the unknown keys of which are unknown. -/
structure InputSound (i : Input L) : Prop where
  ripemd160 : ∀ h pre, i.ripemd160Preimages.get h = some pre → L.ripemd160 pre = h
  sha256 : ∀ h pre, i.sha256Preimages.get h = some pre → L.sha256 pre = h
  hash160 : ∀ h pre, i.hash160Preimages.get h = some pre → L.hash160 pre = h
  hash256 : ∀ h pre, i.hash256Preimages.get h = some pre → L.sha256d pre = h
  unknowns : ∀ k v, i.unknown.get k = some v → k.ty ∉ inputTypes
def OutputSound (o : Output L) : Prop := ∀ k v, o.unknown.get k = some v → k.ty ∉ outputTypes

/-- One call, or one assignment to the public fields of a map, takes a user from a PSBT `p` to `q`; `o` is the PSBT combined
with, if it is a call that combines. Calls that report an error count too if they leave a PSBT behind. -/
inductive Call (S : SigLib L) (M : MsLib L) (U : UpdLib L) (p o : Psbt L) : Psbt L → Prop
  | setInput (n : Nat) {j} : InputSound j → Call S M U p o (withInput p n j)
  | setOutput (n : Nat) {j} : OutputSound j → Call S M U p o { p with outputs := p.outputs.set n j }
  | setGlobal (x pr) {u} : (∀ k v, BMap.get u k = some v → k.ty ∉ globalTypes) →
      Call S M U p o { p with xpub := x, proprietary := pr, unknown := u }
  | updateInput {n d q r} : p.updateInput U n d = .ok (q, r) → Call S M U p o q
  | updateOutput {n d q r} : p.updateOutput U n d = .ok (q, r) → Call S M U p o q
  | sign {k q r} : p.sign S k = .ok (q, r) → Call S M U p o q
  | combine {q r} : p.combine o = (q, r) → Call S M U p o q
  | finalizeMut {mall q r} : p.finalizeMut M mall = .ok (q, r) → Call S M U p o q
  | finalizeHelper {mall q r} : p.finalizeHelper M mall = .ok (q, r) → Call S M U p o q
  | finalizeInp {n q} : p.finalizeInp M n = .ok q → Call S M U p o q
  | finalizeInpMall {n q} : p.finalizeInpMall M n = .ok q → Call S M U p o q

/-- A user may come to hold the PSBT: it was received, or created, or is the result of a call on PSBTs the user held. -/
inductive Reachable (S : SigLib L) (M : MsLib L) (U : UpdLib L) : Psbt L → Prop
  | received {b p} : Psbt.deserialize L b = .ok p → Reachable S M U p
  | created {tx p} : Psbt.fromUnsignedTx L tx = .ok p → Reachable S M U p
  | call {p o q} : Reachable S M U p → Reachable S M U o → Call S M U p o q → Reachable S M U q

/-- Any number of calls lead from the one PSBT to the other; what is combined with may be anything at all. -/
inductive History (S : SigLib L) (M : MsLib L) (U : UpdLib L) (p : Psbt L) : Psbt L → Prop
  | refl : History S M U p p
  | step {q o r} : History S M U p q → Call S M U q o r → History S M U p r

/-- Two transactions that spend and pay the same: they differ at most in the scripts and witnesses of their inputs. -/
def SameSpend (t u : Tx) : Prop :=
  t.version = u.version ∧ t.lockTime = u.lockTime ∧ t.output = u.output ∧
  t.input.map (fun i => (i.previousOutput, i.sequence)) = u.input.map fun i => (i.previousOutput, i.sequence)

/-- The PSBT is within the limits of the format: every pair, the proprietary keys, the global map as a whole; and its maps fit
into memory. -/
structure WithinLimits (p : Psbt L) : Prop where
  global : (p.getPairs.flatMap fun q => pairBytes q.key.ty q.key.key q.value).length + 1 ≤ 4000000
  pairs : ∀ q ∈ p.getPairs, PairOk q
  inputs : ∀ i ∈ p.inputs, ∀ q ∈ i.getPairs, PairOk q
  outputs : ∀ o ∈ p.outputs, ∀ q ∈ o.getPairs, PairOk q
  globalProps : ∀ k v, p.proprietary.get k = some v → PropOk k
  inputProps : ∀ i ∈ p.inputs, ∀ k v, i.proprietary.get k = some v → PropOk k
  outputProps : ∀ o ∈ p.outputs, ∀ k v, o.proprietary.get k = some v → PropOk k
  inputMem : p.inputs.length * L.inputSize < 2 ^ 63
  outputMem : p.outputs.length * L.outputSize < 2 ^ 63

end Psbt.Spec.V0
