/- Histories of calls to the PSBT v2 role types, in terms of their public functions. -/
import Verif.Model.V2.Roles
namespace Psbt.Spec
open Psbt.V2

variable {L : Lib}

/-- What a user holds while building a PSBT. -/
inductive Holds where
  | creator | constructor (m : Mod) | psbt

/-- `Built h p is os`: some sequence of successful public calls starting at `Creator::new()` led to a value of kind `h`
with inner PSBT `p`, and `is`, `os` are the inputs and outputs passed to the calls, in order. -/
inductive Built : Holds → Psbt L → List (Input L) → List (Output L) → Prop
  | new : Built .creator (Creator.new L) [] []
  | fallbackLockTime {p is os} (n) : Built .creator p is os → Built .creator (Creator.fallbackLockTime p n) is os
  | sighashSingle {p is os} : Built .creator p is os → Built .creator (Creator.sighashSingle p) is os
  | inputsModifiable {p is os} : Built .creator p is os → Built .creator (Creator.inputsModifiable p) is os
  | outputsModifiable {p is os} : Built .creator p is os → Built .creator (Creator.outputsModifiable p) is os
  | transactionVersion {p is os} (v) : Built .creator p is os → Built .creator (Creator.transactionVersion p v) is os
  | creatorPsbt {p is os} : Built .creator p is os → Built .psbt p is os
  | constructorModifiable {p is os} : Built .creator p is os →
      Built (.constructor .modifiable) (Creator.constructorModifiable p) is os
  | constructorInputsOnly {p is os} : Built .creator p is os →
      Built (.constructor .inputsOnly) (Creator.constructorInputsOnly p) is os
  | constructorOutputsOnly {p is os} : Built .creator p is os →
      Built (.constructor .outputsOnly) (Creator.constructorOutputsOnly p) is os
  | constructorNew {m p q is os} : Built .psbt p is os → Constructor.new m p = .ok q → Built (.constructor m) q is os
  | input {m p q is os i} : m ≠ .outputsOnly → Built (.constructor m) p is os → Constructor.input p i = .ok q →
      Built (.constructor m) q (is ++ [i]) os
  | output {m p q is os o} : m ≠ .inputsOnly → Built (.constructor m) p is os → Constructor.output p o = .ok q →
      Built (.constructor m) q is (os ++ [o])
  | noMoreInputs {m p is os} : Built (.constructor m) p is os → Built (.constructor m) (Constructor.noMoreInputs p) is os
  | noMoreOutputs {m p is os} : Built (.constructor m) p is os → Built (.constructor m) (Constructor.noMoreOutputs p) is os
  | constructorPsbt {m p q is os} : Built (.constructor m) p is os → Constructor.psbt p = .ok q → Built .psbt q is os
  | updater {m p q is os} : Built (.constructor m) p is os → Constructor.updater p = .ok q → Built .psbt q is os
  | updaterNew {p q is os} : Built .psbt p is os → Updater.new p = .ok q → Built .psbt q is os
  | signerNew {p q is os} : Built .psbt p is os → Signer.new p = .ok q → Built .psbt q is os

/-- One successful call, of the constructor, updater and signer roles (signing itself is treated in C34). -/
inductive Call : Psbt L → Psbt L → Prop
  | constructorNew {m p q} : Constructor.new m p = .ok q → Call p q
  | input {p q i} : Constructor.input p i = .ok q → Call p q
  | output {p q o} : Constructor.output p o = .ok q → Call p q
  | noMoreInputs {p} : Call p (Constructor.noMoreInputs p)
  | noMoreOutputs {p} : Call p (Constructor.noMoreOutputs p)
  | constructorPsbt {p q} : Constructor.psbt p = .ok q → Call p q
  | updater {p q} : Constructor.updater p = .ok q → Call p q
  | updaterNew {p q} : Updater.new p = .ok q → Call p q
  | setSequence {p q n k} : Updater.setSequence p n k = .ok q → Call p q
  | signerNew {p q} : Signer.new p = .ok q → Call p q
  | clearTxModifiable {p ty} : Call p (p.clearTxModifiable ty)

/-- Any number of calls. -/
inductive Calls : Psbt L → Psbt L → Prop
  | nil {p} : Calls p p
  | cons {p q r} : Call p q → Calls q r → Calls p r

/-- Any number of successful `set_sequence` calls. -/
inductive SetSequences : Psbt L → Psbt L → Prop
  | nil {p} : SetSequences p p
  | cons {p q r n k} : Updater.setSequence p n k = .ok q → SetSequences q r → SetSequences p r

/-- Bit `k` of the modifiable flags (0: inputs modifiable, 1: outputs modifiable, 2: has SIGHASH_SINGLE). -/
def flag (p : Psbt L) (k : Nat) : Bool := p.global.txModifiableFlags.toNat.testBit k

end Psbt.Spec
