/- The roles of PSBT v2 and the unsigned transaction: src/v2/mod.rs:79-590, src/v2/map/input.rs:275-393. -/
import Verif.Model.V2.Psbt
import Verif.Model.Fee
namespace Psbt.V2
open Psbt

variable {L : Lib}

/-! ### Flags, src/v2/map/global.rs:31-37 and 103-141 -/

/-- src/v2/map/global.rs:31. -/
def INPUTS_MODIFIABLE : UInt8 := 0x01
/-- src/v2/map/global.rs:33. -/
def OUTPUTS_MODIFIABLE : UInt8 := 0x02
/-- src/v2/map/global.rs:37. -/
def SIGHASH_SINGLE : UInt8 := 0x04

/-- src/v2/map/global.rs:103-105. -/
def Global.setInputsModifiable (g : Global L) : Global L := { g with txModifiableFlags := g.txModifiableFlags ||| INPUTS_MODIFIABLE }
/-- src/v2/map/global.rs:107-109. -/
def Global.setOutputsModifiable (g : Global L) : Global L := { g with txModifiableFlags := g.txModifiableFlags ||| OUTPUTS_MODIFIABLE }
/-- src/v2/map/global.rs:113. -/
def Global.setSighashSingle (g : Global L) : Global L := { g with txModifiableFlags := g.txModifiableFlags ||| SIGHASH_SINGLE }
/-- src/v2/map/global.rs:115-117. -/
def Global.clearInputsModifiable (g : Global L) : Global L := { g with txModifiableFlags := g.txModifiableFlags &&& ~~~ INPUTS_MODIFIABLE }
/-- src/v2/map/global.rs:119-121. -/
def Global.clearOutputsModifiable (g : Global L) : Global L := { g with txModifiableFlags := g.txModifiableFlags &&& ~~~ OUTPUTS_MODIFIABLE }
/-- src/v2/map/global.rs:129-131. -/
def Global.isInputsModifiable (g : Global L) : Bool := decide (g.txModifiableFlags &&& INPUTS_MODIFIABLE > 0)
/-- src/v2/map/global.rs:133-135. -/
def Global.isOutputsModifiable (g : Global L) : Bool := decide (g.txModifiableFlags &&& OUTPUTS_MODIFIABLE > 0)
/-- src/v2/map/global.rs:139-141. Nothing calls it. -/
def Global.hasSighashSingle (g : Global L) : Bool := decide (g.txModifiableFlags &&& SIGHASH_SINGLE > 0)

/-! ### Inputs -/

/-- `Input::has_lock_time`, src/v2/map/input.rs:286-288. -/
def Input.hasLockTime (i : Input L) : Bool := i.minTime.isSome || i.minHeight.isSome
/-- `Input::requires_time_based_lock_time`, src/v2/map/input.rs:296-298. -/
def Input.requiresTime (i : Input L) : Bool := i.minTime.isSome && i.minHeight.isNone
/-- `Input::requires_height_based_lock_time`, src/v2/map/input.rs:300-302. -/
def Input.requiresHeight (i : Input L) : Bool := i.minHeight.isSome && i.minTime.isNone
/-- `Input::is_satisfied_with_height_based_lock_time`, src/v2/map/input.rs:290-294. -/
def Input.satisfiedWithHeight (i : Input L) : Bool :=
  i.requiresHeight || i.minTime.isSome && i.minHeight.isSome || i.minTime.isNone && i.minHeight.isNone

/-- `Input::out_point`, src/v2/map/input.rs:367-369. -/
def Input.outPoint (i : Input L) : OutPoint := ⟨i.previousTxid, i.spentOutputIndex⟩

/-- `Input::unsigned_tx_in`, src/v2/map/input.rs:305-313. -/
def Input.unsignedTxIn (i : Input L) : TxIn where
  previousOutput := i.outPoint
  scriptSig := []
  sequence := i.sequence.getD 0
  witness := []

/-- `Input::is_finalized`, src/v2/map/input.rs:355-357. -/
def Input.isFinalized (i : Input L) : Bool := i.finalScriptSig.isSome && i.finalScriptWitness.isSome

/-- `Input::has_sig_data`, src/v2/map/input.rs:361-365. Nothing calls it. -/
def Input.hasSigData (i : Input L) : Bool :=
  !(i.partialSigs.isEmpty && i.tapKeySig.isNone && i.tapScriptSigs.isEmpty)

/-- `Input::funding_utxo`, src/v2/map/input.rs:337-346. -/
def Input.fundingUtxo (i : Input L) : Except FundingErr TxOut :=
  match i.witnessUtxo with
  | some u => .ok u
  | none =>
    match i.nonWitnessUtxo with
    | some tx =>
      match tx.output[i.spentOutputIndex.toNat]? with
      | some o => .ok o
      | none => .error (.outOfBounds i.spentOutputIndex.toNat tx.output.length)
    | none => .error .missing

/-- `InputBuilder`, src/v2/map/input.rs:824-859: a chain of builder calls. -/
structure InputBuilder (L : Lib) where
  input : Input L
/-- src/v2/map/input.rs:828. -/
def InputBuilder.new (L : Lib) (o : OutPoint) : InputBuilder L := ⟨Input.new L o⟩
/-- src/v2/map/input.rs:831-834. -/
def InputBuilder.minTime (b : InputBuilder L) (t : Time) : InputBuilder L := ⟨{ b.input with minTime := some t }⟩
/-- src/v2/map/input.rs:837-840. -/
def InputBuilder.minHeight (b : InputBuilder L) (h : Height) : InputBuilder L := ⟨{ b.input with minHeight := some h }⟩
/-- src/v2/map/input.rs:843-846. -/
def InputBuilder.segwitFund (b : InputBuilder L) (u : TxOut) : InputBuilder L := ⟨{ b.input with witnessUtxo := some u }⟩
/-- src/v2/map/input.rs:853-856. -/
def InputBuilder.legacyFund (b : InputBuilder L) (t : Tx) : InputBuilder L := ⟨{ b.input with nonWitnessUtxo := some t }⟩
/-- src/v2/map/input.rs:859. -/
def InputBuilder.build (b : InputBuilder L) : Input L := b.input

/-! ### Lock time and unsigned transaction -/

/-- `DetermineLockTimeError`, src/v2/error.rs:310. -/
inductive LockTimeErr where
  | conflict
  deriving DecidableEq

/-- The maximum of two `Option`s (`None` is least). -/
def optMax (a b : Option UInt32) : Option UInt32 :=
  match a, b with
  | none, b => b
  | a, none => a
  | some x, some y => if x ≤ y then some y else some x

/-- `Iterator::max` over `Option` values: `none` for the empty iterator. -/
def iterMax : List (Option UInt32) → Option (Option UInt32)
  | [] => none
  | a :: l => some (l.foldl optMax a)

/-- `Psbt::determine_lock_time`, src/v2/mod.rs:538-583. The lock time is given as its consensus `u32`; a height and a
time convert to it unchanged. The two `expect`s of each branch are kept as panics. -/
def Psbt.determineLockTime (p : Psbt L) : Out LockTimeErr UInt32 :=
  if p.inputs.any Input.requiresTime && p.inputs.any Input.requiresHeight then .error (.err .conflict)
  else if p.inputs.any Input.hasLockTime then
    if p.inputs.all Input.satisfiedWithHeight then
      match iterMax (p.inputs.map fun i => i.minHeight.map Subtype.val) with
      | none => .error (.panic "we know we have at least one non-none min_height field")
      | some none => .error (.panic "so we know that max is non-none")
      | some (some h) => .ok h
    else
      match iterMax (p.inputs.map fun i => i.minTime.map Subtype.val) with
      | none => .error (.panic "we know we have at least one non-none min_height field")
      | some none => .error (.panic "so we know that max is non-none")
      | some (some t) => .ok t
  else .ok (p.global.fallbackLockTime.getD 0)

/-- `Psbt::unsigned_tx`, src/v2/mod.rs:524-533. -/
def Psbt.unsignedTx (p : Psbt L) : Out LockTimeErr Tx := do
  let lockTime ← p.determineLockTime
  .ok { version := p.global.txVersion, lockTime, input := p.inputs.map Input.unsignedTxIn, output := p.outputs.map Output.txOut }

/-- `Transaction::compute_txid` of rust-bitcoin: the double SHA-256 of the serialisation without witnesses. -/
def txid (L : Lib) (t : Tx) : Hash32 := L.sha256d (encTxLegacy t)

/-- `Psbt::id`, src/v2/mod.rs:512-518. -/
def Psbt.id (p : Psbt L) : Out LockTimeErr Hash32 := do
  let tx ← p.unsignedTx
  .ok (txid L { tx with input := tx.input.map fun i => { i with sequence := 0 } })

/-- `Psbt::is_finalized`, src/v2/mod.rs:586. -/
def Psbt.isFinalized (p : Psbt L) : Bool := p.inputs.all Input.isFinalized

/-- `Psbt::clear_tx_modifiable`, src/v2/mod.rs:691-710. -/
def Psbt.clearTxModifiable (p : Psbt L) (ty : UInt8) : Psbt L :=
  let g := p.global
  let g := if !(ty == 0x81 || ty == 0x82 || ty == 0x83) then g.clearInputsModifiable else g
  let g := if !(ty == 0x02 || ty == 0x82) then g.clearOutputsModifiable else g
  let g := if ty == 0x03 || ty == 0x83 then g.setSighashSingle else g
  { p with global := g }

/-- `IndexOutOfBoundsError`, src/v2/error.rs:60-75. -/
inductive IndexErr where
  | inputs (index length : Nat)
  | count (index count : Nat)
  deriving DecidableEq

/-- `Psbt::check_input_index`, src/v2/mod.rs:893-901. -/
def Psbt.checkInputIndex (p : Psbt L) (n : Nat) : Except IndexErr Unit :=
  if n ≥ p.inputs.length then .error (.inputs n p.inputs.length)
  else if n ≥ p.global.inputCount.toNat then .error (.count n p.global.inputCount.toNat)
  else .ok ()

/-- `Psbt::checked_input`, src/v2/mod.rs:882-885. The slice index is kept as a possible panic. -/
def Psbt.checkedInput (p : Psbt L) (n : Nat) : Out IndexErr (Input L) := do
  orFail (fun e => e) (p.checkInputIndex n)
  match p.inputs[n]? with
  | some i => .ok i
  | none => .error (.panic "index out of bounds")

/-! ### Creator, src/v2/mod.rs:97-226. A `Creator` is its `Psbt`. -/

/-- src/v2/mod.rs:99-106. -/
def Creator.new (L : Lib) : Psbt L := ⟨Global.new L, [], []⟩
/-- src/v2/mod.rs:109-112. -/
def Creator.fallbackLockTime (p : Psbt L) (n : UInt32) : Psbt L := { p with global := { p.global with fallbackLockTime := some n } }
/-- src/v2/mod.rs:115-118. -/
def Creator.sighashSingle (p : Psbt L) : Psbt L := { p with global := p.global.setSighashSingle }
/-- src/v2/mod.rs:121-124. -/
def Creator.inputsModifiable (p : Psbt L) : Psbt L := { p with global := p.global.setInputsModifiable }
/-- src/v2/mod.rs:127-130. -/
def Creator.outputsModifiable (p : Psbt L) : Psbt L := { p with global := p.global.setOutputsModifiable }
/-- src/v2/mod.rs:137-140. -/
def Creator.transactionVersion (p : Psbt L) (v : UInt32) : Psbt L := { p with global := { p.global with txVersion := v } }
/-- src/v2/mod.rs:162-167. -/
def Creator.constructorModifiable (p : Psbt L) : Psbt L :=
  { p with global := p.global.setInputsModifiable.setOutputsModifiable }
/-- src/v2/mod.rs:188-193. -/
def Creator.constructorInputsOnly (p : Psbt L) : Psbt L :=
  { p with global := p.global.setInputsModifiable.clearOutputsModifiable }
/-- src/v2/mod.rs:214-219. -/
def Creator.constructorOutputsOnly (p : Psbt L) : Psbt L :=
  { p with global := p.global.clearInputsModifiable.setOutputsModifiable }

/-! ### Constructor, src/v2/mod.rs:228-378. A `Constructor<T>` is its `Psbt`; `T` decides which functions exist. -/

/-- The type parameter of `Constructor`, src/v2/mod.rs:232-251. -/
inductive Mod where
  | modifiable | inputsOnly | outputsOnly
  deriving DecidableEq, Repr

/-- `PsbtNotModifiableError` and its two causes, src/v2/error.rs:213-218. -/
inductive NotModifiable where
  | inputs | outputs
  deriving DecidableEq, Repr

/-- The three `Constructor::new`, src/v2/mod.rs:295-303, 330-336, 357-363. -/
def Constructor.new (m : Mod) (p : Psbt L) : Except NotModifiable (Psbt L) :=
  match m with
  | .modifiable =>
    if !p.global.isInputsModifiable then .error .inputs
    else if !p.global.isOutputsModifiable then .error .outputs
    else .ok p
  | .inputsOnly => if p.global.isInputsModifiable then .ok p else .error .inputs
  | .outputsOnly => if p.global.isOutputsModifiable then .ok p else .error .outputs

/-- `usize += 1` with the overflow check of a debug build (a release build wraps). -/
def addOne (n : UInt64) : Out Empty UInt64 :=
  if n.toNat + 1 < 2 ^ 64 then .ok (n + 1) else .error (.panic "attempt to add with overflow")

/-- `Constructor::input`, src/v2/mod.rs:306-310, 339-343. -/
def Constructor.input (p : Psbt L) (i : Input L) : Out Empty (Psbt L) := do
  let n ← addOne p.global.inputCount
  .ok { p with inputs := p.inputs ++ [i], global := { p.global with inputCount := n } }

/-- `Constructor::output`, src/v2/mod.rs:313-317, 366-370. -/
def Constructor.output (p : Psbt L) (o : Output L) : Out Empty (Psbt L) := do
  let n ← addOne p.global.outputCount
  .ok { p with outputs := p.outputs ++ [o], global := { p.global with outputCount := n } }

/-- `Constructor::no_more_inputs`, src/v2/mod.rs:262-265. -/
def Constructor.noMoreInputs (p : Psbt L) : Psbt L := { p with global := p.global.clearInputsModifiable }
/-- `Constructor::no_more_outputs`, src/v2/mod.rs:268-271. -/
def Constructor.noMoreOutputs (p : Psbt L) : Psbt L := { p with global := p.global.clearOutputsModifiable }
/-- `Constructor::psbt`, src/v2/mod.rs:283-286. -/
def Constructor.psbt (p : Psbt L) : Out LockTimeErr (Psbt L) := do
  let _ ← p.determineLockTime
  .ok p
/-- `Constructor::updater`, src/v2/mod.rs:274-276. -/
def Constructor.updater (p : Psbt L) : Out LockTimeErr (Psbt L) :=
  Constructor.psbt (Constructor.noMoreOutputs (Constructor.noMoreInputs p))

/-! ### Updater, src/v2/mod.rs:384-430. An `Updater` is its `Psbt`. -/

/-- `Updater::new`, src/v2/mod.rs:387-390. -/
def Updater.new (p : Psbt L) : Out LockTimeErr (Psbt L) := do
  let _ ← p.determineLockTime
  .ok p

/-- `Result::expect`: an error becomes a panic. -/
def expect {ε α : Type} (msg : String) : Out ε α → Out Empty α
  | .ok a => .ok a
  | .error (.err _) => .error (.panic msg)
  | .error (.panic s) => .error (.panic s)

/-- `Updater::id`, src/v2/mod.rs:393-395. -/
def Updater.id (p : Psbt L) : Out Empty Hash32 := expect "Updater guarantees lock time can be determined" p.id

/-- `Updater::set_sequence`, src/v2/mod.rs:398-406. -/
def Updater.setSequence (p : Psbt L) (n : UInt32) (index : Nat) : Out IndexErr (Psbt L) := do
  let i ← p.checkedInput index
  .ok { p with inputs := p.inputs.set index { i with sequence := some n } }

/-! ### Signer, src/v2/mod.rs:432-490, except `sign` (Model/V2/Sign.lean). A `Signer` is its `Psbt`. -/

/-- `Signer::new`, src/v2/mod.rs:440-443. -/
def Signer.new (p : Psbt L) : Out LockTimeErr (Psbt L) := do
  let _ ← p.determineLockTime
  .ok p
/-- `Signer::id`, src/v2/mod.rs:446. -/
def Signer.id (p : Psbt L) : Out LockTimeErr Hash32 := p.id
/-- `Signer::unsigned_tx`, src/v2/mod.rs:449-451. -/
def Signer.unsignedTx (p : Psbt L) : Out Empty Tx := expect "Signer guarantees lock time can be determined" p.unsignedTx

end Psbt.V2
