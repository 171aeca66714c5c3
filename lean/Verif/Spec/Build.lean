/- What was asked for in a history of calls that build a PSBT v2, in terms of the public functions. -/
import Verif.Spec.Roles
namespace Psbt.Spec
open Psbt.V2

variable {L : Lib}

/-- The calls that say something about the PSBT, with their arguments. -/
inductive Ask (L : Lib) where
  | fallbackLockTime (n : UInt32) | transactionVersion (v : UInt32)
  | sighashSingle | inputsModifiable | outputsModifiable
  | constructor (m : Mod)
  | input (i : Input L) | output (o : Output L)
  | noMoreInputs | noMoreOutputs

/-- What a call says about bit `k` of the flags: set, cleared or nothing. -/
def Ask.flag : Ask L → Nat → Option Bool
  | .sighashSingle, 2 => some true
  | .inputsModifiable, 0 => some true
  | .outputsModifiable, 1 => some true
  | .constructor m, 0 => some (m != .outputsOnly)
  | .constructor m, 1 => some (m != .inputsOnly)
  | .noMoreInputs, 0 => some false
  | .noMoreOutputs, 1 => some false
  | _, _ => none

def Ask.fallback? : Ask L → Option UInt32
  | .fallbackLockTime n => some n
  | _ => none
def Ask.version? : Ask L → Option UInt32
  | .transactionVersion v => some v
  | _ => none
def Ask.input? : Ask L → Option (Input L)
  | .input i => some i
  | _ => none
def Ask.output? : Ask L → Option (Output L)
  | .output o => some o
  | _ => none

/-- `Asked h l p`: some sequence of successful public calls starting at `Creator::new()` led to a value of kind `h` with inner
PSBT `p`, and `l` are the calls that were made, in order. -/
inductive Asked : Holds → List (Ask L) → Psbt L → Prop
  | new : Asked .creator [] (Creator.new L)
  | fallbackLockTime {l p} (n) : Asked .creator l p → Asked .creator (l ++ [.fallbackLockTime n]) (Creator.fallbackLockTime p n)
  | transactionVersion {l p} (v) : Asked .creator l p → Asked .creator (l ++ [.transactionVersion v]) (Creator.transactionVersion p v)
  | sighashSingle {l p} : Asked .creator l p → Asked .creator (l ++ [.sighashSingle]) (Creator.sighashSingle p)
  | inputsModifiable {l p} : Asked .creator l p → Asked .creator (l ++ [.inputsModifiable]) (Creator.inputsModifiable p)
  | outputsModifiable {l p} : Asked .creator l p → Asked .creator (l ++ [.outputsModifiable]) (Creator.outputsModifiable p)
  | creatorPsbt {l p} : Asked .creator l p → Asked .psbt l p
  | constructorModifiable {l p} : Asked .creator l p →
      Asked (.constructor .modifiable) (l ++ [.constructor .modifiable]) (Creator.constructorModifiable p)
  | constructorInputsOnly {l p} : Asked .creator l p →
      Asked (.constructor .inputsOnly) (l ++ [.constructor .inputsOnly]) (Creator.constructorInputsOnly p)
  | constructorOutputsOnly {l p} : Asked .creator l p →
      Asked (.constructor .outputsOnly) (l ++ [.constructor .outputsOnly]) (Creator.constructorOutputsOnly p)
  | constructorNew {m l p q} : Asked .psbt l p → Constructor.new m p = .ok q → Asked (.constructor m) l q
  | input {m l p q i} : m ≠ .outputsOnly → Asked (.constructor m) l p → Constructor.input p i = .ok q →
      Asked (.constructor m) (l ++ [.input i]) q
  | output {m l p q o} : m ≠ .inputsOnly → Asked (.constructor m) l p → Constructor.output p o = .ok q →
      Asked (.constructor m) (l ++ [.output o]) q
  | noMoreInputs {m l p} : Asked (.constructor m) l p → Asked (.constructor m) (l ++ [.noMoreInputs]) (Constructor.noMoreInputs p)
  | noMoreOutputs {m l p} : Asked (.constructor m) l p → Asked (.constructor m) (l ++ [.noMoreOutputs]) (Constructor.noMoreOutputs p)
  | constructorPsbt {m l p q} : Asked (.constructor m) l p → Constructor.psbt p = .ok q → Asked .psbt l q
  | updater {m l p q} : Asked (.constructor m) l p → Constructor.updater p = .ok q → Asked .psbt (l ++ [.noMoreInputs, .noMoreOutputs]) q

/-- The calls of the input builder. -/
inductive InAsk where
  | minTime (t : Time) | minHeight (h : Height) | segwitFund (u : TxOut) | legacyFund (t : Tx)

def InAsk.minTime? : InAsk → Option Time
  | .minTime t => some t
  | _ => none
def InAsk.minHeight? : InAsk → Option Height
  | .minHeight h => some h
  | _ => none
def InAsk.segwitFund? : InAsk → Option TxOut
  | .segwitFund u => some u
  | _ => none
def InAsk.legacyFund? : InAsk → Option Tx
  | .legacyFund t => some t
  | _ => none

/-- `InputBuilder::new(o)` followed by the calls `l`. -/
inductive InAsked (o : OutPoint) : List InAsk → InputBuilder L → Prop
  | new : InAsked o [] (InputBuilder.new L o)
  | minTime {l b} (t) : InAsked o l b → InAsked o (l ++ [.minTime t]) (b.minTime t)
  | minHeight {l b} (h) : InAsked o l b → InAsked o (l ++ [.minHeight h]) (b.minHeight h)
  | segwitFund {l b} (u) : InAsked o l b → InAsked o (l ++ [.segwitFund u]) (b.segwitFund u)
  | legacyFund {l b} (t) : InAsked o l b → InAsked o (l ++ [.legacyFund t]) (b.legacyFund t)

/-- The last of the calls in `l` that `f` picks. -/
def lastOf {α β : Type} (l : List α) (f : α → Option β) : Option β := (l.filterMap f).getLast?

end Psbt.Spec
