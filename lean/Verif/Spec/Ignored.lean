/-
C103: what a PSBT says beside the transaction, its inputs' spending data and its outputs' amounts and scripts. Two PSBTs
are alike if they differ only there.
-/
import Verif.Model.V0.Finalize
import Verif.Model.V2.Finalize
namespace Psbt.Spec

/-- Two results of an operation are the same, up to `R` for values and `E` for errors. -/
inductive SameResult {ε α : Type} (E : ε → ε → Prop) (R : α → α → Prop) : Out ε α → Out ε α → Prop where
  | ok {a b : α} : R a b → SameResult E R (.ok a) (.ok b)
  | err {e f : ε} : E e f → SameResult E R (.error (.err e)) (.error (.err f))
  | panic (s : String) : SameResult E R (.error (.panic s)) (.error (.panic s))

variable {L : Lib}

section
open V2 (Psbt Input Output Global)

/-- Without extended keys, silent payment data, proprietary and unknown records. -/
def coreGlobal (g : Global L) : Global L :=
  { g with xpubs := .empty, spEcdhShares := .empty, spDleqProofs := .empty, proprietaries := .empty, unknowns := .empty }
/-- Without silent payment data, proprietary and unknown records. -/
def coreInput (i : Input L) : Input L :=
  { i with spEcdhShares := .empty, spDleqProofs := .empty, proprietaries := .empty, unknowns := .empty }
/-- Only the amount and the script. -/
def coreOutput (o : Output L) : Output L := Output.new L ⟨o.amount, o.scriptPubkey⟩
/-- The PSBT with only what the transaction and its signatures are made from. -/
def core (p : Psbt L) : Psbt L := ⟨coreGlobal p.global, p.inputs.map coreInput, p.outputs.map coreOutput⟩

/-- They differ at most in records that are no part of the transaction and not needed to sign it. -/
def Alike (p q : Psbt L) : Prop := core p = core q
end

namespace V0
open Psbt.V0 (Psbt Input Output)

/-- Without proprietary and unknown records. -/
def coreInput (i : Input L) : Input L := { i with proprietary := .empty, unknown := .empty }
/-- The PSBT with only what the transaction and its signatures are made from. All that an output map says is something else:
amounts and scripts are in the unsigned transaction. -/
def core (p : Psbt L) : Psbt L :=
  { p with
    xpub := .empty
    proprietary := .empty
    unknown := .empty
    inputs := p.inputs.map coreInput
    outputs := p.outputs.map fun _ => Output.default L }

/-- They differ at most in records that are no part of the transaction and not needed to sign it. -/
def Alike (p q : Psbt L) : Prop := core p = core q

/-- The same error; one of them has the PSBT in it. -/
inductive ErrAlike : Psbt.V0.ExtractErr L → Psbt.V0.ExtractErr L → Prop where
  | same (e) : ErrAlike e e
  | psbt {p q : Psbt L} : Alike p q → ErrAlike (.sendingTooMuch p) (.sendingTooMuch q)
end V0
end Psbt.Spec
