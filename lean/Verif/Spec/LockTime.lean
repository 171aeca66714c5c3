/- BIP-370 "Determining Lock Time", stated on the fields of the PSBT. -/
import Verif.Model.V2.Psbt
namespace Psbt.Spec
open Psbt.V2

variable {L : Lib}

/-- The input requires some lock time. -/
def Constrained (i : Input L) : Prop := i.minTime ≠ none ∨ i.minHeight ≠ none

/-- The lock time BIP-370 prescribes. -/
inductive LockTime (p : Psbt L) : UInt32 → Prop
  /-- No input requires one: the fallback, or zero. -/
  | fallback (h : ∀ i ∈ p.inputs, ¬ Constrained i) : LockTime p (p.global.fallbackLockTime.getD 0)
  /-- Every input that requires one allows a height: the greatest required height. -/
  | height (h : Height) (mem : ∃ i ∈ p.inputs, i.minHeight = some h)
      (all : ∀ i ∈ p.inputs, Constrained i → ∃ h', i.minHeight = some h' ∧ h'.1 ≤ h.1) : LockTime p h.1
  /-- Not every such input allows a height, but all allow a time: the greatest required time. -/
  | time (t : Time) (notHeight : ∃ i ∈ p.inputs, Constrained i ∧ i.minHeight = none)
      (mem : ∃ i ∈ p.inputs, i.minTime = some t)
      (all : ∀ i ∈ p.inputs, Constrained i → ∃ t', i.minTime = some t' ∧ t'.1 ≤ t.1) : LockTime p t.1

/-- No kind of lock time suits all inputs. -/
def Conflict (p : Psbt L) : Prop :=
  (∃ i ∈ p.inputs, Constrained i ∧ i.minHeight = none) ∧ (∃ j ∈ p.inputs, Constrained j ∧ j.minTime = none)

end Psbt.Spec
