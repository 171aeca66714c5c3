/- Several updaters of a PSBT v2. -/
import Verif.Model.V2.Roles
namespace Psbt.Spec
open Psbt.V2

variable {L : Lib}

/-- The updater sets sequence numbers, each of the input with the index beside it, one after the other. -/
def setInTurn (p : V2.Psbt L) : List (UInt32 × Nat) → Out IndexErr (V2.Psbt L)
  | [] => .ok p
  | (n, k) :: ns => do
    let q ← Updater.setSequence p n k
    setInTurn q ns

end Psbt.Spec
