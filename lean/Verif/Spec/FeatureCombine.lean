/- Outputs that do not contradict each other about silent payments. -/
import Verif.Spec.Feature
namespace Psbt.Spec
open Psbt Psbt.V2

variable {L : Lib}

/-- Two output maps that state, if both do, the same silent payment address and the same label. -/
def SameAddress (a b : Output L) : Prop :=
  (∀ x y, a.spV0Info = some x → b.spV0Info = some y → x = y) ∧ ∀ x y, a.spV0Label = some x → b.spV0Label = some y → x = y

/-- Two PSBTs of which this is true for each output. -/
def SameAddresses (p q : V2.Psbt L) : Prop :=
  ∀ (n : Nat) a b, p.outputs[n]? = some a → q.outputs[n]? = some b → SameAddress a b

end Psbt.Spec
