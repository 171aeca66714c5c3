/- Failures whose cause can be seen. -/
import Verif.Spec.Report
import Verif.Model.ReportParts
namespace Psbt.Spec

/-- What is at the bottom of a failure: the message of the innermost error. -/
def root : Failure → Option String
  | .plain m => some m
  | .because _ e | .inside _ e | .quoting _ e | .quotingFirst e _ | .dropping _ e => root e
  | .todo => none

/-- The text `r` is in the text `m`. -/
def Occurs (r m : String) : Prop := ∃ a b, m = a ++ r ++ b

/-- The cause can be seen: it is in one of the messages one gets by following the error to its sources, and, without `std`, in
the message. -/
def Explained (e : Failure) : Prop :=
  ∃ r, root e = some r ∧ (∃ ms, Chain e ms ∧ ∃ m ∈ ms, Occurs r m) ∧ ∃ m, e.display false = .ok m ∧ Occurs r m

/-- The failures whose cause is in another crate and is not given as the source: those of keys, of signatures and of taproot trees. -/
def unsourced : List SerErr := [.invalidPublicKey, .invalidSecp256k1PublicKey, .invalidEcdsaSignature, .invalidTaprootSignature, .tapTree]

end Psbt.Spec
