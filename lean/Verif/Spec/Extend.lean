/- Extending a PSBT v2 that may already carry signatures: calls of constructors. -/
import Verif.Spec.Parallel
namespace Psbt.Spec
open Psbt.V2

variable {L : Lib}

/-- Starting from the PSBT `p`, successful public calls of constructors led to a value of kind `h` with inner PSBT `q`; `is`
are the inputs passed to the calls, in order. A constructor is obtained with `Constructor::new`, takes what its type allows,
and is left through `psbt` or `updater`; this may be repeated. -/
inductive Extended (p : Psbt L) : Holds → Psbt L → List (Input L) → Prop
  | start : Extended p .psbt p []
  | constructorNew {m q r is} : Extended p .psbt q is → Constructor.new m q = .ok r → Extended p (.constructor m) r is
  | input {m q r is i} : m ≠ .outputsOnly → Extended p (.constructor m) q is → Constructor.input q i = .ok r →
      Extended p (.constructor m) r (is ++ [i])
  | output {m q r is o} : m ≠ .inputsOnly → Extended p (.constructor m) q is → Constructor.output q o = .ok r →
      Extended p (.constructor m) r is
  | noMoreInputs {m q is} : Extended p (.constructor m) q is → Extended p (.constructor m) (Constructor.noMoreInputs q) is
  | noMoreOutputs {m q is} : Extended p (.constructor m) q is → Extended p (.constructor m) (Constructor.noMoreOutputs q) is
  | psbt {m q r is} : Extended p (.constructor m) q is → Constructor.psbt q = .ok r → Extended p .psbt r is
  | updater {m q r is} : Extended p (.constructor m) q is → Constructor.updater q = .ok r → Extended p .psbt r is

end Psbt.Spec
