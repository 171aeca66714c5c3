/- The complete PSBT v2 and its binary form: src/v2/mod.rs:492-660. -/
import Verif.Model.V2.Global
import Verif.Model.V2.Input
import Verif.Model.V2.Output
namespace Psbt.V2
open Psbt

/-- `Psbt`, src/v2/mod.rs:494-505. All three fields are public in Rust. -/
structure Psbt (L : Lib) where
  global : Global L
  inputs : List (Input L)
  outputs : List (Output L)
  deriving DecidableEq

/-- `DeserializeError`, src/v2/error.rs:19-34. -/
inductive DeserErr where
  | invalidMagic
  | invalidSeparator
  | noMorePairs
  | decodeGlobal (e : DecErr)
  | decodeInput (e : DecErr)
  | decodeOutput (e : DecErr)
  deriving DecidableEq

/-- `b"psbt"`. -/
def MAGIC : Bytes := [0x70, 0x73, 0x62, 0x74]

/-- `Psbt::serialize`, src/v2/mod.rs:592-611. -/
def Psbt.serialize {L : Lib} (p : Psbt L) : Bytes :=
  MAGIC ++ [0xff] ++ serializeMap p.global.getPairs
    ++ p.inputs.flatMap (fun i => serializeMap i.getPairs)
    ++ p.outputs.flatMap (fun o => serializeMap o.getPairs)

/-- `for _ in 0..n { v.push(decode(&mut d)?) }`, src/v2/mod.rs:635-637 and 646-648. -/
def decodeN {ε α : Type} (dec : Bytes → Except ε (α × Bytes)) : Nat → Bytes → Except ε (List α × Bytes)
  | 0, b => .ok ([], b)
  | n + 1, b => do
    let (a, r) ← dec b
    let (as, r) ← decodeN dec n r
    .ok (a :: as, r)

/-- Lifts an error into a result that may also panic. -/
def orFail {ε ε' α : Type} (f : ε → ε') (r : Except ε α) : Out ε' α := mapErr (fun e => .err (f e)) r

/-- `Psbt::deserialize`, src/v2/mod.rs:614-654. `Vec::with_capacity` of an attacker-chosen count panics when the
capacity overflows. Bytes after the last map are not looked at. -/
def Psbt.deserialize (L : Lib) (b : Bytes) : Out DeserErr (Psbt L) := do
  if b.take 4 ≠ MAGIC then .error (.err .invalidMagic)
  else if b[4]? ≠ some 0xff then .error (.err .invalidSeparator)
  else
    let (global, d) ← orFail .decodeGlobal (Global.decode L (b.drop 5))
    if capacityOverflow global.inputCount.toNat L.inputSize then .error (.panic "capacity overflow")
    else
      let (inputs, d) ← orFail .decodeInput (decodeN (Input.decode L) global.inputCount.toNat d)
      if capacityOverflow global.outputCount.toNat L.outputSize then .error (.panic "capacity overflow")
      else
        let (outputs, _) ← orFail .decodeOutput (decodeN (Output.decode L) global.outputCount.toNat d)
        .ok ⟨global, inputs, outputs⟩

end Psbt.V2
