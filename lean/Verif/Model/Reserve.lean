/- The memory parsing asks for before it has read what the memory is for: the `Vec::with_capacity` calls of the two
`deserialize` functions. -/
import Verif.Model.V0.Psbt
namespace Psbt.V2
open Psbt

/-- `Psbt::deserialize`, src/v2/mod.rs:614-654, which also lists the bytes asked for by each `Vec::with_capacity` it
executes (lines 633 and 644), in order. The vectors a map or a key grows while it is read are not listed. -/
def Psbt.deserializeTrace (L : Lib) (b : Bytes) : List Nat × Out DeserErr (Psbt L) :=
  if b.take 4 ≠ MAGIC then ([], .error (.err .invalidMagic))
  else if b[4]? ≠ some 0xff then ([], .error (.err .invalidSeparator))
  else
    match Global.decode L (b.drop 5) with
    | .error e => ([], .error (.err (.decodeGlobal e)))
    | .ok (global, d) =>
      let m1 := global.inputCount.toNat * L.inputSize
      if capacityOverflow global.inputCount.toNat L.inputSize then ([m1], .error (.panic "capacity overflow"))
      else
        match decodeN (Input.decode L) global.inputCount.toNat d with
        | .error e => ([m1], .error (.err (.decodeInput e)))
        | .ok (inputs, d) =>
          let m2 := global.outputCount.toNat * L.outputSize
          if capacityOverflow global.outputCount.toNat L.outputSize then ([m1, m2], .error (.panic "capacity overflow"))
          else
            match decodeN (Output.decode L) global.outputCount.toNat d with
            | .error e => ([m1, m2], .error (.err (.decodeOutput e)))
            | .ok (outputs, _) => ([m1, m2], .ok ⟨global, inputs, outputs⟩)

end Psbt.V2

namespace Psbt.V0
open Psbt

/-- `Psbt::deserialize`, src/v0/bitcoin/serialize.rs:70-113, which also lists the bytes asked for by each
`Vec::with_capacity` it executes (lines 89 and 101), in order. The vectors a map, a key or the unsigned transaction
grows while it is read are not listed. -/
def Psbt.deserializeTrace (L : Lib) (b : Bytes) : List Nat × Out Err (Psbt L) :=
  if b.take 4 ≠ V2.MAGIC then ([], .error (.err .invalidMagic))
  else if b[4]? ≠ some 0xff then ([], .error (.err .invalidSeparator))
  else
    match decodeGlobal L (b.drop 5) with
    | .error e => ([], .error (.err e))
    | .ok (global, d) =>
      match global.unsignedTxChecks with
      | .error e => ([], .error (.err e))
      | .ok _ =>
        let m1 := global.unsignedTx.input.length * L.inputSize
        if capacityOverflow global.unsignedTx.input.length L.inputSize then ([m1], .error (.panic "capacity overflow"))
        else
          match V2.decodeN (Input.decode L) global.unsignedTx.input.length d with
          | .error e => ([m1], .error (.err e))
          | .ok (inputs, d) =>
            let m2 := global.unsignedTx.output.length * L.outputSize
            if capacityOverflow global.unsignedTx.output.length L.outputSize then
              ([m1, m2], .error (.panic "capacity overflow"))
            else
              match V2.decodeN (Output.decode L) global.unsignedTx.output.length d with
              | .error e => ([m1, m2], .error (.err e))
              | .ok (outputs, _) => ([m1, m2], .ok { global with inputs, outputs })

end Psbt.V0
