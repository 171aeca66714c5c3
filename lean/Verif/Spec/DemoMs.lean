/- A toy miniscript library, for examples and counterexamples only. -/
import Verif.Spec.Demo
import Verif.Model.Miniscript
namespace Psbt.Demo
open Psbt

/-- Scripts starting with 0xff are not miniscripts. Those starting with 7 have no key hashes; to the others a byte is added for
each key that is known. A key descriptor is satisfied by the signature of its key; the script
`[1]` by itself once height 100 is reached; the script `[2]` after 10 blocks; the script `[3]` never; the script `[5]` only
if malleable satisfactions are allowed; any other script by itself. A tapscript `[n, k]` is satisfied by `n` elements of
`k` bytes. The interpreter refuses a witness that starts with an element `[0xee]`. -/
def msLib (sp : Bool) : MsLib (lib sp) where
  ofSecp x := ⟨x.bytes, x.ok⟩
  Ms := Bytes
  parse _ b := if b.head? = some 0xff then none else some b
  substitute m b := if b.head? = some 7 then b else b ++ m.l.map (fun _ => 0)
  accepts d := match d with
    | .wsh [] => false
    | _ => true
  satisfy mall d sat := match d with
    | .pk k | .pkh k => (sat.ecdsaSig k).map fun s => ([], s.der.bytes ++ k.bytes)
    | .wpkh k | .shWpkh k => (sat.ecdsaSig k).map fun s => ([s.der.bytes, k.bytes], [])
    | .wsh m | .shWsh m =>
      if m = [1] then if sat.after (.blocks ⟨100, by decide⟩) then some ([m], []) else none
      else if m = [2] then if sat.older (.blocks 10) then some ([m], []) else none
      else if m = [3] then none
      else if m = [4] then some ([[0xee], m], [])
      else if m = [5] then if mall then some ([m], []) else none
      else some ([m], [])
    | .sh m => some ([], m)
    | .bare _ => some ([], [])
  TapMs := Bytes
  tapParse b := if b.head? = some 0xff then none else some b
  tapSubstitute m b := b ++ m.l.map (fun _ => 0)
  tapSatisfy _ m _ := match m with
    | n :: k :: _ => some (List.replicate n.toNat (List.replicate k.toNat 7))
    | _ => none
  tapEncode m := m
  interp a := if a.witness.head? = some [0xee] then some .satisfaction else none

end Psbt.Demo
