/- A concrete choice of the signing dependencies, for examples and counterexamples only. -/
import Verif.Spec.Demo
import Verif.Model.SigLib
namespace Psbt.Demo
open Psbt

/-- Private keys are bytes; an extended key is its parent's and its own number. -/
def sigLib (sp : Bool) : SigLib (lib sp) where
  SK := UInt8
  pub b := val 33 (by decide) b
  signEcdsa m sk := ⟨(pad 7 m.1).1 ++ [sk], by
    have := (pad 7 m.1).2
    simp [lib, fixed, this]⟩
  Keypair := Bool × UInt8
  keypair b := (false, b)
  tapTweak kp _ := (true, kp.2)
  signSchnorr m kp := pad 64 (m.1 ++ [if kp.1 then 1 else 0, kp.2])
  xonly x := ⟨x.bytes.take 32, by
    have := x.ok
    simp only [lib, fixed] at this ⊢
    split at this
    · rename_i h; simp [h]
    · cases this⟩
  ofSecp x := ⟨x.bytes, x.ok⟩
  Xpriv := UInt8 × UInt8
  fingerprint x := rep 4 x.2
  parentFingerprint x := rep 4 x.1
  derive x path := if path.length < 256 then some (x.2, x.2 + UInt8.ofNat path.length) else none
  toPriv x := x.2

end Psbt.Demo
