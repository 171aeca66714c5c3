/- Base64 (RFC 4648, section 4), in terms of bits. -/
import Verif.Model.Basic
namespace Psbt.Spec

/-- The characters, in order of their values; and the one for padding. -/
def b64Alphabet : List UInt8 :=
  "ABCDEFGHIJKLMNOPQRSTUVWXYZabcdefghijklmnopqrstuvwxyz0123456789+/".toList.map fun c => c.toNat.toUInt8
def b64Pad : UInt8 := '='.toNat.toUInt8

/-- The lowest `n` bits of a number, the highest one first. -/
def bitsOf (n v : Nat) : List Bool := (List.range n).reverse.map fun i => v / 2 ^ i % 2 = 1

/-- `text` is the base64 form of `data`: the bits of the data and fewer than 6 zero bits are the bits of the characters, 6 each; and
fewer than 4 padding characters make the length a multiple of 4. -/
def Base64 (data text : Bytes) : Prop :=
  ∃ (vals : List Nat) (zeros pads : Nat), (∀ v ∈ vals, v < 64) ∧ zeros < 6 ∧ pads < 4 ∧ text.length % 4 = 0 ∧
    vals.flatMap (bitsOf 6) = data.flatMap (fun b => bitsOf 8 b.toNat) ++ List.replicate zeros false ∧
    text = vals.map (fun v => b64Alphabet[v]!) ++ List.replicate pads b64Pad

end Psbt.Spec
