/- The weight of a transaction, counted by hand (BIP-141). -/
import Verif.Model.Wire
namespace Psbt.Spec

/-- Bytes taken by a CompactSize number. -/
def compactSize (n : Nat) : Nat := if n ≤ 0xfc then 1 else if n ≤ 0xffff then 3 else if n ≤ 0xffffffff then 5 else 9

/-- Bytes taken by a byte string with its length in front. -/
def sized (b : Bytes) : Nat := compactSize b.length + b.length

/-- Size without witness data: version, inputs (outpoint, scriptSig, sequence), outputs (value, script), lock time. -/
def strippedSize (t : Tx) : Nat :=
  4 + compactSize t.input.length + (t.input.map fun i => 32 + 4 + sized i.scriptSig + 4).sum
    + compactSize t.output.length + (t.output.map fun o => 8 + sized o.scriptPubkey).sum + 4

/-- Size of the witness data with marker and flag, if there is any (or no input at all). -/
def witnessSize (t : Tx) : Nat :=
  if t.input = [] ∨ ∃ i ∈ t.input, i.witness ≠ [] then
    2 + (t.input.map fun i => compactSize i.witness.length + (i.witness.map sized).sum).sum
  else 0

/-- Witness bytes count once, all others four times. -/
def txWeight (t : Tx) : Nat := 4 * strippedSize t + witnessSize t

end Psbt.Spec
