/- What the byte string of a whole PSBT is made of, after BIP-174 and BIP-370: the magic, a separator, one global map, one
map per input and one map per output. Bytes may follow. -/
import Verif.Spec.RawMap
namespace Psbt.Spec

/-- The bytes of a PSBT with the given maps, followed by `rest`. -/
def psbtBytes (g : List Pair) (is os : List (List Pair)) (rest : Bytes) : Bytes :=
  [0x70, 0x73, 0x62, 0x74, 0xff] ++ mapBytes g ++ is.flatMap mapBytes ++ os.flatMap mapBytes ++ rest

/-- The same maps, each with its pairs in some other order. -/
def Reordered (a b : List (List Pair)) : Prop :=
  a.length = b.length ∧ ∀ j (h1 : j < a.length) (h2 : j < b.length), a[j].Perm b[j]

end Psbt.Spec
