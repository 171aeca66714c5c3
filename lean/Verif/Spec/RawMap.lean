/- A map of a PSBT on the wire (BIP-174). -/
import Verif.Model.Raw
import Verif.Spec.Encoding
namespace Psbt.Spec
open Psbt

/-- One pair: compact size of the key (type byte included), type, key data, compact size of the value, value. -/
def pairBytes (t : UInt8) (k v : Bytes) : Bytes := compact (1 + k.length) ++ [t] ++ k ++ compact v.length ++ v

/-- A map: its pairs one after the other, then a zero byte. -/
def mapBytes (ps : List Pair) : Bytes := (ps.flatMap fun q => pairBytes q.key.ty q.key.key q.value) ++ [0x00]

end Psbt.Spec
