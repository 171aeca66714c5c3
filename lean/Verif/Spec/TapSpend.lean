/- What a script path spend must show (BIP-341), for the outputs of descriptors. -/
import Verif.Spec.V0Update
namespace Psbt.Spec.V0
open Psbt Psbt.V0 Psbt.Spec

variable {L : Lib} (U : UpdLib L)

/-- The control block proves that the output script commits to the leaf: starting from the hash of the leaf, its proof leads to a
root with which the internal key makes the output key, of the parity it says. -/
def ProvesLeaf (spk : Bytes) (cb : Bytes) (script : Bytes) (ver : LeafVersion) : Prop :=
  ∃ (x : L.xonly.T) (odd : Bool) (p : List Hash32), cb = controlBytes ver odd x.bytes p ∧ p.length ≤ 128 ∧
    spk = [0x51, 0x20] ++ (U.outputKey x (some (proven L (tapLeaf L ver script) p))).bytes ∧
    odd = U.outputOdd x (some (proven L (tapLeaf L ver script) p))

/-- The output script is that of the internal key and the script tree in the output. -/
def Committed (spk : Bytes) (o : Output L) : Prop :=
  ∃ x r, o.tapInternalKey = some x ∧ MerkleRoot L (match o.tapTree with | none => [] | some t => t.leaves) r ∧
    spk = [0x51, 0x20] ++ (U.outputKey x r).bytes

end Psbt.Spec.V0
