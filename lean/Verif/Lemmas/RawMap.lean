/- The model's maps are written as `Spec.RawMap` says. -/
import Verif.Spec.RawMap
import Verif.Model.Maps
import Verif.Lemmas.Encoding
namespace Psbt
open Psbt

theorem pairBytes_encPair (q : Pair) : Spec.pairBytes q.key.ty q.key.key q.value = encPair q := by
  simp [Spec.pairBytes, encPair, encKey, encVec, Nat.add_comm, compact_fun]

theorem mapBytes_fun : Spec.mapBytes = serializeMap := by
  funext ps
  unfold Spec.mapBytes serializeMap
  simp only [pairBytes_encPair]

end Psbt
