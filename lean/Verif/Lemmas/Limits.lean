/- The size limits of the specification are the ones the decoder checks. -/
import Verif.Spec.Limits
import Verif.Lemmas.Raw
namespace Psbt

theorem encVar_length (n : Nat) :
    (encVar n).length = if n < 0xFD then 1 else if n < 0x10000 then 3 else if n < 0x100000000 then 5 else 9 := by
  unfold encVar
  repeat' split
  all_goals simp_all [leEnc]
  all_goals omega

theorem vecFits_iff (v : Bytes) : VecFits v ↔ v.length ≤ Spec.MAX_VALUE := by
  simp only [VecFits, encVec, List.length_append, encVar_length, MAX_VEC_SIZE, Spec.MAX_VALUE]
  repeat' split
  all_goals omega

theorem pairFits_iff (p : Pair) : PairFits p ↔ Spec.PairOk p := by
  simp only [PairFits, vecFits_iff, Spec.PairOk, MAX_VEC_SIZE, Spec.MAX_KEY]

theorem propFits_iff (k : PropKey) : PropFits k ↔ Spec.PropOk k := by
  simp only [PropFits, vecFits_iff, Spec.PropOk, PROP_KEY_LIMIT]

end Psbt
