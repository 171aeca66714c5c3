/- C32, C49: the weight that fee rates are computed with. -/
import Verif.Model.Fee
import Verif.Spec.Weight
import Verif.Lemmas.Fee
namespace Psbt

theorem encVar_size (n : Nat) : (encVar n).length = Spec.compactSize n := by
  unfold encVar Spec.compactSize
  have hl : ∀ k n, (leEnc k n).length = k := by simp
  repeat' split
  all_goals simp only [List.length_cons, List.length_nil, hl]
  all_goals omega

theorem encVec_size (b : Bytes) : (encVec b).length = Spec.sized b := by
  unfold encVec Spec.sized
  rw [List.length_append, encVar_size]

theorem encList_size {α : Type} (f : α → Bytes) (l : List α) :
    (encList f l).length = Spec.compactSize l.length + (l.map fun a => (f a).length).sum := by
  unfold encList
  rw [List.length_append, encVar_size, List.length_flatMap]

/-- C32, C49. The weight is that of BIP-141: four units for each byte outside witnesses, one for each byte of witness
data. -/
theorem C32_weight (t : Tx) : t.weight = Spec.txWeight t := by
  have e1 : (encList encTxIn t.input).length = Spec.compactSize t.input.length + (t.input.map fun i => 32 + 4 + Spec.sized i.scriptSig + 4).sum := by
    rw [encList_size]
    congr 2
    apply List.map_congr_left
    intro i _
    have := i.previousOutput.txid.2
    simp only [encTxIn, encOutPoint, List.length_append, encVec_size, encU32_length, this]
  have e2 : (encList encTxOut t.output).length = Spec.compactSize t.output.length + (t.output.map fun o => 8 + Spec.sized o.scriptPubkey).sum := by
    rw [encList_size]
    congr 2
    apply List.map_congr_left
    intro o _
    simp only [encTxOut, List.length_append, encVec_size, encU64_length]
  have e3 : (t.input.flatMap fun i => encWitness i.witness).length = (t.input.map fun i => Spec.compactSize i.witness.length + (i.witness.map Spec.sized).sum).sum := by
    rw [List.length_flatMap]
    congr 1
    apply List.map_congr_left
    intro i _
    simp only [encWitness, encList_size, encVec_size]
  have e4 : t.usesSegwit = true ↔ (t.input = [] ∨ ∃ i ∈ t.input, i.witness ≠ []) := by
    unfold Tx.usesSegwit
    simp only [Bool.or_eq_true, List.any_eq_true, Bool.not_eq_true', List.isEmpty_eq_false_iff, List.isEmpty_iff]
    exact Or.comm
  unfold Tx.weight Spec.txWeight Spec.strippedSize Spec.witnessSize encTx
  by_cases hs : t.usesSegwit = true
  · rw [if_pos hs, if_pos (e4.mp hs)]
    unfold encTxLegacy
    simp only [List.length_append, e1, e2, e3, encU32_length, List.length_cons, List.length_nil]
    omega
  · rw [if_neg hs, if_neg (fun h => hs (e4.mpr h))]
    unfold encTxLegacy
    simp only [List.length_append, e1, e2, encU32_length]
    omega

example : Spec.txWeight ⟨2, 0, [⟨⟨⟨List.replicate 32 1, rfl⟩, 0⟩, [], 0, [[1, 2], [3]]⟩], [⟨5, [1, 2]⟩]⟩ = 4 * (10 + 41 + 11) + 2 + 6 := by
  decide

end Psbt
