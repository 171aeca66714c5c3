/- C25, C48: exactly when combining again with the same other changes something. -/
import Verif.Props.V2Combine
import Verif.Props.V0Combine
namespace Psbt
variable {L : Lib}

namespace V2

/-- C25, exactly: combining again with the same other changes nothing if and only if nowhere the first had no witness UTXO and the
other has both kinds of UTXO. -/
theorem C25_again_iff_partial {p q r : Psbt L} (h : p.combine q = .ok r) :
    r.combine q = .ok r ↔ ∀ (k : Nat) i j, p.inputs[k]? = some i → q.inputs[k]? = some j →
      ¬ (i.witnessUtxo = none ∧ j.witnessUtxo ≠ none ∧ j.nonWitnessUtxo ≠ none) := by
  refine ⟨fun hr k i j e1 e2 hu => ?_, C25_again_partial h⟩
  obtain ⟨w1, w2, w3⟩ := hu
  obtain ⟨-, hi, -⟩ := combine_ok.mp h
  obtain ⟨il, hi⟩ := combineZip_ok.mp hi
  obtain ⟨hk, -⟩ := List.getElem?_eq_some_iff.mp e1
  have e3 := List.getElem?_eq_getElem (l := r.inputs) (i := k) (by omega)
  obtain ⟨-, -, e⟩ := inputCombine_ok.mp ((hi k _ _ e1 e3).1 j e2)
  obtain ⟨w, hw⟩ := Option.ne_none_iff_exists'.mp w2
  have n1 : r.inputs[k].nonWitnessUtxo = none := by rw [e]; simp [Input.merge, combUtxos, w1, hw]
  have n2 : r.inputs[k].witnessUtxo = some w := by rw [e]; simp [Input.merge, combUtxos, w1, hw]
  have := C26_non_witness_utxo_kept hr k _ j _ e3 e2 e3 (.inl (by rw [n2]; simp))
  rw [n1, Option.none_or] at this
  exact w3 this.symm

def agA : Psbt DL := cP [cIn 1]
def agB (nw : Option Tx) : Psbt DL := cP [{ cIn 1 with witnessUtxo := some cWU, nonWitnessUtxo := nw }]
example : (∃ r, agA.combine (agB none) = .ok r ∧ r.combine (agB none) = .ok r) ∧
    ∃ r, agA.combine (agB (some cTx)) = .ok r ∧ r.combine (agB (some cTx)) ≠ .ok r := by
  constructor
  · have h : (combine? agA (agB none)).isSome = true := by decide +kernel
    cases e : agA.combine (agB none) with
    | error x => simp [combine?, e] at h
    | ok r =>
      refine ⟨r, rfl, (C25_again_iff_partial e).mpr ?_⟩
      intro k i j _ h2 hu
      have : j = { cIn 1 with witnessUtxo := some cWU, nonWitnessUtxo := none } := by simpa [agB, cP] using List.mem_of_getElem? h2
      exact hu.2.2 (by rw [this])
  · have h : (combine? agA (agB (some cTx))).isSome = true := by decide +kernel
    cases e : agA.combine (agB (some cTx)) with
    | error x => simp [combine?, e] at h
    | ok r => exact ⟨r, rfl, fun hr => (C25_again_iff_partial e).mp hr 0 _ _ rfl rfl ⟨rfl, by simp, by simp⟩⟩

end V2

namespace V0

/-- C48, exactly: combining again with the same other changes nothing if and only if nowhere the first had no witness UTXO and the
other has both kinds of UTXO. -/
theorem C48_again_iff_partial {p q r : Psbt L} (h : p.combine q = (r, .ok ())) :
    r.combine q = (r, .ok ()) ↔ ∀ (k : Nat) i j, p.inputs[k]? = some i → q.inputs[k]? = some j →
      ¬ (i.witnessUtxo = none ∧ j.witnessUtxo ≠ none ∧ j.nonWitnessUtxo ≠ none) := by
  refine ⟨fun hr k i j e1 e2 hu => ?_, C48_again_partial h⟩
  obtain ⟨w1, w2, w3⟩ := hu
  obtain ⟨-, -, e⟩ := combine_ok.mp h
  obtain ⟨-, -, e'⟩ := combine_ok.mp hr
  have k1 : r.inputs[k]? = some (i.combine j) := by rw [e]; simp only [combineZip_getElem?, e1, e2]
  have k2 : r.inputs[k]? = some ((i.combine j).combine j) := by
    rw [e']
    show (combineZip Input.combine r.inputs q.inputs)[k]? = _
    simp only [combineZip_getElem?, k1, e2]
  have k3 := congrArg Input.nonWitnessUtxo (Option.some.inj (k1.symm.trans k2))
  obtain ⟨w, hw⟩ := Option.ne_none_iff_exists'.mp w2
  obtain ⟨x, hx⟩ := Option.ne_none_iff_exists'.mp w3
  simp [Input.combine, V2.combUtxos, V2.combOpt, w1, hw, hx] at k3

def agA : Psbt DL := cP cI cI
def agB (nw : Option Tx) : Psbt DL := cP { cI with witnessUtxo := some cU, nonWitnessUtxo := nw } cI
example : ((agA.combine (agB none)).1.combine (agB none)) = ((agA.combine (agB none)).1, .ok ()) ∧
    ((agA.combine (agB (some cT))).1.combine (agB (some cT))) ≠ ((agA.combine (agB (some cT))).1, .ok ()) := by
  have ok : ∀ nw, nw = none ∨ nw = some cT → agA.combine (agB nw) = ((agA.combine (agB nw)).1, .ok ()) := by
    rintro nw (rfl | rfl) <;> exact Prod.ext rfl (by decide +kernel)
  refine ⟨(C48_again_iff_partial (ok _ (.inl rfl))).mpr ?_, fun hr => (C48_again_iff_partial (ok _ (.inr rfl))).mp hr 0 _ _ rfl rfl ⟨rfl, by simp, by simp⟩⟩
  intro k i j _ h2 hu
  rcases (show j = { cI with witnessUtxo := some cU, nonWitnessUtxo := none } ∨ j = cI by simpa [agB, cP] using List.mem_of_getElem? h2) with rfl | rfl
  · exact hu.2.2 rfl
  · exact hu.2.2 rfl

end V0
end Psbt
