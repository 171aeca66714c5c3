/- C99: exactly when the signatures of a PSBT v2 survive. -/
import Verif.Props.V2Resequence
namespace Psbt.V2
open Psbt

variable {L : Lib} {S : SigLib L}

/-- C99. Whatever constructors accept to add to a signed PSBT with honest flags: a signature is still one for the larger transaction exactly
if the lock time that the inputs now ask for is the one it had, unless the hash function fails. -/
theorem C99_survives_iff_partial {p q : Psbt L} {h : Spec.Holds} {is : List (Input L)} {n : Nat} {i : Input L} {u : TxOut} {pk : L.pubkey.T}
    {s : EcdsaSig L} {tx tx' : Tx} {m : Hash32} (hf : Spec.HonestFlags p) (he : Spec.Extended p h q is)
    (hs : i.partialSigs.get pk = some s) (hm : Spec.Signs tx p n i m s.ty) (hp : p.unsignedTx = .ok tx) (hq : q.unsignedTx = .ok tx')
    (hsm : tx.Small) (hsm' : tx'.Small) (hu : Spec.FundedBy i u) (hc : Spec.ProperScripts i u)
    (hsingle : s.ty.1 = 0x03 ∨ s.ty.1 = 0x83 → n < tx.output.length) :
    (Spec.Signs tx' q n i m s.ty ↔ Spec.LockTime q tx.lockTime) ∨ Spec.HashFails tx tx' n i i u s.ty := by
  by_cases hh : Spec.HashFails tx tx' n i i u s.ty
  · exact .inr hh
  refine .inl ?_
  obtain ⟨l, hl, e⟩ := unsignedTx_ok.mp hp
  obtain ⟨l', hl', e'⟩ := unsignedTx_ok.mp hq
  have e1 : tx.lockTime = l := by rw [e]
  have e2 : tx'.lockTime = l' := by rw [e']
  constructor
  · intro hm'
    rw [← C17_lock_time_iff, hl', ← e2]
    obtain ⟨hi, u1, hu1, hd, hm⟩ := hm
    cases fundedBy_unique hu hu1
    obtain ⟨hj, u2, hu2, hd', hm'⟩ := hm'
    cases fundedBy_unique hu hu2
    have hb : Spec.commitsOutput s.ty → n < tx'.output.length := by
      intro hk
      obtain ⟨os, ho, -⟩ := (extended_grown he).1.outputs
      have := hsingle hk
      rw [e] at this
      rw [e', ho]
      simp only [List.length_map, List.length_append] at this ⊢
      omega
    rcases message_pair hc hm hm' with ⟨code, c1, c2, c3, c4, c5, c6⟩ | ⟨code, c2, c3, c4, c5, c6⟩
    · rcases C37_legacy_commits hsm hsm' c2 c2 c1 hsingle hb c3 c4 with r | ⟨-, -, r, -⟩
      · exact absurd ⟨_, _, c5, c6, .inl r⟩ hh
      · rw [r]
    · rcases C37_segwit_commits hsm hsm' c2 c2 c3 c4 with r | r | ⟨-, -, r, -⟩
      · exact absurd ⟨_, _, c5, c6, .inl r⟩ hh
      · exact absurd ⟨_, _, c5, c6, .inr r⟩ hh
      · rw [r]
  · intro hk
    rw [← C17_lock_time_iff, hl'] at hk
    injection hk with hk
    exact C99_kept_partial hf he hs hm hp hq (by rw [e2, hk])

-- The hypotheses are met, with both results: the lock time stays if the input added requires nothing, and changes if it requires a height.
example : Spec.HonestFlags xQ ∧ (xTx xQ).Small ∧ (∀ i ∈ xQ.inputs, ∃ u, Spec.FundedBy i u ∧ Spec.ProperScripts i u) ∧
    ∀ h : Option Height, h = none ∨ h = some ⟨100, by decide⟩ → Spec.Extended xQ .psbt (xR h) [xIn h] ∧ (xTx (xR h)).Small ∧
      (Spec.LockTime (xR h) (xTx xQ).lockTime ↔ h = none) ∧
      ((xR h).sighashEcdsa 0 (xTx (xR h)) = xQ.sighashEcdsa 0 (xTx xQ) ↔ h = none) := by
  refine ⟨?_, by unfold Tx.Small TxIn.Small; decide +kernel, fun i hi => ⟨⟨1000, spkWpkh⟩, ?_⟩, ?_⟩
  · obtain ⟨u, hs⟩ := xSigned
    obtain ⟨tx, -, h⟩ := signer_sign_iff.mp hs
    exact C78_sign xP_honest h
  · have h1 : ∀ i ∈ xQ.inputs, i.witnessUtxo = some ⟨1000, spkWpkh⟩ ∧ i.redeemScript = none ∧ i.witnessScript = none := by decide +kernel
    obtain ⟨a, b, c⟩ := h1 i hi
    refine ⟨.witness a, ⟨by decide, by decide⟩, fun r h => ?_, fun w h => ?_⟩
    · rw [b] at h; cases h
    · rw [c] at h; cases h
  · rintro h (rfl | rfl)
    · refine ⟨xExtended none ⟨0, by decide +kernel⟩, by unfold Tx.Small TxIn.Small; decide +kernel, ?_, by decide +kernel⟩
      rw [← C17_lock_time_iff]; decide +kernel
    · refine ⟨xExtended _ ⟨100, by decide +kernel⟩, by unfold Tx.Small TxIn.Small; decide +kernel, ?_, by decide +kernel⟩
      rw [← C17_lock_time_iff]; decide +kernel

end Psbt.V2
