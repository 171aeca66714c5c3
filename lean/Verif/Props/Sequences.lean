/- C59, C108: the transaction signed and the transaction extracted, or that of the other version, are the same exactly if every input
states its sequence number. -/
import Verif.Props.V2Extract
import Verif.Props.V2Satisfy
import Verif.Props.BothVersionsCombine
namespace Psbt
variable {L : Lib}

namespace V2

/-- C59, exactly: the extracted transaction without scriptSigs and witnesses is the unsigned transaction if and only if every input
states its sequence number. -/
theorem C59_iff_partial {p : Psbt L} {t : Tx} (ht : Extractor.extractUnchecked p = .ok t) :
    p.unsignedTx = .ok (Spec.stripped t) ↔ ∀ i ∈ p.inputs, i.sequence ≠ none := by
  refine ⟨fun hu i hi hs => ?_, fun hs => C59_partial hs ht⟩
  obtain ⟨-, n, ts, hn, h1, rfl⟩ := extractUnchecked_ok.mp ht
  obtain ⟨n', -, e⟩ := unsignedTx_ok.mp hu
  obtain ⟨k, e1⟩ := List.getElem?_of_mem hi
  have h2 := congrArg (fun l => l[k]?) h1
  have h3 := congrArg (fun x : Tx => x.input[k]?) e
  simp only [Spec.stripped, List.getElem?_map, e1, Option.map_some] at h2 h3
  cases e2 : ts[k]? with
  | none => rw [e2] at h2; simp at h2
  | some x =>
    rw [e2] at h2 h3
    simp only [Option.map_some, Option.some.injEq] at h2 h3
    obtain ⟨-, -, -, h5⟩ := signedTxIn_ok.mp h2
    have h6 := congrArg TxIn.sequence h3
    simp only [Input.unsignedTxIn, hs, Option.getD_none] at h6
    rcases h5 with h5 | ⟨-, h5⟩
    · rw [hs] at h5; cases h5
    · rw [h5] at h6; exact absurd h6 (by decide)

example : ∃ t u, Extractor.extractUnchecked (eP [{ eFin (eIn 5) with sequence := some 7 }] [3]) = .ok t ∧
    (eP [{ eFin (eIn 5) with sequence := some 7 }] [3]).unsignedTx = .ok (Spec.stripped t) ∧
    Extractor.extractUnchecked (eP [eFin (eIn 5)] [3]) = .ok u ∧ (eP [eFin (eIn 5)] [3]).unsignedTx ≠ .ok (Spec.stripped u) := by
  have h1 : Extractor.extractUnchecked (eP [{ eFin (eIn 5) with sequence := some 7 }] [3]) =
    .ok ⟨2, 0, [⟨⟨Demo.rep 32 1, 0⟩, [], 7, [[1, 2]]⟩], [⟨3, [9]⟩]⟩ := by decide
  have h2 : Extractor.extractUnchecked (eP [eFin (eIn 5)] [3]) =
    .ok ⟨2, 0, [⟨⟨Demo.rep 32 1, 0⟩, [], 0xFFFFFFFF, [[1, 2]]⟩], [⟨3, [9]⟩]⟩ := by decide
  refine ⟨_, _, h1, (C59_iff_partial h1).mpr ?_, h2, fun h => (C59_iff_partial h2).mp h (eFin (eIn 5)) (List.mem_singleton.mpr rfl) rfl⟩
  intro i hi
  rw [show i = { eFin (eIn 5) with sequence := some 7 } from List.mem_singleton.mp hi]
  simp

/-- C63, exactly: the transaction against which the finalizer has the signatures checked is the one the signers signed if and only if
no input states a sequence number but zero and the lock time is the fallback lock time. -/
theorem C63_signed_iff_partial {M : MsLib L} {p q : Psbt L} {debug : Bool} (hf : ∀ i ∈ p.inputs, ∃ u, Spec.FundedBy i u)
    (h : Finalizer.finalize M debug p = .ok q) :
    p.unsignedTx = .ok (Spec.checkedTx p) ↔
      (∀ i ∈ p.inputs, i.sequence = none ∨ i.sequence = some 0) ∧ Spec.LockTime p (p.global.fallbackLockTime.getD 0) := by
  rw [← C40_unsigned_tx_partial hf h]
  obtain ⟨e1, e2, e3, e4, -⟩ := (C41_finalize_iff hf debug q).mp h
  obtain ⟨g, js, os⟩ := q
  simp only at e1 e2 e3 e4
  subst e1 e2
  rw [forms_unsigned (forms_iff.mpr ⟨e3, e4⟩)]
  exact ⟨fun h => h.symm, fun h => h.symm⟩

example : (eP [fIn] [3]).unsignedTx = .ok (Spec.checkedTx (eP [fIn] [3])) := by
  have h : Finalizer.finalize FM true (eP [fIn] [3]) = .ok (fDone (eP [fIn] [3])) := by decide +kernel
  refine (C63_signed_iff_partial (M := FM) ?_ h).mpr ⟨?_, .fallback ?_⟩
  all_goals intro i hi; rw [show i = fIn from List.mem_singleton.mp hi]
  · exact ⟨_, .witness rfl⟩
  · exact .inl rfl
  · rintro (h | h) <;> exact h rfl

end V2

namespace Both
open Psbt.Spec

/-- C108, exactly: the unsigned transactions of the same PSBT in both versions are equal if and only if the v2 PSBT has all sequence
numbers. -/
theorem C108_unsigned_tx_iff_partial {p : V0.Psbt L} {q : V2.Psbt L} (h : SameButTapSigs p q) :
    q.unsignedTx = .ok p.unsignedTx ↔ ∀ j ∈ q.inputs, j.sequence ≠ none := by
  refine ⟨fun hu j hj hs => ?_, C108_unsigned_tx_partial h⟩
  obtain ⟨n, -, e⟩ := V2.unsignedTx_ok.mp hu
  obtain ⟨k, e1⟩ := List.getElem?_of_mem hj
  have h3 : p.unsignedTx.input[k]? = some j.unsignedTxIn := by rw [e]; simp [e1]
  obtain ⟨-, -, c, -⟩ := h.txIn.2 k _ j h3 e1
  simp [V2.Input.unsignedTxIn, hs] at c

example : (vQ (some 5)).unsignedTx = .ok (down (vQ (some 5)) 0).unsignedTx ∧ (vQ none).unsignedTx ≠ .ok (down (vQ none) 0).unsignedTx := by
  refine ⟨(C108_unsigned_tx_iff_partial (vSame _).toSameButTapSigs).mpr (by simp [vQ]), fun h => ?_⟩
  have := (C108_unsigned_tx_iff_partial (vSame _).toSameButTapSigs).mp h
  simp [vQ] at this

end Both
end Psbt
