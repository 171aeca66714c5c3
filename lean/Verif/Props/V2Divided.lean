/- C128, version 2: a finalized PSBT is combined with the one it came from. -/
import Verif.Props.V2Finalize
import Verif.Props.V2Extract
import Verif.Props.V2Combine
namespace Psbt.V2
open Psbt Psbt.Spec

variable {L : Lib} {M : MsLib L}

/-- `r` keeps the lock times that `is` asks for, and is extracted to `ts` with the sequence numbers of `is`. -/
def Restored (is r : List (Input L)) (ts : List TxIn) : Prop :=
  r.map Input.signedTxIn = (List.zipWith (fun x i => { x with sequence := i.sequence.getD SEQUENCE_MAX }) ts is).map .ok ∧
  (r.map fun i => (i.minTime, i.minHeight)) = (is.map fun i => (i.minTime, i.minHeight)) ∧ r.all Input.isFinalized = true

theorem restored_lists {is js : List (Input L)} (hl : js.length = is.length)
    (h : ∀ (n : Nat) i j, is[n]? = some i → js[n]? = some j → ∃ s w, j = onlyFinal i (some s) (some w)) :
    ∃ ts : List TxIn, ts.length = is.length ∧ js.map Input.signedTxIn = ts.map .ok ∧ (∀ x ∈ ts, x.sequence = SEQUENCE_MAX) ∧
      js.all Input.isFinalized = true ∧ (∀ j ∈ js, j.minTime = none ∧ j.minHeight = none) ∧
      (∃ r, combineZip Input.combine js is = .ok r ∧ Restored is r ts) ∧
      ((∀ i ∈ is, i.finalScriptSig = none ∧ i.finalScriptWitness = none) →
        ∃ r, combineZip Input.combine is js = .ok r ∧ Restored is r ts) := by
  induction is generalizing js with
  | nil =>
    have : js = [] := by simpa using hl
    subst this
    exact ⟨[], rfl, rfl, by simp, rfl, by simp, ⟨[], rfl, rfl, rfl, rfl⟩, fun _ => ⟨[], rfl, rfl, rfl, rfl⟩⟩
  | cons i is ih =>
    cases js with
    | nil => simp at hl
    | cons j js =>
      obtain ⟨s, w, rfl⟩ := h 0 i j rfl rfl
      obtain ⟨ts, e1, e2, e3, e4, e5, ⟨r, e6, e7, e8, e9⟩, e10⟩ := ih (js := js) (by simpa using hl)
        (fun n a b ha hb => h (n + 1) a b (by simpa using ha) (by simpa using hb))
      have c1 : (onlyFinal i (some s) (some w)).combine i = .ok ((onlyFinal i (some s) (some w)).merge i) :=
        inputCombine_ok.mpr ⟨rfl, rfl, rfl⟩
      have c2 : i.combine (onlyFinal i (some s) (some w)) = .ok (i.merge (onlyFinal i (some s) (some w))) :=
        inputCombine_ok.mpr ⟨rfl, rfl, rfl⟩
      have n1 : ∀ {α : Type} (o : Option α), combOpt none o = o := fun o => by cases o <;> rfl
      have n2 : ∀ {α : Type} (o : Option α), combOpt o none = o := fun o => by cases o <;> rfl
      refine ⟨⟨i.outPoint, s, SEQUENCE_MAX, w⟩ :: ts, by simp [e1], ?_, ?_, ?_, ?_, ?_, ?_⟩
      · simp only [List.map_cons, e2]; rfl
      · simpa using e3
      · simp only [List.all_cons, e4, Bool.and_true]; rfl
      · simp only [List.mem_cons, forall_eq_or_imp]; exact ⟨⟨rfl, rfl⟩, e5⟩
      · refine ⟨_ :: r, by simp only [combineZip, c1, e6]; rfl, ?_, ?_, ?_⟩
        · simp only [List.map_cons, List.zipWith_cons_cons, e7, List.cons.injEq, and_true]
          simp only [Input.signedTxIn, Input.merge, onlyFinal, Input.new, show ∀ o, combOpt (some s) o = some s from fun o => by cases o <;> rfl,
            show ∀ o, combOpt (some w) o = some w from fun o => by cases o <;> rfl, n1, Input.outPoint]
        · simp only [List.map_cons, e8, List.cons.injEq, and_true]
          simp only [Input.merge, onlyFinal, Input.new, n1]
        · simp only [List.all_cons, e9, Bool.and_true]; rfl
      · intro hn
        obtain ⟨r, e6, e7, e8, e9⟩ := e10 (fun a ha => hn a (by simp [ha]))
        obtain ⟨n3, n4⟩ := hn i (by simp)
        refine ⟨_ :: r, by simp only [combineZip, c2, e6]; rfl, ?_, ?_, ?_⟩
        · simp only [List.map_cons, List.zipWith_cons_cons, e7, List.cons.injEq, and_true]
          simp only [Input.signedTxIn, Input.merge, onlyFinal, Input.new, n1, n2, n3, n4, Input.outPoint]
        · simp only [List.map_cons, e8, List.cons.injEq, and_true]
          simp only [Input.merge, onlyFinal, Input.new, n2]
        · simp only [List.all_cons, e9, Bool.and_true, Input.isFinalized, Input.merge, onlyFinal, n1, n3, n4]; rfl

theorem globalCombine_self (g : Global L) : g.combine g = .ok g :=
  globalCombine_ok.mpr ⟨rfl, rfl, fun _ => mergeOpt_self _, by simp only [BMap.extend_self]⟩

theorem outputs_self (os : List (Output L)) : combineZip Output.combine os os = .ok os :=
  combineZip_self fun a _ => outputCombine_ok.mpr ⟨rfl, rfl, a.merge_self.symm⟩

theorem restored_extract {p r : Psbt L} {t : Tx} (hg : r.global = p.global) (ho : r.outputs = p.outputs)
    (h : Restored p.inputs r.inputs t.input) (hv : t.version = p.global.txVersion) (hto : t.output = p.outputs.map Output.txOut) (u : Tx) :
    Extractor.extractUnchecked r = .ok u ↔ ∃ n, LockTime p n ∧
      u = { t with lockTime := n, input := List.zipWith (fun x i => { x with sequence := i.sequence.getD SEQUENCE_MAX }) t.input p.inputs } := by
  obtain ⟨h1, h2, h3⟩ := h
  rw [extractUnchecked_ok, lockTime_congr (p := r) (q := p) (by rw [hg]) h2]
  constructor
  · rintro ⟨-, n, ts, hn, hts, rfl⟩
    refine ⟨n, (C17_lock_time_iff _ _).mp hn, ?_⟩
    have : ts = _ := (List.map_inj_right (f := (Except.ok : TxIn → Out Empty TxIn)) (by intro a b; simp)).mp (hts.symm.trans h1)
    rw [hg, ho, hv, hto, this]
  · rintro ⟨n, hn, rfl⟩
    exact ⟨h3, n, _, (C17_lock_time_iff _ _).mpr hn, h1, by rw [hg, ho, hv, hto]⟩

/-- C128 (version 2). Whoever has finalized a PSBT can extract a transaction, in which every sequence number is the highest and the lock
time is the fallback. They can combine the result with a copy that is not finalized, in either order; both accept. From the combination
the same transaction is extracted, except that it has the lock time and the sequence numbers of the copy again. -/
theorem C128_v2_restored {p q : Psbt L} {debug : Bool} (hf : ∀ i ∈ p.inputs, ∃ u, FundedBy i u)
    (hn : ∀ i ∈ p.inputs, i.finalScriptSig = none ∧ i.finalScriptWitness = none) (h : Finalizer.finalize M debug p = .ok q) :
    ∃ (t : Tx) (r r' : Psbt L), Extractor.extractUnchecked q = .ok t ∧
      t.lockTime = p.global.fallbackLockTime.getD 0 ∧ t.input.length = p.inputs.length ∧ (∀ x ∈ t.input, x.sequence = SEQUENCE_MAX) ∧
      q.combine p = .ok r ∧ p.combine q = .ok r' ∧
      ∀ s, s = r ∨ s = r' → ∀ u, Extractor.extractUnchecked s = .ok u ↔ ∃ n, LockTime p n ∧
        u = { t with lockTime := n, input := List.zipWith (fun x i => { x with sequence := i.sequence.getD SEQUENCE_MAX }) t.input p.inputs } := by
  obtain ⟨h1, h2, h3, h4, h5, -⟩ := (C41_finalize_iff hf debug q).mp h
  obtain ⟨ts, e1, e2, e3, e4, e5, ⟨a, e6, e7⟩, e8⟩ := restored_lists h3 (fun n i j hi hj => by
    cases h4 n i j hi hj with
    | segwit => exact ⟨_, _, rfl⟩
    | legacy _ hu => exact absurd hu (h5 i (List.mem_of_getElem? hi)))
  obtain ⟨b, e9, e10⟩ := e8 hn
  have hd : q.determineLockTime = .ok (p.global.fallbackLockTime.getD 0) := by
    rw [C17_lock_time_iff, ← h1]
    exact .fallback fun j hj => by simp [Constrained, e5 j hj]
  refine ⟨⟨p.global.txVersion, p.global.fallbackLockTime.getD 0, ts, p.outputs.map Output.txOut⟩, ⟨p.global, a, p.outputs⟩,
    ⟨p.global, b, p.outputs⟩, ?_, rfl, e1, e3, ?_, ?_, ?_⟩
  · exact extractUnchecked_ok.mpr ⟨e4, _, ts, hd, e2, by rw [h1, h2]⟩
  · exact combine_ok.mpr ⟨by rw [h1]; exact globalCombine_self _, e6, by rw [h2]; exact outputs_self _⟩
  · exact combine_ok.mpr ⟨by rw [h1]; exact globalCombine_self _, e9, by rw [h2]; exact outputs_self _⟩
  · rintro s (rfl | rfl) u
    · exact restored_extract (p := p) (r := ⟨p.global, a, p.outputs⟩) (t := ⟨_, _, ts, _⟩) rfl rfl e7 rfl rfl u
    · exact restored_extract (p := p) (r := ⟨p.global, b, p.outputs⟩) (t := ⟨_, _, ts, _⟩) rfl rfl e10 rfl rfl u

/-- C128 (version 2, partial). The combination yields the transaction that was finalized exactly if the copy asks for no sequence number
but the highest, and its lock time is the fallback. -/
theorem C128_v2_same_partial {p q r : Psbt L} {debug : Bool} (hf : ∀ i ∈ p.inputs, ∃ u, FundedBy i u)
    (hn : ∀ i ∈ p.inputs, i.finalScriptSig = none ∧ i.finalScriptWitness = none) (h : Finalizer.finalize M debug p = .ok q)
    (hr : q.combine p = .ok r ∨ p.combine q = .ok r) :
    Extractor.extractUnchecked r = Extractor.extractUnchecked q ↔
      (∀ i ∈ p.inputs, i.sequence = none ∨ i.sequence = some SEQUENCE_MAX) ∧ LockTime p (p.global.fallbackLockTime.getD 0) := by
  obtain ⟨t, a, b, h1, h2, h3, h4, h5, h6, h7⟩ := C128_v2_restored hf hn h
  have hs : r = a ∨ r = b := by
    rcases hr with hr | hr
    · rw [h5] at hr; cases hr; exact .inl rfl
    · rw [h6] at hr; cases hr; exact .inr rfl
  have key : List.zipWith (fun x i => { x with sequence := i.sequence.getD SEQUENCE_MAX }) t.input p.inputs = t.input ↔
      ∀ i ∈ p.inputs, i.sequence = none ∨ i.sequence = some SEQUENCE_MAX := by
    generalize t.input = ts at h3 h4
    generalize p.inputs = is at h3
    induction ts generalizing is with
    | nil => have : is = [] := by simpa using h3.symm
             subst this; simp
    | cons x ts ih =>
      cases is with
      | nil => simp at h3
      | cons i is =>
        have hx : x.sequence = SEQUENCE_MAX := h4 x (by simp)
        simp only [List.zipWith_cons_cons, List.cons.injEq, List.mem_cons, forall_eq_or_imp,
          ih (fun y hy => h4 y (by simp [hy])) is (by simpa using h3)]
        refine and_congr ?_ Iff.rfl
        cases x with
        | mk o s n w =>
          simp only at hx
          subst hx
          cases i.sequence <;> simp
  rw [h1, h7 r hs]
  constructor
  · rintro ⟨n, hl, e⟩
    cases t with
    | mk v l i o =>
      simp only [Tx.mk.injEq, true_and, and_true] at e h2
      exact ⟨key.mp e.2.symm, by rw [← h2, e.1]; exact hl⟩
  · rintro ⟨hk, hl⟩
    refine ⟨_, hl, ?_⟩
    rw [key.mpr hk, ← h2]

section Examples
/-- The combination of two PSBTs. -/
def vdAnd (p q : Psbt EL) : Psbt EL := match p.combine q with | .ok r => r | .error _ => p
theorem vdAnd_ok {p q : Psbt EL} (h : (match p.combine q with | .ok _ => true | .error _ => false) = true) : p.combine q = .ok (vdAnd p q) := by
  unfold vdAnd
  split <;> simp_all
theorem vdFunded (i : Input EL) (h : i.witnessUtxo ≠ none) : ∀ j ∈ (eP [i] [3]).inputs, ∃ u, FundedBy j u := by
  intro j hj
  simp only [eP, List.mem_singleton] at hj
  subst hj
  cases hw : j.witnessUtxo with
  | none => exact absurd hw h
  | some u => exact ⟨u, .witness hw⟩
end Examples

example : (eP [fIn] [3]).inputs ≠ [] ∧ Extractor.extractUnchecked (vdAnd (fDone (eP [fIn] [3])) (eP [fIn] [3])) =
    Extractor.extractUnchecked (fDone (eP [fIn] [3])) :=
  ⟨by decide, (C128_v2_same_partial (M := FM) (debug := true) (vdFunded fIn (by decide)) (by decide) (by decide +kernel)
    (.inl (vdAnd_ok (by decide +kernel)))).mpr
    ⟨by decide, .fallback (by simp [eP, Constrained, fIn, Input.new])⟩⟩

/-- C128 fails (version 2): a PSBT is finalized, and the result is combined with a copy of the PSBT. Another transaction is extracted from
the combination, for which the final scripts were not made. -/
theorem C128_v2_counterexample : ∃ (p q r r' : Psbt EL) (t u : Tx), Finalizer.new p = .ok p ∧ Finalizer.finalize FM true p = .ok q ∧
    Extractor.extractUnchecked q = .ok t ∧ q.combine p = .ok r ∧ p.combine q = .ok r' ∧
    Extractor.extractUnchecked r = .ok u ∧ Extractor.extractUnchecked r' = .ok u ∧
    t.lockTime = 0 ∧ u.lockTime = 7 ∧ t.input.map TxIn.sequence = [SEQUENCE_MAX] ∧ u.input.map TxIn.sequence = [9] ∧
    t.input.map TxIn.witness = u.input.map TxIn.witness :=
  ⟨eP [fLocked] [3], fDone (eP [fLocked] [3]), vdAnd (fDone (eP [fLocked] [3])) (eP [fLocked] [3]),
    vdAnd (eP [fLocked] [3]) (fDone (eP [fLocked] [3])),
    ⟨2, 0, [⟨⟨Demo.rep 32 1, 0⟩, [], SEQUENCE_MAX, [fSig.der.bytes, fKey.bytes]⟩], [⟨3, [9]⟩]⟩,
    ⟨2, 7, [⟨⟨Demo.rep 32 1, 0⟩, [], 9, [fSig.der.bytes, fKey.bytes]⟩], [⟨3, [9]⟩]⟩,
    by decide +kernel, by decide +kernel, by decide +kernel, vdAnd_ok (by decide +kernel), vdAnd_ok (by decide +kernel), by decide +kernel,
    by decide +kernel,
    rfl, rfl, rfl, rfl, rfl⟩

end Psbt.V2
