/- C127: what the checks around finalizing complain about is so. -/
import Verif.Spec.FinalizeTold
import Verif.Props.V2Finalize
import Verif.Props.V2Extract
import Verif.Props.V0Finalize
namespace Psbt
open Psbt.Spec

variable {L : Lib}

theorem firstAt_unique {α : Type} {ok : Nat → α → Prop} {l : List α} {n m : Nat} {i j : α} (h : FirstAt ok l n i) (h' : FirstAt ok l m j)
    (hi : ¬ ok n i) (hj : ¬ ok m j) : n = m ∧ i = j := by
  have : n = m := by
    rcases Nat.lt_trichotomy n m with hl | hl | hl
    · exact absurd (h'.2 n i hl h.1) hi
    · exact hl
    · exact absurd (h.2 m j hl h'.1) hj
  subst this
  exact ⟨rfl, Option.some.inj (h.1.symm.trans h'.1)⟩

theorem firstAt_zero {α : Type} {ok : Nat → α → Prop} {a : α} {l : List α} : FirstAt ok (a :: l) 0 a :=
  ⟨rfl, fun _ _ h => absurd h (Nat.not_lt_zero _)⟩

theorem firstAt_succ {α : Type} {ok : α → Prop} {a : α} {l : List α} {n : Nat} {i : α} (ha : ok a) (h : FirstAt (fun _ => ok) l n i) :
    FirstAt (fun _ => ok) (a :: l) (n + 1) i := by
  refine ⟨h.1, fun m j hm hj => ?_⟩
  cases m with
  | zero => cases hj; exact ha
  | succ m => exact h.2 m j (by omega) hj

theorem sigsWrong_not {d : EcdsaTy → Prop} (hd : ∀ a b, d a → d b → a = b) {sigs : BMap L.pubkey.T (EcdsaSig L)} {e}
    (h : SigsWrong d sigs e) : ¬ SigsFit d sigs := by
  rintro ⟨ty, h1, h2⟩
  cases h with
  | nonStandard h => exact h ty h1
  | other g1 g2 g3 g4 => cases hd _ _ h1 g1; exact g3 (h2 _ _ g2)

theorem sigsWrong_unique {d : EcdsaTy → Prop} (hd : ∀ a b, d a → d b → a = b) {sigs : BMap L.pubkey.T (EcdsaSig L)} {e e'}
    (h : SigsWrong d sigs e) (h' : SigsWrong d sigs e') : e = e' := by
  cases h with
  | nonStandard h => cases h' with
    | nonStandard _ => rfl
    | other g _ _ _ => exact absurd g (h _)
  | @other ty pk sig g1 g2 g3 g4 => cases h' with
    | nonStandard h => exact absurd g1 (h _)
    | @other ty' pk' sig' k1 k2 k3 k4 =>
      cases hd _ _ g1 k1
      rcases OrdKey.tri pk pk' with hl | hl | hl
      · exact absurd (k4 _ _ hl g2) g3
      · subst hl; cases g2.symm.trans k2; rfl
      · exact absurd (g4 _ _ hl k2) k3

/-- The first element of a sorted list that does not fit. -/
theorem first_wrong {ty : EcdsaTy} {a : L.pubkey.T × EcdsaSig L} {l : List (L.pubkey.T × EcdsaSig L)} (hs : KSorted (a :: l)) :
    (∀ y ∈ a :: l, OrdKey.lt y.1 a.1 = true → y.2.ty = ty) ∧
    ∀ x : L.pubkey.T × EcdsaSig L, a.2.ty = ty → (∀ y ∈ l, OrdKey.lt y.1 x.1 = true → y.2.ty = ty) →
      ∀ y ∈ a :: l, OrdKey.lt y.1 x.1 = true → y.2.ty = ty := by
  constructor
  · intro y hy hlt
    rcases List.mem_cons.mp hy with rfl | hy
    · simp [OrdKey.irrefl] at hlt
    · have := OrdKey.trans _ _ _ hlt (hs.lt_of_mem _ hy)
      simp [OrdKey.irrefl] at this
  · intro x ha h y hy hlt
    rcases List.mem_cons.mp hy with rfl | hy
    · exact ha
    · exact h y hy hlt

namespace V2

theorem checkSigs_first {n : Nat} {ty : EcdsaTy} {l : List (L.pubkey.T × EcdsaSig L)} (hs : KSorted l) {e : PartialSigsErr L}
    (h : checkSigs n ty l = .error e) :
    ∃ x ∈ l, x.2.ty ≠ ty ∧ e = .wrongFlag n ty x.2.ty x.1 ∧ ∀ y ∈ l, OrdKey.lt y.1 x.1 = true → y.2.ty = ty := by
  induction l with
  | nil => cases h
  | cons a l ih =>
    obtain ⟨pk, sig⟩ := a
    rw [checkSigs, ecdsaTyOf_self] at h
    simp only at h
    split at h
    · rename_i hne
      cases h
      exact ⟨_, List.mem_cons_self, fun h => hne h.symm, rfl, (first_wrong hs).1⟩
    · rename_i heq
      obtain ⟨x, h1, h2, h3, h4⟩ := ih hs.tail h
      exact ⟨x, List.mem_cons_of_mem _ h1, h2, h3, (first_wrong hs).2 x (Classical.not_not.mp heq).symm h4⟩

theorem told_declared {i : Input L} (a b : EcdsaTy) (ha : DeclaredType i a) (hb : DeclaredType i b) : a = b := by
  rw [← inputHashTy_iff] at ha hb
  exact Option.some.inj (ha.symm.trans hb)

theorem checkFrom_told {n : Nat} {is : List (Input L)} {e : PartialSigsErr L} (h : checkPartialSigsFrom n is = .error e) :
    ∃ k i x, FirstAt (fun _ j => SigsFit (DeclaredType j) j.partialSigs) is k i ∧ SigsWrong (DeclaredType i) i.partialSigs x ∧
      e = match x with
        | none => .nonStandardInput (n + k)
        | some (ty, got, pk) => .wrongFlag (n + k) ty got pk := by
  induction is generalizing n with
  | nil => cases h
  | cons i is ih =>
    rw [checkPartialSigsFrom] at h
    cases e' : i.ecdsaHashTy with
    | none =>
      simp only [e'] at h
      cases h
      refine ⟨0, i, none, firstAt_zero, .nonStandard fun ty h => ?_, rfl⟩
      rw [inputHashTy_iff.mpr h] at e'; cases e'
    | some ty =>
      simp only [e'] at h
      have hd := inputHashTy_iff.mp e'
      cases e2 : checkSigs n ty i.partialSigs.l with
      | error x =>
        simp only [e2] at h
        cases h
        obtain ⟨x, hx, hne, rfl, hb⟩ := checkSigs_first i.partialSigs.sorted e2
        exact ⟨0, i, some (ty, x.2.ty, x.1), firstAt_zero, .other hd (BMap.mem_iff_get.mp hx) hne
          fun pk' sig' hl hg => hb (pk', sig') (BMap.mem_iff_get.mpr hg) hl, rfl⟩
      | ok u =>
        simp only [e2] at h
        obtain ⟨k, j, x, h1, h2, h3⟩ := ih h
        have hk : n + 1 + k = n + (k + 1) := by omega
        exact ⟨k + 1, j, x, firstAt_succ ⟨ty, hd, fun pk sig hg => checkSigs_ok.mp e2 (pk, sig) (BMap.mem_iff_get.mpr hg)⟩ h1, h2,
          by rw [← hk]; exact h3⟩

theorem sigsTold_unique {p : Psbt L} {e e' : PartialSigsErr L} (h : SigsTold p e) (h' : SigsTold p e') : e = e' := by
  have key : ∀ {n m i j x y}, FirstAt (fun _ j => SigsFit (DeclaredType j) j.partialSigs) p.inputs n i →
      SigsWrong (DeclaredType i) i.partialSigs x → FirstAt (fun _ j => SigsFit (DeclaredType j) j.partialSigs) p.inputs m j →
      SigsWrong (DeclaredType j) j.partialSigs y → n = m ∧ x = y := by
    intro n m i j x y h1 h2 h3 h4
    obtain ⟨rfl, rfl⟩ := firstAt_unique h1 h3 (sigsWrong_not told_declared h2) (sigsWrong_not told_declared h4)
    exact ⟨rfl, sigsWrong_unique told_declared h2 h4⟩
  cases h with
  | nonStandard a b => cases h' with
    | nonStandard c d => obtain ⟨rfl, hx⟩ := key a b c d; rfl
    | other c d => obtain ⟨rfl, hx⟩ := key a b c d; cases hx
  | other a b => cases h' with
    | nonStandard c d => obtain ⟨rfl, hx⟩ := key a b c d; cases hx
    | other c d => obtain ⟨rfl, hx⟩ := key a b c d; cases hx; rfl

/-- C127. The check of the types of partial signatures fails exactly with the error that tells what is wrong first. -/
theorem C127_v2_signatures (p : Psbt L) (e : PartialSigsErr L) : p.checkPartialSigsSighashType = .error e ↔ SigsTold p e := by
  have sound : ∀ {e}, p.checkPartialSigsSighashType = .error e → SigsTold p e := by
    intro e h
    obtain ⟨k, i, x, h1, h2, rfl⟩ := checkFrom_told h
    rw [Nat.zero_add]
    cases x with
    | none => exact .nonStandard h1 h2
    | some x => exact .other h1 h2
  refine ⟨sound, fun h => ?_⟩
  cases he : p.checkPartialSigsSighashType with
  | error e' => rw [sigsTold_unique h (sound he)]
  | ok _ =>
    have hc := (C39_check_iff p).mp he
    cases h with
    | nonStandard h1 h2 => exact absurd (hc _ (List.mem_of_getElem? h1.1)) (sigsWrong_not told_declared h2)
    | other h1 h2 => exact absurd (hc _ (List.mem_of_getElem? h1.1)) (sigsWrong_not told_declared h2)

theorem checkFunded_told {is : List (Input L)} {e : FundingErr} :
    checkFunded is = .error e ↔ ∃ n i, FirstAt (fun _ j => ∃ u, FundedBy j u) is n i ∧ FundingFails i e := by
  induction is with
  | nil => simp [checkFunded, FirstAt]
  | cons a is ih =>
    unfold checkFunded
    have hf := C30_funding_utxo a
    cases ha : a.fundingUtxo with
    | error x =>
      simp only [Except.error.injEq]
      have hx := (hf.2 x).mp ha
      have hn : ¬ ∃ u, FundedBy a u := fun ⟨u, hu⟩ => by rw [(hf.1 u).mpr hu] at ha; cases ha
      constructor
      · rintro rfl; exact ⟨0, a, firstAt_zero, hx⟩
      · rintro ⟨n, i, h1, h2⟩
        cases n with
        | zero =>
          cases h1.1
          exact Except.error.inj (ha.symm.trans ((hf.2 e).mpr h2))
        | succ n => exact absurd (h1.2 0 a (by omega) rfl) hn
    | ok u =>
      simp only
      have hu := (hf.1 u).mp ha
      rw [ih]
      constructor
      · rintro ⟨n, i, h1, h2⟩
        exact ⟨n + 1, i, firstAt_succ ⟨u, hu⟩ h1, h2⟩
      · rintro ⟨n, i, h1, h2⟩
        cases n with
        | zero =>
          cases h1.1
          have := ha.symm.trans ((hf.2 e).mpr h2)
          cases this
        | succ n => exact ⟨n, i, ⟨h1.1, fun m j hm hj => h1.2 (m + 1) j (by omega) hj⟩, h2⟩

/-- C127. `Finalizer::new` never panics and fails exactly with the error that tells the first thing that is wrong: an input whose output
is not known, lock times that cannot be met together, signatures of the wrong type. -/
theorem C127_v2_new (p : Psbt L) : (∀ s, Finalizer.new p ≠ .error (.panic s)) ∧
    ∀ e, Finalizer.new p = .error (.err e) ↔ FinalizerTold p e := by
  refine ⟨fun s h => C41_new_error h, fun e => ?_⟩
  unfold Finalizer.new
  cases h1 : checkFunded p.inputs with
  | error x =>
    have hn : ¬ ∀ i ∈ p.inputs, ∃ u, FundedBy i u := by rw [← checkFunded_ok, h1]; simp
    simp only [Except.error.injEq, Fail.err.injEq]
    constructor
    · rintro rfl
      obtain ⟨n, i, g1, g2⟩ := checkFunded_told.mp h1
      exact .funding g1 g2
    · intro h
      cases h with
      | funding g1 g2 => rw [Except.error.inj (h1.symm.trans (checkFunded_told.mpr ⟨_, _, g1, g2⟩))]
      | lockTime g _ => exact absurd g hn
      | sigs g _ _ => exact absurd g hn
  | ok _ =>
    have hy := checkFunded_ok.mp h1
    have hno : ∀ e, FinalizerTold p (.fundingUtxo e) → False := by
      intro e h
      cases h with
      | funding g1 g2 =>
        have := checkFunded_told.mpr ⟨_, _, g1, g2⟩
        rw [h1] at this; cases this
    cases h2 : p.determineLockTime with
    | error x =>
      cases x with
      | panic s => exact absurd h2 (C18_never_panics p s)
      | err x =>
        have hc := (C17_error_iff p x).mp h2
        simp only [Except.error.injEq, Fail.err.injEq]
        constructor
        · rintro rfl; exact .lockTime hy hc
        · intro h
          cases h with
          | funding g1 g2 => exact (hno _ (.funding g1 g2)).elim
          | @lockTime e _ _ => cases e; cases x; rfl
          | sigs _ g _ => exact absurd hc g
    | ok n =>
      have hc : ¬ Conflict p := fun h => by
        rw [(C17_error_iff p .conflict).mpr h] at h2; cases h2
      cases h3 : p.checkPartialSigsSighashType with
      | error x =>
        simp only [Except.error.injEq, Fail.err.injEq]
        constructor
        · rintro rfl; exact .sigs hy hc ((C127_v2_signatures p x).mp h3)
        · intro h
          cases h with
          | funding g1 g2 => exact (hno _ (.funding g1 g2)).elim
          | lockTime _ g => exact absurd g hc
          | sigs _ _ g => rw [Except.error.inj (h3.symm.trans ((C127_v2_signatures p _).mpr g))]
      | ok _ =>
        simp only [reduceCtorEq, false_iff]
        intro h
        cases h with
        | funding g1 g2 => exact hno _ (.funding g1 g2)
        | lockTime _ g => exact hc g
        | sigs _ _ g =>
          have := (C127_v2_signatures p _).mpr g
          rw [h3] at this; cases this

-- Each error occurs.
section Examples
example : FinalizerTold (eP [fIn, { fIn with witnessUtxo := none }] [3]) (.fundingUtxo .missing) :=
  ((C127_v2_new _).2 _).mp (by decide +kernel)
example : FinalizerTold (eP [fIn, { fIn with sighashType := some 3 }] [3]) (.partialSigs (.wrongFlag 1 ⟨3, by decide⟩ ⟨1, by decide⟩ fKey)) :=
  ((C127_v2_new _).2 _).mp (by decide +kernel)
example : FinalizerTold (eP [fIn, { fIn with sighashType := some 0 }] [3]) (.partialSigs (.nonStandardInput 1)) :=
  ((C127_v2_new _).2 _).mp (by decide +kernel)
example : FinalizerTold (eP [{ fIn with minHeight := some ⟨5, by decide⟩ }, { fIn with minTime := some ⟨600000000, by decide⟩ }] [3])
    (.lockTime .conflict) := ((C127_v2_new _).2 _).mp (by decide +kernel)
end Examples

end V2

namespace V0
open Psbt.Spec.V0
variable {M : MsLib L}

theorem sanitySigs_first {n : Nat} {ty : EcdsaTy} {l : List (L.pubkey.T × EcdsaSig L)} (hs : KSorted l) {e : FinErr L}
    (h : sanitySigs n ty l = .error e) :
    ∃ x ∈ l, x.2.ty ≠ ty ∧ e = .input (.wrongSighashFlag ty x.2.ty x.1) n ∧ ∀ y ∈ l, OrdKey.lt y.1 x.1 = true → y.2.ty = ty := by
  induction l with
  | nil => cases h
  | cons a l ih =>
    obtain ⟨pk, sig⟩ := a
    unfold sanitySigs at h
    split at h
    · rename_i hne
      cases h
      exact ⟨_, List.mem_cons_self, fun h => hne h.symm, rfl, (first_wrong hs).1⟩
    · rename_i heq
      obtain ⟨x, h1, h2, h3, h4⟩ := ih hs.tail h
      exact ⟨x, List.mem_cons_of_mem _ h1, h2, h3, (first_wrong hs).2 x (Classical.not_not.mp heq).symm h4⟩

theorem told_declared {i : Input L} (a b : EcdsaTy) (ha : Spec.V0.DeclaredType i a) (hb : Spec.V0.DeclaredType i b) : a = b := by
  rw [← inputHashTy_iff] at ha hb
  exact Option.some.inj (ha.symm.trans hb)

theorem sanityFrom_told {n : Nat} {is : List (Input L)} {e : FinErr L} (h : sanityFrom n is = .error e) :
    ∃ k i x, FirstAt (fun _ j => SigsFit (Spec.V0.DeclaredType j) j.partialSigs) is k i ∧
      SigsWrong (Spec.V0.DeclaredType i) i.partialSigs x ∧
      e = match x with
        | none => .input .nonStandardSighashType (n + k)
        | some (ty, got, pk) => .input (.wrongSighashFlag ty got pk) (n + k) := by
  induction is generalizing n with
  | nil => cases h
  | cons i is ih =>
    unfold sanityFrom at h
    cases e' : i.ecdsaHashTy with
    | none =>
      simp only [e'] at h
      cases h
      refine ⟨0, i, none, firstAt_zero, .nonStandard fun ty h => ?_, rfl⟩
      rw [inputHashTy_iff.mpr h] at e'; cases e'
    | some ty =>
      simp only [e'] at h
      have hd := inputHashTy_iff.mp e'
      cases e2 : sanitySigs n ty i.partialSigs.l with
      | error x =>
        simp only [e2] at h
        cases h
        obtain ⟨x, hx, hne, rfl, hb⟩ := sanitySigs_first i.partialSigs.sorted e2
        exact ⟨0, i, some (ty, x.2.ty, x.1), firstAt_zero, .other hd (BMap.mem_iff_get.mp hx) hne
          fun pk' sig' hl hg => hb (pk', sig') (BMap.mem_iff_get.mpr hg) hl, rfl⟩
      | ok u =>
        simp only [e2] at h
        obtain ⟨k, j, x, h1, h2, h3⟩ := ih h
        have hk : n + 1 + k = n + (k + 1) := by omega
        exact ⟨k + 1, j, x, firstAt_succ ⟨ty, hd, fun pk sig hg => sanitySigs_ok.mp e2 (pk, sig) (BMap.mem_iff_get.mpr hg)⟩ h1, h2,
          by rw [← hk]; exact h3⟩

theorem sanityTold_not {p : Psbt L} {e : FinErr L} (h : SanityTold p e) : ¬ Sane p := by
  rintro ⟨h1, h2⟩
  cases h with
  | count h => exact h h1
  | nonStandard _ g1 g2 => exact sigsWrong_not told_declared g2 (h2 _ (List.mem_of_getElem? g1.1))
  | other _ g1 g2 => exact sigsWrong_not told_declared g2 (h2 _ (List.mem_of_getElem? g1.1))

theorem sanityTold_unique {p : Psbt L} {e e' : FinErr L} (h : SanityTold p e) (h' : SanityTold p e') : e = e' := by
  have key : ∀ {n m i j x y}, FirstAt (fun _ j => SigsFit (Spec.V0.DeclaredType j) j.partialSigs) p.inputs n i →
      SigsWrong (Spec.V0.DeclaredType i) i.partialSigs x →
      FirstAt (fun _ j => SigsFit (Spec.V0.DeclaredType j) j.partialSigs) p.inputs m j →
      SigsWrong (Spec.V0.DeclaredType j) j.partialSigs y → n = m ∧ x = y := by
    intro n m i j x y h1 h2 h3 h4
    obtain ⟨rfl, rfl⟩ := firstAt_unique h1 h3 (sigsWrong_not told_declared h2) (sigsWrong_not told_declared h4)
    exact ⟨rfl, sigsWrong_unique told_declared h2 h4⟩
  cases h with
  | count g => cases h' with
    | count _ => rfl
    | nonStandard g' _ _ => exact absurd g' g
    | other g' _ _ => exact absurd g' g
  | nonStandard g a b => cases h' with
    | count g' => exact absurd g g'
    | nonStandard _ c d => obtain ⟨rfl, hx⟩ := key a b c d; rfl
    | other _ c d => obtain ⟨rfl, hx⟩ := key a b c d; cases hx
  | other g a b => cases h' with
    | count g' => exact absurd g g'
    | nonStandard _ c d => obtain ⟨rfl, hx⟩ := key a b c d; cases hx
    | other _ c d => obtain ⟨rfl, hx⟩ := key a b c d; cases hx; rfl

theorem sane_iff {p : Psbt L} : p.sanityCheck = .ok () ↔ Sane p := by
  rw [sanityCheck_ok]
  exact ⟨fun h => ⟨h.1.symm, h.2⟩, fun h => ⟨h.1.symm, h.2⟩⟩

/-- The sanity check fails exactly with the error that tells what is wrong first. -/
theorem sanityCheck_told {p : Psbt L} {e : FinErr L} : p.sanityCheck = .error e ↔ SanityTold p e := by
  have sound : ∀ {e}, p.sanityCheck = .error e → SanityTold p e := by
    intro e h
    unfold Psbt.sanityCheck at h
    split at h
    · rename_i hl; cases h; exact .count hl
    · rename_i hl
      obtain ⟨k, i, x, h1, h2, rfl⟩ := sanityFrom_told h
      rw [Nat.zero_add]
      cases x with
      | none => exact .nonStandard (Classical.not_not.mp hl) h1 h2
      | some x => exact .other (Classical.not_not.mp hl) h1 h2
  refine ⟨sound, fun h => ?_⟩
  cases he : p.sanityCheck with
  | error e' => rw [sanityTold_unique h (sound he)]
  | ok _ => exact absurd (sane_iff.mp he) (sanityTold_not h)

/-- C127. `finalize` and `finalize_mall` refuse a PSBT, and leave it as it is, if the sanity check finds something; the error tells
what. -/
theorem C127_v0_finalize (p : Psbt L) (mall : Bool) {e : FinErr L} (h : SanityTold p e) : p.finalizeHelper M mall = .ok (p, .error e) := by
  unfold Psbt.finalizeHelper
  rw [sanityCheck_told.mpr h]

theorem extractFrom_told {n : Nat} {ts : List TxIn} {is : List (Input L)} (hl : is.length = ts.length) {e : Fail (FinErr L)}
    (h : extractFrom n ts is = .error e) :
    ∃ k i, FirstAt (fun _ j => j.finalScriptSig ≠ none ∨ j.finalScriptWitness ≠ none) is k i ∧ i.finalScriptSig = none ∧
      i.finalScriptWitness = none ∧ e = .err (.missingWitness (n + k)) := by
  induction is generalizing n ts with
  | nil => cases ts <;> cases h
  | cons i is ih =>
    cases ts with
    | nil => simp at hl
    | cons t ts =>
      unfold extractFrom at h
      split at h
      · rename_i hc
        cases h
        simp only [Bool.and_eq_true, Option.isNone_iff_eq_none] at hc
        exact ⟨0, i, firstAt_zero, hc.1, hc.2, rfl⟩
      · rename_i hc
        simp only at h
        cases he : extractFrom (n + 1) ts is with
        | ok r => rw [he] at h; cases h
        | error e' =>
          rw [he] at h
          cases h
          obtain ⟨k, j, h1, h2, h3, h4⟩ := ih (by simpa using hl) he
          refine ⟨k + 1, j, firstAt_succ ?_ h1, h2, h3, by rw [h4]; congr 2; omega⟩
          cases a : i.finalScriptSig <;> cases b : i.finalScriptWitness <;> simp_all

theorem interpFrom_told {p : Psbt L} {us : List TxOut} (hf : Funding p.unsignedTx.input p.inputs us) {n : Nat} {is : List (Input L)}
    (h : p.inputs.drop n = is)
    (hb : ∀ m j, m < n → p.inputs[m]? = some j → Verdict M p m (j.finalScriptSig.getD []) (j.finalScriptWitness.getD []) none)
    {e : Fail (FinErr L)} (he : p.interpFrom M us n is = .error e) :
    ∃ k i e', FirstAt (fun m j => Verdict M p m (j.finalScriptSig.getD []) (j.finalScriptWitness.getD []) none) p.inputs k i ∧
      e = .err (.input (.interpreter e') k) ∧ Verdict M p k (i.finalScriptSig.getD []) (i.finalScriptWitness.getD []) (some e') := by
  induction is generalizing n with
  | nil => cases he
  | cons i is ih =>
    have hi : p.inputs[n]? = some i := by
      have := congrArg (·[0]?) h
      simpa using this
    have hd : p.inputs.drop (n + 1) = is := by
      have := congrArg (List.drop 1) h
      simpa [List.drop_drop, Nat.add_comm] using this
    obtain ⟨t, u, h1, h2⟩ := funding_funded hf hi
    unfold Psbt.interpFrom at he
    rw [interpInpCheck_eq h1 h2] at he
    cases e1 : M.interp ⟨u.scriptPubkey, i.finalScriptSig.getD [], i.finalScriptWitness.getD [], t.sequence, p.unsignedTx.lockTime,
        p.unsignedTx, n, us⟩ with
    | some e' =>
      rw [e1] at he
      cases he
      exact ⟨n, i, e', ⟨hi, hb⟩, rfl, t, i, u, us, h1, h2, hf, e1⟩
    | none =>
      rw [e1] at he
      refine ih hd (fun m j hm hj => ?_) he
      by_cases hmn : m = n
      · subst hmn
        cases hi.symm.trans hj
        exact ⟨t, i, u, us, h1, h2, hf, e1⟩
      · exact hb m j (by omega) hj

theorem verdict_unique {p : Psbt L} {n : Nat} {s : Bytes} {w : List Bytes} {r r'} (h : Verdict M p n s w r) (h' : Verdict M p n s w r') :
    r = r' := by
  obtain ⟨t, i, u, us, h1, h2, h3, h4⟩ := h
  obtain ⟨t', i', u', us', g1, g2, g3, g4⟩ := h'
  cases h1.1.symm.trans g1.1
  cases h1.2.symm.trans g1.2
  cases fundedBy_unique h2 g2
  cases funding_unique h3 g3
  exact h4.symm.trans g4

theorem verdict_funded {p : Psbt L} {n : Nat} {s : Bytes} {w : List Bytes} {r} (h : Verdict M p n s w r) {k : Nat} :
    ¬ FirstUnfunded p k := by
  rintro ⟨⟨i, hi, hu⟩, -⟩
  obtain ⟨t, j, u, us, -, -, hf, -⟩ := h
  obtain ⟨t, u, -, g⟩ := funding_funded hf hi
  have := hu.1; have := hu.2
  cases g <;> simp_all

theorem extractTold_unique {p : Psbt L} {e e' : FinErr L} (h : ExtractTold M p e) (h' : ExtractTold M p e') : e = e' := by
  have fin : ∀ {n i}, FirstAt (fun _ j => j.finalScriptSig ≠ none ∨ j.finalScriptWitness ≠ none) p.inputs n i →
      i.finalScriptSig = none → i.finalScriptWitness = none → ¬ AllFinal p := by
    intro n i h1 h2 h3 ha
    have := ha i (List.mem_of_getElem? h1.1)
    simp [h2, h3] at this
  cases h with
  | sanity a => cases h' with
    | sanity b => exact sanityTold_unique a b
    | missing b _ _ _ => exact absurd b (sanityTold_not a)
    | unfunded b _ _ => exact absurd b (sanityTold_not a)
    | rejected b _ _ _ => exact absurd b (sanityTold_not a)
  | missing a a1 a2 a3 => cases h' with
    | sanity b => exact absurd a (sanityTold_not b)
    | missing b b1 b2 b3 =>
      obtain ⟨rfl, -⟩ := firstAt_unique a1 b1 (by simp [a2, a3]) (by simp [b2, b3])
      rfl
    | unfunded _ b _ => exact absurd b (fin a1 a2 a3)
    | rejected _ b _ _ => exact absurd b (fin a1 a2 a3)
  | @unfunded n a a1 a2 => cases h' with
    | sanity b => exact absurd a (sanityTold_not b)
    | missing b b1 b2 b3 => exact absurd a1 (fin b1 b2 b3)
    | @unfunded m _ _ b2 =>
      obtain ⟨⟨i, hi, hu⟩, hb⟩ := a2
      obtain ⟨⟨j, hj, hv⟩, hc⟩ := b2
      rcases Nat.lt_trichotomy n m with hl | rfl | hl
      · exact absurd hu (hc n i hl hi)
      · rfl
      · exact absurd hv (hb m j hl hj)
    | rejected _ _ _ b => exact absurd a2 (verdict_funded b)
  | rejected a a1 a2 a3 => cases h' with
    | sanity b => exact absurd a (sanityTold_not b)
    | missing b b1 b2 b3 => exact absurd a1 (fin b1 b2 b3)
    | unfunded _ _ b => exact absurd b (verdict_funded a3)
    | rejected _ _ b2 b3 =>
      have no : ∀ {n : Nat} {i : Input L} {e}, Verdict M p n (i.finalScriptSig.getD []) (i.finalScriptWitness.getD []) (some e) →
          ¬ Verdict M p n (i.finalScriptSig.getD []) (i.finalScriptWitness.getD []) none := fun h h' => by cases verdict_unique h h'
      obtain ⟨rfl, rfl⟩ := firstAt_unique a2 b2 (no a3) (no b3)
      cases verdict_unique a3 b3
      rfl

/-- C127. Extracting a transaction from a PSBT v0, with its scripts checked, fails exactly with the error that tells the first thing that
is wrong, if the non-witness UTXOs that are needed have the output spent. -/
theorem C127_v0_extract {p : Psbt L} (hr : IndicesInRange p) (e : FinErr L) : p.extract M = .error (.err e) ↔ ExtractTold M p e := by
  have sound : ∀ {e}, p.extract M = .error (.err e) → ExtractTold M p e := by
    intro e h
    unfold Psbt.extract at h
    cases h1 : p.sanityCheck with
    | error e => rw [h1] at h; cases h; exact .sanity (sanityCheck_told.mp h1)
    | ok _ =>
      have hs := sane_iff.mp h1
      have hl := hs.1.symm
      rw [h1] at h
      have hp : Sound p := ⟨hl, hr⟩
      simp only [V2.orFail, ok_bind] at h
      cases h2 : extractFrom 0 p.unsignedTx.input p.inputs with
      | error e' =>
        rw [h2] at h
        cases h
        obtain ⟨k, i, g1, g2, g3, g4⟩ := extractFrom_told hl h2
        cases g4
        rw [Nat.zero_add]
        exact .missing hs g1 g2 g3
      | ok r =>
        have ha := ((extractFrom_ok hl).mp h2).1
        simp only [h2, ok_bind] at h
        cases h3 : p.interpreterCheck M with
        | ok _ => rw [h3] at h; cases h
        | error e' =>
          rw [h3] at h
          cases h
          unfold Psbt.interpreterCheck at h3
          rcases prevouts_cases hp with ⟨us, g1, g2⟩ | ⟨k, g1, g2⟩
          · rw [g1] at h3
            simp only [ok_bind] at h3
            obtain ⟨k, i, e', k1, k2, k3⟩ := interpFrom_told g2 (n := 0) rfl (fun _ _ h => absurd h (Nat.not_lt_zero _)) h3
            cases k2
            exact .rejected hs ha k1 k3
          · rw [g1] at h3
            cases h3
            exact .unfunded hs ha g2
  refine ⟨sound, fun h => ?_⟩
  cases he : p.extract M with
  | error x =>
    cases x with
    | err x => rw [extractTold_unique h (sound he)]
    | panic s => exact (C69_errors hr he).elim
  | ok tx =>
    obtain ⟨h1, h2, h3, h4, -⟩ := (C69_extract_iff p tx).mp he
    cases h with
    | sanity g => exact absurd ⟨h1.symm, h2⟩ (sanityTold_not g)
    | missing _ g1 g2 g3 =>
      have := h3 _ (List.mem_of_getElem? g1.1)
      simp [g2, g3] at this
    | unfunded _ _ g =>
      obtain ⟨⟨i, hi, -⟩, -⟩ := id g
      exact absurd g (verdict_funded (h4 _ _ hi))
    | rejected _ _ g1 g2 => cases verdict_unique g2 (h4 _ _ g1.1)

-- Each error occurs.
example : SanityTold (gP [zWsh [7], { zIn with sighashType := some 3 }]) (.input (.wrongSighashFlag ⟨3, by decide⟩ ⟨1, by decide⟩ V2.fKey) 1) :=
  sanityCheck_told.mp (by decide +kernel)
example : SanityTold (gP [zIn, { zIn with sighashType := some 0 }]) (.input .nonStandardSighashType 1) := sanityCheck_told.mp (by decide +kernel)
example : SanityTold ({ gP [zIn] with inputs := [zIn, zIn] }) (.wrongInputCount 1 2) := .count (by decide)
def zFin (w : List Bytes) : Input gL := onlyFinal (zWsh [7]) [] w
example : IndicesInRange (gP [zFin [[7]], zIn]) ∧ ExtractTold V2.FM (gP [zFin [[7]], zIn]) (.missingWitness 1) :=
  have h := (zSound [zFin [[7]], zIn] (by decide)).2
  ⟨h, (C127_v0_extract h _).mp (by decide +kernel)⟩
example : ExtractTold V2.FM (gP [zFin [[7]], { zFin [[7]] with witnessUtxo := none }]) (.input .missingUtxo 1) :=
  (C127_v0_extract (zSound _ (by decide)).2 _).mp (by decide +kernel)
example : ExtractTold V2.FM (gP [zFin [[7]], zFin [[0xee]], zFin [[0xee]]]) (.input (.interpreter .satisfaction) 1) :=
  (C127_v0_extract (zSound _ (by decide)).2 _).mp (by decide +kernel)

end V0
end Psbt
