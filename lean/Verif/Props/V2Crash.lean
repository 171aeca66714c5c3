/- C129: what can make a call on a PSBT v2, or on a role made from it, panic. -/
import Verif.Spec.V2Crash
import Verif.Props.V2Roles
import Verif.Props.V2LockTime
import Verif.Props.V2Sign
import Verif.Props.V2Extract
import Verif.Props.V2Finalize
namespace Psbt.V2
open Psbt Psbt.Spec

variable {L : Lib} {S : SigLib L} {M : MsLib L}

theorem finalizerNew_is {p f : Psbt L} (h : Finalizer.new p = .ok f) : f = p ∧ (∀ i ∈ p.inputs, ∃ u, FundedBy i u) ∧
    ∃ n, p.determineLockTime = .ok n := by
  unfold Finalizer.new at h
  split at h
  · cases h
  · rename_i h1
    split at h
    · cases h
    · cases h
    · rename_i h2
      split at h
      · cases h
      · cases h; exact ⟨rfl, checkFunded_ok.mp h1, _, h2⟩

theorem roleNew_calm {p : Psbt L} {w : String} : Constructor.psbt p ≠ .error (.panic w) := by
  intro h
  unfold Constructor.psbt at h
  cases hl : p.determineLockTime with
  | ok n => rw [hl] at h; cases h
  | error e =>
    rw [hl] at h
    cases e with
    | err e => cases h
    | panic s => exact C18_never_panics p s hl

theorem extract_calm {p r : Psbt L} (h : Extractor.new p = .ok r) {max : UInt64} {w : String} :
    Extractor.extractWithLimit r max ≠ .error (.panic w) := by
  obtain rfl := (extractorNew_ok.mp h).1
  intro hw
  rcases C32_never_panics h max with ⟨_, e⟩ | ⟨_, e, -⟩ | ⟨_, e, -⟩ <;> rw [e] at hw <;> cases hw

theorem sighash_err_iff {p : Psbt L} {tx : Tx} (ht : p.unsignedTx = .ok tx) {n : Nat} {i : Input L} (hs : Signable p n i) :
    (∃ e, p.sighashEcdsa n tx = .error (.err e)) ↔ ∀ m ty, ¬ Signs tx p n i m ty := by
  constructor
  · rintro ⟨e, he⟩ m ty h
    rw [signs_iff.mpr ⟨i, h⟩] at he; cases he
  · intro h
    cases hr : p.sighashEcdsa n tx with
    | ok r =>
      obtain ⟨j, hj⟩ := signs_iff.mp hr
      obtain rfl : j = i := Option.some.inj (hj.1.1.symm.trans hs.1.1)
      exact absurd hj (h _ _)
    | error e =>
      cases e with
      | err e => exact ⟨e, rfl⟩
      | panic s =>
        exact absurd hr (C37_never_panics_partial p n tx
          (Nat.lt_of_lt_of_le (List.getElem?_eq_some_iff.mp hs.1.1).1 (signer_unsignedTx_len ht)) s)

/-- C129. There are exactly two things about a PSBT that can make a call on it, or on a role made from it, panic: an input to
sign has no message - and it takes a signer that has no key for it -, or all inputs can be finalized but one of them has no
witness UTXO. -/
theorem C129_v2_crashes_iff (p : Psbt L) (debug : Bool) : Crashes S M debug p ↔ NoMessage p ∨ NoWitnessUtxo M debug p := by
  constructor
  · intro h
    have lt : ∀ w, p.determineLockTime ≠ .error (.panic w) := C18_never_panics p
    have tx_of : ∀ {n}, p.determineLockTime = .ok n → ∃ tx, p.unsignedTx = .ok tx := fun h => ⟨_, unsignedTx_ok.mpr ⟨_, h, rfl⟩⟩
    have id_of : ∀ {n}, p.determineLockTime = .ok n → ∃ x, p.id = .ok x := fun h => ⟨_, id_ok.mpr ⟨_, h, rfl⟩⟩
    cases h with
    | lockTime h => exact absurd h (lt _)
    | @sighashEcdsa tx n w ht h =>
      by_cases hn : n < p.inputs.length
      · exact absurd h (C37_never_panics_partial p n tx (Nat.lt_of_lt_of_le hn (signer_unsignedTx_len ht)) w)
      · unfold Psbt.sighashEcdsa Psbt.signingAlgorithm Psbt.outputType Psbt.checkedInput Psbt.checkInputIndex at h
        rw [if_pos (by omega)] at h
        cases h
    | updaterNew h => exact absurd h roleNew_calm
    | updaterId hr h =>
      obtain ⟨rfl, n, hn⟩ := updaterNew_ok hr
      obtain ⟨x, hx⟩ := id_of hn
      unfold Updater.id at h
      rw [hx] at h; cases h
    | setSequence hr h => exact absurd h (C21_set_sequence_never_panics _ _ _ _)
    | signerNew h => exact absurd h roleNew_calm
    | signerId hr h =>
      obtain ⟨rfl, n, hn⟩ := signerNew_ok hr
      obtain ⟨x, hx⟩ := id_of hn
      unfold Signer.id at h
      rw [hx] at h; cases h
    | signerTx hr h =>
      obtain ⟨rfl, n, hn⟩ := signerNew_ok hr
      obtain ⟨x, hx⟩ := tx_of hn
      unfold Signer.unsignedTx at h
      rw [hx] at h; cases h
    | @sign r k w hr h =>
      obtain ⟨rfl, n, hn⟩ := signerNew_ok hr
      obtain ⟨tx, ht⟩ := tx_of hn
      left
      refine Classical.byContradiction fun hno => (C35_never_panics_partial (S := S) (k := k) ht).mpr ?_ w h
      intro m i e h1 h2
      exact absurd ⟨tx, m, i, ht, h1, (sighash_err_iff ht h1).mp ⟨e, h2⟩⟩ hno
    | finalizerNew h =>
      unfold Finalizer.new at h
      split at h
      · cases h
      · split at h
        · cases h
        · rename_i e; exact absurd e (lt _)
        · split at h <;> cases h
    | finalizerId hr h =>
      obtain ⟨rfl, -, n, hn⟩ := finalizerNew_is hr
      obtain ⟨x, hx⟩ := id_of hn
      unfold Finalizer.id at h
      rw [hx] at h; cases h
    | finalize hr h =>
      obtain ⟨rfl, hf, -⟩ := finalizerNew_is hr
      exact .inr ⟨hr, (C41_panic_iff hf debug).mp ⟨_, h⟩⟩
    | extractorNew h => exact absurd h ((C31_extractor_iff p).2 _)
    | extractorId hr h =>
      obtain rfl := (extractorNew_ok.mp hr).1
      obtain ⟨x, hx, -⟩ := C31_id_never_panics hr
      rw [hx] at h; cases h
    | extractUnchecked hr h =>
      obtain rfl := (extractorNew_ok.mp hr).1
      obtain ⟨t, ht, -⟩ := C31_extraction hr
      rw [ht] at h; cases h
    | extractTx hr h => exact absurd h (extract_calm hr)
    | extractWithLimit hr h => exact absurd h (extract_calm hr)
  · rintro (⟨tx, n, i, ht, hs, hm⟩ | ⟨hr, h⟩)
    · obtain ⟨e, he⟩ := (sighash_err_iff ht hs).mpr hm
      obtain ⟨l, hl, -⟩ := unsignedTx_ok.mp ht
      have hr : Signer.new p = .ok p := by
        unfold Signer.new; rw [hl]; rfl
      have : ¬ ∀ w, Signer.sign S p (fun _ => .ok none) ≠ .error (.panic w) := by
        rw [C35_never_panics_partial ht]
        intro h
        refine h n i e hs he ?_
        simp [keysFor, answer]
      obtain ⟨w, hw⟩ : ∃ w, Signer.sign S p (fun _ => .ok none) = .error (.panic w) :=
        Classical.byContradiction fun hn => this fun w hw => hn ⟨w, hw⟩
      exact .sign hr hw
    · obtain ⟨_, hf, -⟩ := finalizerNew_is hr
      obtain ⟨w, hw⟩ := (C41_panic_iff hf debug).mpr h
      exact .finalize hr hw

/-! ### Bytes that lead to a panic -/

/-- Two signed inputs, the second a legacy one. -/
def crBoth : Psbt EL := ⟨{ Global.new EL with inputCount := 2, outputCount := 1 }, [fIn, fLegacy], [Output.new EL ⟨3, [9]⟩]⟩
def crWsh : Psbt SL := sP [sIn spkWsh]

theorem crIs {p : Psbt EL} (h : (match Psbt.deserialize EL p.serialize with | .ok q => decide (q = p) | _ => false) = true) :
    Psbt.deserialize EL p.serialize = .ok p := by
  split at h
  · rename_i e; rw [e, of_decide_eq_true h]
  · cases h

/-- C129 fails: there are bytes that are read without complaint and make a signer panic. -/
theorem C129_v2_sign_counterexample : ∃ (b : Bytes) (p : Psbt SL) (k : Provider SS) (w : String), Psbt.deserialize SL b = .ok p ∧
    Signer.new p = .ok p ∧ Signer.sign SS p k = .error (.panic w) :=
  ⟨crWsh.serialize, crWsh, sKeys, "at this stage we know its ok", crIs (by decide +kernel), by decide +kernel, rfl⟩

/-- C129 fails: there are bytes that are read without complaint, that the finalizer accepts, and make it panic, with or without
debug assertions. -/
theorem C129_v2_finalize_counterexample : ∃ (b : Bytes) (p : Psbt EL), Psbt.deserialize EL b = .ok p ∧ Finalizer.new p = .ok p ∧
    fPanics (Finalizer.finalize FM true p) = true ∧ fPanics (Finalizer.finalize FM false p) = true :=
  ⟨crBoth.serialize, crBoth, crIs (by decide +kernel), by decide +kernel, by decide +kernel, by decide +kernel⟩

-- Both sides of the theorem hold of these, and neither of a PSBT with the first input alone.
example : NoMessage crWsh ∧ NoWitnessUtxo FM true crBoth := by
  have h1 := (C129_v2_crashes_iff (S := SS) (M := FM) crWsh true).mp
    (.sign (r := crWsh) (k := sKeys) (w := "at this stage we know its ok") (by decide +kernel) rfl)
  have h2 : ∃ w, Finalizer.finalize FM true crBoth = .error (.panic w) := by
    have : fPanics (Finalizer.finalize FM true crBoth) = true := by decide +kernel
    unfold fPanics at this
    split at this
    · exact ⟨_, by assumption⟩
    · cases this
  have hr : Finalizer.new crBoth = .ok crBoth := by decide +kernel
  obtain ⟨w, hw⟩ := h2
  refine ⟨h1.resolve_right ?_, hr, (C41_panic_iff (finalizerNew_is hr).2.1 true).mp ⟨w, hw⟩⟩
  rintro ⟨-, js, us, n, i, -, -, -, hi, hu, -⟩
  match n, hi with
  | 0, hi => cases hi; cases hu
  | n + 1, hi => cases hi
def crFirst : Psbt EL := ⟨{ Global.new EL with inputCount := 1, outputCount := 1 }, [fIn], [Output.new EL ⟨3, [9]⟩]⟩
example : ¬ Crashes SS FM false crFirst := by
  rw [C129_v2_crashes_iff]
  rintro (⟨tx, n, i, ht, hs, hm⟩ | ⟨-, js, us, n, i, -, -, -, hi, hu, -⟩)
  · match n, hs with
    | 0, hs =>
      obtain ⟨e, he⟩ := (sighash_err_iff ht hs).mpr hm
      have h : (match crFirst.unsignedTx with
        | .ok tx => match crFirst.sighashEcdsa 0 tx with | .ok _ => true | _ => false
        | _ => false) = true := by decide +kernel
      rw [ht] at h
      simp only [he] at h
      cases h
    | n + 1, hs => exact absurd hs.1.1 (by simp [crFirst])
  · match n, hi with
    | 0, hi => cases hi; cases hu
    | n + 1, hi => cases hi

end Psbt.V2
