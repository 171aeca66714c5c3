/- C129: what can make a call on a PSBT v0 panic, whatever bytes it was read from and whatever was done to it. -/
import Verif.Spec.V0Crash
import Verif.Props.V0HandOver
import Verif.Props.V0Checks
import Verif.Props.V0Sign
import Verif.Props.V0Extract
import Verif.Props.V0Finalize
import Verif.Props.V0SighashMsg
import Verif.Lemmas.V0Taproot
namespace Psbt.V0
open Psbt Psbt.Spec.V0

variable {L : Lib} {S : SigLib L} {M : MsLib L} {U : UpdLib L}

theorem finalizeInp_calm {p : Psbt L} (hp : Sound p) {n : Nat} {w : String} : p.finalizeInp M n ≠ .error (.panic w) := by
  intro h
  rcases (C66_error_iff hp n _).mp h with ⟨-, e⟩ | ⟨_, -, e⟩ <;> cases e

theorem interpreterCheck_calm {p : Psbt L} (hp : Sound p) {w : String} : p.interpreterCheck M ≠ .error (.panic w) := by
  intro h
  unfold Psbt.interpreterCheck at h
  rcases prevouts_cases hp with ⟨us, g1, g2⟩ | ⟨k, g1, g2⟩
  · rw [g1] at h
    simp only [ok_bind] at h
    obtain ⟨k, i, e', k1, e, k2⟩ := interpFrom_error g2 (n := 0) rfl h
    cases e
  · rw [g1] at h; cases h

theorem calm {p : Psbt L} (hp : Sound p) : ¬ Crashes S M p := by
  intro h
  have hd : ∀ n t i, HasInput p n t i → ¬ Dangling t i := fun n t i h => not_dangling hp.2 h
  cases h with
  | signerChecks h => have := C52_panic_only h; have := hp.1; omega
  | spendUtxo h => exact spendUtxo_no_panic hp.2 _ _ h
  | fundingUtxos h =>
    unfold Psbt.fundingUtxos at h
    rw [if_neg (fun h => h hp.1)] at h
    cases h
  | @sighashEcdsa n w h =>
    by_cases hn : n < p.unsignedTx.input.length
    · exact sighashEcdsa_no_panic p n _ hn (hd n) _ h
    · unfold Psbt.sighashEcdsa Psbt.signingAlgorithm Psbt.outputType Psbt.checkedInput at h
      rw [if_pos (by have := hp.1; omega)] at h
      cases h
  | sighashTaproot h => exact sighashTaproot_no_panic hp.2 _ h
  | sighashMsg h => exact C70_no_panic hp _ _ _ _ h
  | sign h => exact (C50_panics_iff p _).mp ⟨_, h⟩ hp.2
  | @finalizeMut mall w h =>
    obtain ⟨rs, is, h1, -⟩ := C67_each (M := M) hp mall
    rw [h1] at h; cases h
  | @finalizeHelper mall w h =>
    obtain ⟨c, q, r, h1, -⟩ := C67_stops (M := M) hp mall
    rw [h1] at h; cases h
  | finalizeInp h => exact finalizeInp_calm hp h
  | @finalizeInpMall n w h =>
    rw [(C68_single_partial hp n).1] at h
    exact finalizeInp_calm hp h
  | interpreterCheck h => exact interpreterCheck_calm hp h
  | extract h => exact C69_errors hp.2 h
  | fee h =>
    rcases C49_fee_errors h with ⟨_, -, h2⟩ | ⟨h1, -⟩ | ⟨h1, -⟩ | ⟨h1, -⟩ | ⟨h1, -⟩
    · exact h2 hp.1
    all_goals cases h1
  | extractTx h => exact C49_never_panics_partial hp.1 hp.2 _ _ h
  | extractWithLimit h => exact C49_never_panics_partial hp.1 hp.2 _ _ h

/-- C129. Whatever bytes a PSBT was read from and whatever was done to it, there is exactly one thing about it that can make a
call that checks, signs, finalizes or extracts panic: a non-witness UTXO that is needed lacks the output spent. -/
theorem C129_v0_crashes_iff {p : Psbt L} (h : Reachable S M U p) : Crashes S M p ↔ ¬ IndicesInRange p := by
  constructor
  · intro hc hr
    exact calm ⟨(HandSound.reachable h).inputCount, hr⟩ hc
  · intro hr
    obtain ⟨w, hw⟩ := (C50_panics_iff (S := S) p (fun _ => .ok none)).mpr hr
    exact .sign hw

theorem _root_.Psbt.Spec.V0.Runs.toCall {p o q : Psbt L} (h : Runs S M U p o q) : Call S M U p o q := by
  cases h with
  | updateInput h => exact .updateInput h
  | updateOutput h => exact .updateOutput h
  | sign h => exact .sign h
  | combine h => exact .combine h
  | finalizeMut h => exact .finalizeMut h
  | finalizeHelper h => exact .finalizeHelper h
  | finalizeInp h => exact .finalizeInp h
  | finalizeInpMall h => exact .finalizeInpMall h

theorem _root_.Psbt.Spec.V0.Guarded.reachable {p : Psbt L} (h : Guarded S M U p) : Reachable S M U p := by
  induction h with
  | received h _ => exact .received h
  | created h => exact .created h
  | setInput n _ hj _ ih => exact .call ih ih (.setInput n hj)
  | setOutput n _ hj ih => exact .call ih ih (.setOutput n hj)
  | setGlobal x pr _ hu ih => exact .call ih ih (.setGlobal x pr hu)
  | runs _ _ h ih1 ih2 => exact .call ih1 ih2 h.toCall

theorem combUtxos_cases (a b : Option Tx × Option TxOut) :
    (V2.combUtxos a b).2 = none → a.2 = none ∧ b.2 = none ∧ ((V2.combUtxos a b).1 = a.1 ∨ (V2.combUtxos a b).1 = b.1) := by
  obtain ⟨a1, a2⟩ := a
  obtain ⟨b1, b2⟩ := b
  unfold V2.combUtxos V2.combOpt
  cases a1 <;> cases a2 <;> cases b1 <;> cases b2 <;> simp

theorem runs_inRange {p o q : Psbt L} (hp : Sound p) (ho : Sound o) (h : Runs S M U p o q) : IndicesInRange q := by
  have final : ∀ mall (p q : Psbt L) n, Sound p → p.finalizeInput M n mall = .ok q → Sound q := by
    intro mall p q n hp h
    obtain ⟨i, s, w, hi, rfl⟩ := finalizeInput_set h
    exact (same_withInput (j := onlyFinal i s w) hi rfl rfl).sound hp
  cases h with
  | updateInput h =>
    rcases updateInput_set h with rfl | ⟨i, f, hi, rfl⟩
    · exact hp.2
    · exact ((same_withInput (j := i.setFields f) hi rfl rfl).sound hp).2
  | updateOutput h =>
    rcases updateOutput_set h with rfl | ⟨i, f, hi, rfl⟩
    · exact hp.2
    · exact hp.2
  | sign h =>
    intro k t i tx h1 h2 h3 h4
    have he := C50_frame h
    have hg := sign_global h
    have hk := input_congr he k
    rw [h2] at hk
    cases hj : p.inputs[k]? with
    | none => rw [hj] at hk; cases hk
    | some j =>
      rw [hj] at hk
      have e := erased_eq (Option.some.inj hk)
      rw [e] at h3 h4
      refine hp.2 k t j tx ?_ hj h3 h4
      rw [hg] at h1
      exact h1
  | @combine q r h =>
    cases r with
    | ok u =>
      obtain ⟨he, -, hr⟩ := combine_ok.mp h
      intro k t i tx h1 h2 h3 h4
      rw [hr] at h1 h2
      simp only at h1 h2
      rw [combineZip_getElem?] at h2
      cases hj : p.inputs[k]? with
      | none => rw [hj] at h2; cases h2
      | some j =>
        cases hj' : o.inputs[k]? with
        | none =>
          rw [hj, hj'] at h2
          cases h2
          exact hp.2 k t _ tx h1 hj h3 h4
        | some j' =>
          rw [hj, hj'] at h2
          cases h2
          obtain ⟨g1, g2, g3⟩ := combUtxos_cases _ _ h3
          rcases g3 with g3 | g3
          · exact hp.2 k t j tx h1 hj g1 (g3.symm.trans h4)
          · exact ho.2 k t j' tx (he ▸ h1) hj' g2 (g3.symm.trans h4)
    | error e =>
      rw [C48_failure_frame h]
      exact hp.2
  | finalizeMut h => exact (finalizeEach_keeps (final _) _ hp h).2
  | finalizeHelper h =>
    unfold Psbt.finalizeHelper at h
    split at h
    · cases h; exact hp.2
    · exact (finalizeWhile_keeps (final _) _ hp h).2
  | finalizeInp h =>
    unfold Psbt.finalizeInp at h
    split at h
    · cases h
    · exact (final _ _ _ _ hp h).2
  | finalizeInpMall h =>
    unfold Psbt.finalizeInpMall at h
    split at h
    · cases h
    · exact (final _ _ _ _ hp h).2

theorem _root_.Psbt.Spec.V0.Guarded.sound {p : Psbt L} (h : Guarded S M U p) : Sound p := by
  refine ⟨(HandSound.reachable h.reachable).inputCount, ?_⟩
  induction h with
  | received _ h => exact h
  | @created tx p h =>
    unfold Psbt.fromUnsignedTx at h
    rw [bind_ok] at h
    obtain ⟨u, h1, h2⟩ := h
    cases h2
    intro k t i tx h1 h2 h3 h4
    rw [List.eq_of_mem_replicate (List.mem_of_getElem? h2)] at h4
    cases h4
  | setInput n _ _ h _ => exact h
  | setOutput n _ _ ih => exact ih
  | setGlobal x pr _ _ ih => exact ih
  | runs g1 g2 h ih1 ih2 =>
    exact runs_inRange ⟨(HandSound.reachable g1.reachable).inputCount, ih1⟩ ⟨(HandSound.reachable g2.reachable).inputCount, ih2⟩ h

/-- C129. A user who looks at this when a PSBT comes in, or an input map is assigned, never meets such a panic: no function of
the crate brings a missing output about, in any order, with any keys and any descriptors, whatever is combined. -/
theorem C129_v0_guarded {p : Psbt L} (h : Guarded S M U p) : ¬ Crashes S M p := calm h.sound

/-! ### Cases that meet the hypotheses, and what goes wrong otherwise -/

def crIn : Input gL := { Input.default gL with nonWitnessUtxo := some ⟨2, 0, [], []⟩ }
def crP : Psbt gL := gP [crIn]
def crFine : Psbt gL := gP [Input.default gL]
def crMixed : Psbt gL := gP [{ Input.default gL with nonWitnessUtxo := some ⟨2, 0, [], [⟨7, V2.fSpk⟩]⟩ }, gIn V2.fSpk]

theorem crIs {p : Psbt gL} (h : (match Psbt.deserialize gL p.serialize with | .ok q => decide (q = p) | _ => false) = true) :
    Psbt.deserialize gL p.serialize = .ok p := by
  split at h
  · rename_i e; rw [e, of_decide_eq_true h]
  · cases h

/-- C129 fails: there are bytes that are read without complaint, and the PSBT makes signing panic, with any keys. -/
theorem C129_v0_counterexample : ∃ (b : Bytes) (p : Psbt gL), Psbt.deserialize gL b = .ok p ∧
    ∀ k : Provider gS, ∃ w, p.sign gS k = .error (.panic w) :=
  ⟨crP.serialize, crP, crIs (by decide +kernel), fun k => (C50_panics_iff crP k).mpr fun h => absurd (h 0 _ crIn _ rfl rfl rfl rfl) (by decide)⟩

theorem crFine_inRange : IndicesInRange crFine := fun k t i tx _ h2 _ h4 => by
  match k, h2 with
  | 0, h2 => cases h2; cases h4
  | k + 1, h2 => cases h2

/-- C129 fails if only one's own PSBT is looked at: combining it with one that was not succeeds, and then signing panics. -/
theorem C129_v0_combine_counterexample : ∃ (b c : Bytes) (p o q : Psbt gL), Psbt.deserialize gL b = .ok p ∧ IndicesInRange p ∧
    Psbt.deserialize gL c = .ok o ∧ p.combine o = (q, .ok ()) ∧ ∀ k : Provider gS, ∃ w, q.sign gS k = .error (.panic w) :=
  ⟨crFine.serialize, crP.serialize, crFine, crP, crP, crIs (by decide +kernel),
    crFine_inRange, crIs (by decide +kernel), by decide +kernel,
    fun k => (C50_panics_iff crP k).mpr fun h => absurd (h 0 _ crIn _ rfl rfl rfl rfl) (by decide)⟩

-- A PSBT that is received, looked at, combined and finalized.
theorem crGuarded (U : UpdLib gL) : Guarded gS V2.FM U crMixed :=
  .received (crIs (p := crMixed) (by decide +kernel)) fun k t i tx h1 h2 h3 h4 => by
    match k, h1, h2 with
    | 0, h1, h2 => cases h1; cases h2; cases h4; decide
    | 1, h1, h2 => cases h2; cases h3
    | k + 2, h1, h2 => cases h2
example (U : UpdLib gL) : Guarded gS V2.FM U (zAll crMixed false).1 :=
  .runs (crGuarded U) (crGuarded U) (.finalizeMut (mall := false) (r := (zAll crMixed false).2) (by decide +kernel))
example (U : UpdLib gL) : Reachable gS V2.FM U crP ∧ Crashes gS V2.FM crP :=
  have h : Reachable gS V2.FM U crP := .received (crIs (by decide +kernel))
  ⟨h, (C129_v0_crashes_iff h).mpr fun h => absurd (h 0 _ crIn _ rfl rfl rfl rfl) (by decide)⟩

end Psbt.V0
