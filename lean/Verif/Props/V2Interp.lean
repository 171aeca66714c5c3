/- C84, C85: the script interpreter, and whether the signatures it has checked are those of the extracted transaction. -/
import Verif.Spec.Interp
import Verif.Props.V2Lifecycle
import Verif.Props.V2Sighash
namespace Psbt.V2
open Psbt

variable {L : Lib} {M : MsLib L}

theorem asks_iff {i : Input L} {c : UInt32} : Spec.Asks i c ↔ i.lockTime = c := by
  unfold Input.lockTime
  constructor
  · intro h
    cases h with
    | height h => rw [h]; cases i.minTime <;> rfl
    | time h h' => rw [h, h']
    | nothing h h' => rw [h, h']
  · intro h
    cases h1 : i.minHeight with
    | some x =>
      have : i.lockTime = x.1 := by unfold Input.lockTime; rw [h1]; cases i.minTime <;> rfl
      unfold Input.lockTime at this
      rw [this] at h
      rw [← h]; exact .height h1
    | none =>
      cases h2 : i.minTime with
      | some x => rw [h1, h2] at h; rw [← h]; exact .time h1 h2
      | none => rw [h1, h2] at h; rw [← h]; exact .nothing h1 h2

theorem run_iff {tx : Tx} {us : List TxOut} {n : Nat} {i : Input L} {u : TxOut} {s : Bytes} {w : List Bytes} (hu : Spec.FundedBy i u)
    (hs : i.finalScriptSig = some s) (hw : i.finalScriptWitness = some w) {r : Option InterpErr} :
    Spec.Run M tx us n i r ↔ M.interp ⟨u.scriptPubkey, s, w, i.sequence.getD SEQUENCE_MAX, i.lockTime, tx, n, us⟩ = r := by
  constructor
  · rintro ⟨u', s', w', c, h1, h2, h3, h4, h5⟩
    rw [fundedBy_unique hu h1]
    rw [hs] at h2; rw [hw] at h3
    cases h2; cases h3
    rw [asks_iff.mp h4]; exact h5
  · intro h
    exact ⟨u, s, w, _, hu, hs, hw, asks_iff.mpr rfl, h⟩

theorem run_unique {tx : Tx} {us : List TxOut} {n : Nat} {i : Input L} {r r' : Option InterpErr} (h : Spec.Run M tx us n i r)
    (h' : Spec.Run M tx us n i r') : r = r' := by
  obtain ⟨u, s, w, c, h1, h2, h3, h4, h5⟩ := h
  rw [run_iff h1 h2 h3] at h'
  rw [← h', ← asks_iff.mp h4] at *
  exact h5.symm

/-- How the check of inputs ends. -/
inductive CheckEnd (tx : Tx) (us : List TxOut) (n : Nat) (is : List (Input L)) : Out InterpCheckErr Unit → Prop
  | passes : (∀ (k : Nat) i, is[k]? = some i → Spec.Run M tx us (n + k) i none) → CheckEnd tx us n is (.ok ())
  | fails {k i e} : is[k]? = some i → Spec.Run M tx us (n + k) i (some e) →
      (∀ (m : Nat) j, m < k → is[m]? = some j → Spec.Run M tx us (n + m) j none) → CheckEnd tx us n is (.error (.err (.input (n + k) e)))

theorem check_end {tx : Tx} {us : List TxOut} {is : List (Input L)} (n : Nat)
    (hf : ∀ i ∈ is, (∃ u, Spec.FundedBy i u) ∧ i.finalScriptSig ≠ none ∧ i.finalScriptWitness ≠ none) :
    CheckEnd (M := M) tx us n is (interpCheckFrom M tx us n is) := by
  induction is generalizing n with
  | nil => exact .passes (by simp)
  | cons i is ih =>
    obtain ⟨⟨u, hu⟩, hs, hw⟩ := hf i List.mem_cons_self
    obtain ⟨s, hs⟩ := Option.ne_none_iff_exists'.mp hs
    obtain ⟨w, hw⟩ := Option.ne_none_iff_exists'.mp hw
    rw [interpCheckFrom, hs, hw]
    simp only
    unfold interpCheckInput
    rw [fundingUtxo_ok.mpr hu]
    simp only
    cases hm : M.interp ⟨u.scriptPubkey, s, w, i.sequence.getD SEQUENCE_MAX, i.lockTime, tx, n, us⟩ with
    | some e =>
      exact .fails (k := 0) (i := i) rfl ((run_iff hu hs hw).mpr hm) (fun m j h => absurd h (Nat.not_lt_zero _))
    | none =>
      have h0 := (run_iff (M := M) hu hs hw).mpr hm
      simp only [ok_bind]
      have hi := ih (n + 1) fun j hj => hf j (List.mem_cons_of_mem _ hj)
      generalize interpCheckFrom M tx us (n + 1) is = x at hi
      cases hi with
      | passes h =>
        refine .passes fun k j hj => ?_
        cases k with
        | zero => cases Option.some.inj hj; exact h0
        | succ k => rw [show n + (k + 1) = n + 1 + k by omega]; exact h k j hj
      | @fails k j e h1 h2 h3 =>
        rw [show n + 1 + k = n + (k + 1) by omega] at h2 ⊢
        refine .fails (k := k + 1) (i := j) h1 h2 fun m j' hm hj' => ?_
        cases m with
        | zero => cases Option.some.inj hj'; exact h0
        | succ m => rw [show n + (m + 1) = n + 1 + m by omega]; exact h3 m j' (by omega) hj'

theorem check_eq {p : Psbt L} {us : List TxOut} (debug : Bool) (hf : Spec.AllFinal p) (hu : Spec.Funding p.inputs us) :
    p.interpreterCheck M debug = match p.unsignedTx with
      | .error (.err e) => .error (.err (.lockTime e))
      | .error (.panic s) => .error (.panic s)
      | .ok tx => interpCheckFrom M tx us 0 p.inputs := by
  unfold Psbt.interpreterCheck
  have : p.isFinalized = true := by
    simp only [Psbt.isFinalized, List.all_eq_true, isFinalized_iff]
    exact hf
  rw [this, collect_funding (funding_iff.mpr hu)]
  simp only [Bool.not_true, Bool.and_false, Bool.false_eq_true, if_false]
  rfl

theorem funding_mem {is : List (Input L)} {us : List TxOut} (h : Spec.Funding is us) : ∀ i ∈ is, ∃ u, Spec.FundedBy i u := by
  intro i hi
  have := funding_iff.mpr h
  have hm : i.fundingUtxo ∈ us.map (.ok : TxOut → Except FundingErr TxOut) := by rw [← this]; exact List.mem_map_of_mem hi
  obtain ⟨u, -, hu⟩ := List.mem_map.mp hm
  exact ⟨u, fundingUtxo_ok.mp hu.symm⟩

/-- C84. `interpreter_check` passes exactly if every input has final scripts and a known funding output, the lock time can be
determined, and the interpreter accepts the final scripts of every input in the unsigned transaction. -/
theorem C84_check_iff (p : Psbt L) (debug : Bool) : p.interpreterCheck M debug = .ok () ↔
    Spec.AllFinal p ∧ ∃ tx us, p.unsignedTx = .ok tx ∧ Spec.Funding p.inputs us ∧
      ∀ (n : Nat) i, p.inputs[n]? = some i → Spec.Run M tx us n i none := by
  constructor
  · intro h
    have hus : ∃ tx us, p.unsignedTx = .ok tx ∧ Spec.Funding p.inputs us ∧ interpCheckFrom M tx us 0 p.inputs = .ok () := by
      unfold Psbt.interpreterCheck at h
      split at h
      · cases h
      split at h
      · cases h
      · cases h
      rename_i tx htx
      rw [bind_ok] at h
      obtain ⟨us, h0, h2⟩ := h
      have h1 : collect (p.inputs.map Input.fundingExpect) = .ok us := by
        cases hc : collect (p.inputs.map Input.fundingExpect) with
        | ok x => rw [hc] at h0; cases h0; rfl
        | error e =>
          rw [hc] at h0
          cases e with
          | err e => exact e.elim
          | panic s => cases h0
      refine ⟨tx, us, htx, ?_, h2⟩
      clear h0 h2
      rw [collect_ok] at h1
      rw [← funding_iff]
      generalize p.inputs = is at h1
      induction is generalizing us with
      | nil => cases us with
        | nil => rfl
        | cons => cases h1
      | cons i is ih =>
        cases us with
        | nil => cases h1
        | cons u us =>
          rw [List.map_cons, List.map_cons, List.cons.injEq] at h1 ⊢
          refine ⟨?_, ih us h1.2⟩
          have := h1.1
          unfold Input.fundingExpect at this
          split at this
          · rename_i v hv; cases this; exact hv
          · cases this
    obtain ⟨tx, us, htx, hus, h⟩ := hus
    have hfin : ∀ (is : List (Input L)) n, interpCheckFrom M tx us n is = .ok () →
        ∀ i ∈ is, i.finalScriptSig ≠ none ∧ i.finalScriptWitness ≠ none := by
      intro is
      induction is with
      | nil => simp
      | cons i is ih =>
        intro n hn
        rw [interpCheckFrom] at hn
        split at hn
        · cases hn
        rename_i w hw
        split at hn
        · cases hn
        rename_i s hs
        rw [bind_ok] at hn
        obtain ⟨-, -, hn⟩ := hn
        intro j hj
        rcases List.mem_cons.mp hj with rfl | hj
        · rw [hs, hw]; exact ⟨nofun, nofun⟩
        · exact ih _ hn j hj
    have hf := hfin _ _ h
    refine ⟨hf, tx, us, htx, hus, fun n i hi => ?_⟩
    have hend := check_end (M := M) (tx := tx) (us := us) (is := p.inputs) 0 fun i hi => ⟨funding_mem hus i hi, hf i hi⟩
    rw [h] at hend
    cases hend with
    | passes hr => have := hr n i hi; rwa [Nat.zero_add] at this
  · rintro ⟨hf, tx, us, htx, hus, hr⟩
    rw [check_eq debug hf hus, htx]
    simp only
    have hend := check_end (M := M) (tx := tx) (us := us) (is := p.inputs) 0 fun i hi => ⟨funding_mem hus i hi, hf i hi⟩
    generalize interpCheckFrom M tx us 0 p.inputs = x at hend
    cases hend with
    | passes => rfl
    | fails h1 h2 _ =>
      rw [Nat.zero_add] at h2
      cases run_unique (hr _ _ h1) h2

/-- C84. On a PSBT with final scripts and funding outputs the check never panics; it reports the conflict of lock times, or the
first input whose scripts the interpreter rejects, and why. -/
theorem C84_errors {p : Psbt L} {us : List TxOut} (debug : Bool) (hf : Spec.AllFinal p) (hus : Spec.Funding p.inputs us) :
    (∀ why, p.interpreterCheck M debug ≠ .error (.panic why)) ∧
    (∀ e, p.interpreterCheck M debug = .error (.err (.lockTime e)) ↔ Spec.Conflict p) ∧
    ∀ n e, p.interpreterCheck M debug = .error (.err (.input n e)) ↔ ∃ tx i, p.unsignedTx = .ok tx ∧ p.inputs[n]? = some i ∧
      Spec.Run M tx us n i (some e) ∧ ∀ (m : Nat) j, m < n → p.inputs[m]? = some j → Spec.Run M tx us m j none := by
  have hend := fun tx => check_end (M := M) (tx := tx) (us := us) (is := p.inputs) 0 fun i hi => ⟨funding_mem hus i hi, hf i hi⟩
  rw [check_eq debug hf hus]
  have hlt : ∀ e, p.unsignedTx = .error e → p.determineLockTime = .error e := by
    intro e h
    unfold Psbt.unsignedTx at h
    cases hd : p.determineLockTime with
    | ok n => rw [hd] at h; cases h
    | error e' => rw [hd] at h; cases h; rfl
  have hok : ∀ tx, p.unsignedTx = .ok tx → ¬ Spec.Conflict p := by
    intro tx h hc
    unfold Psbt.unsignedTx at h
    rw [(C17_error_iff p .conflict).mpr hc] at h
    cases h
  cases htx : p.unsignedTx with
  | error e =>
    have hd := hlt e htx
    cases e with
    | panic s => exact absurd hd (C18_never_panics p s)
    | err e =>
      have hc := (C17_error_iff p e).mp hd
      refine ⟨nofun, fun e' => ⟨fun _ => hc, fun _ => by cases e; cases e'; rfl⟩, fun n e' => ⟨nofun, ?_⟩⟩
      rintro ⟨tx, i, h, -⟩
      cases h
  | ok tx =>
    simp only
    have hx := hend tx
    generalize interpCheckFrom M tx us 0 p.inputs = x at hx
    refine ⟨?_, fun e => ⟨?_, fun h => absurd h (hok tx htx)⟩, fun n e => ⟨?_, ?_⟩⟩
    · cases hx <;> exact nofun
    · cases hx <;> exact nofun
    · intro h
      subst h
      generalize hy : (Except.error (Fail.err (InterpCheckErr.input n e)) : Out InterpCheckErr Unit) = y at hx
      cases hx with
      | passes => cases hy
      | @fails k i e' h1 h2 h3 =>
        cases hy
        simp only [Nat.zero_add] at h1 h2 h3 ⊢
        exact ⟨tx, i, rfl, h1, h2, h3⟩
    · rintro ⟨tx', i, h0, h1, h2, h3⟩
      cases h0
      cases hx with
      | passes h =>
        have := h n i h1
        rw [Nat.zero_add] at this
        cases run_unique this h2
      | @fails k j e' g1 g2 g3 =>
        simp only [Nat.zero_add] at g1 g2 g3 ⊢
        rcases Nat.lt_trichotomy k n with h | h | h
        · cases run_unique (h3 k j h g1) g2
        · subst h
          rw [h1] at g1; cases g1
          cases run_unique h2 g2
          rfl
        · cases run_unique (g3 n i h h1) h2

/-- C85. What holds: if every input states its sequence number, and `interpreter_check` passes, the interpreter has accepted the
scripts of the transaction that is extracted, in that transaction. -/
theorem C85_sequences_stated_partial {p : Psbt L} {t : Tx} {debug : Bool} (hs : ∀ i ∈ p.inputs, i.sequence ≠ none)
    (hc : p.interpreterCheck M debug = .ok ()) (ht : Extractor.extractUnchecked p = .ok t) :
    ∃ us, Spec.Funding p.inputs us ∧ ∀ (n : Nat) i x, p.inputs[n]? = some i → t.input[n]? = some x →
      ∃ u c, Spec.FundedBy i u ∧ Spec.Asks i c ∧
        M.interp ⟨u.scriptPubkey, x.scriptSig, x.witness, x.sequence, c, Spec.stripped t, n, us⟩ = none := by
  obtain ⟨hf, tx, us, htx, hus, hr⟩ := (C84_check_iff p debug).mp hc
  rw [C59_partial hs ht] at htx
  cases htx
  refine ⟨us, hus, fun n i x hi hx => ?_⟩
  obtain ⟨u, s, w, c, h1, h2, h3, h4, h5⟩ := hr n i hi
  obtain ⟨-, _, ts, -, hts, rfl⟩ := extractUnchecked_ok.mp ht
  have hk : (p.inputs.map Input.signedTxIn)[n]? = (ts.map Except.ok)[n]? := by rw [hts]
  simp only at hx
  rw [List.getElem?_map, List.getElem?_map, hi, hx] at hk
  simp only [Option.map_some, Option.some.injEq] at hk
  unfold Input.signedTxIn at hk
  rw [h2, h3] at hk
  have := Except.ok.inj hk
  rw [← this]
  exact ⟨u, c, h1, h4, h5⟩

/-- C85 fails for every PSBT with an input that goes through the finalizer and the extractor: the finalizer has the signatures
checked in `checkedTx`, which differs from the extracted transaction in all sequence numbers (`C63_checked_and_extracted`). So an
ECDSA signature valid in the one is not valid in the other: a message to sign of the one is the message of no input of the
other, whatever script, amount and type are taken, short of a collision of the hash function (SegWit v0) … -/
theorem C85_segwit_counterexample {p q : Psbt L} {debug : Bool} (hn : Finalizer.new p = .ok p) (hf : Finalizer.finalize M debug p = .ok q) {t : Tx}
    (ht : Extractor.extractUnchecked q = .ok t) (hs : t.Small) (hs' : (Spec.checkedTx p).Small) {n n' : Nat} {code code' : Bytes}
    {v v' : UInt64} {ty ty' : EcdsaTy} {m : Hash32} (hc : code.length < 2 ^ 64) (hc' : code'.length < 2 ^ 64)
    (h : segwitSighash L t n code v ty = some m) (h' : segwitSighash L (Spec.checkedTx p) n' code' v' ty' = some m) :
    Spec.Collides L.sha256d (Spec.segwitHashed L t n code v ty) (Spec.segwitHashed L (Spec.checkedTx p) n' code' v' ty') ∨
    Spec.HitsZero L.sha256d (Spec.segwitHashed L t n code v ty ++ Spec.segwitHashed L (Spec.checkedTx p) n' code' v' ty') := by
  rcases C37_segwit_commits hs hs' hc hc' h h' with h | h | ⟨-, -, -, -, -, ⟨a, b, h1, h2, -, h3⟩, -⟩
  · exact .inl h
  · exact .inr h
  · have e1 := (C83_final_lock_time hn hf ht).2 a (List.mem_of_getElem? h1)
    have e2 : b.sequence = 0 := by
      unfold Spec.checkedTx at h2
      rw [List.getElem?_map] at h2
      cases hi : p.inputs[n']? with
      | none => rw [hi] at h2; cases h2
      | some i => rw [hi] at h2; cases h2; rfl
    rw [e1, e2] at h3
    exact absurd h3 (by decide)

/-- … and the same before SegWit. -/
theorem C85_legacy_counterexample {p q : Psbt L} {debug : Bool} (hn : Finalizer.new p = .ok p) (hf : Finalizer.finalize M debug p = .ok q) {t : Tx}
    (ht : Extractor.extractUnchecked q = .ok t) (hs : t.Small) (hs' : (Spec.checkedTx p).Small) {n n' : Nat} {code code' : Bytes}
    {ty ty' : EcdsaTy} {m : Hash32} (hc : code.length < 2 ^ 64) (hc' : code'.length < 2 ^ 64) (hne : code ≠ [])
    (hb : Spec.commitsOutput ty → n < t.output.length) (hb' : Spec.commitsOutput ty' → n' < (Spec.checkedTx p).output.length)
    (h : legacySighash L t n code ty = some m) (h' : legacySighash L (Spec.checkedTx p) n' code' ty' = some m) :
    Spec.Collides L.sha256d (Spec.legacyHashed t n code ty) (Spec.legacyHashed (Spec.checkedTx p) n' code' ty') := by
  rcases C37_legacy_commits hs hs' hc hc' hne hb hb' h h' with h | ⟨-, -, -, -, ⟨a, b, h1, h2, -, h3⟩, -⟩
  · exact h
  · have e1 := (C83_final_lock_time hn hf ht).2 a (List.mem_of_getElem? h1)
    have e2 : b.sequence = 0 := by
      unfold Spec.checkedTx at h2
      rw [List.getElem?_map] at h2
      cases hi : p.inputs[n']? with
      | none => rw [hi] at h2; cases h2
      | some i => rw [hi] at h2; cases h2; rfl
    rw [e1, e2] at h3
    exact absurd h3 (by decide)

section Examples
def inFin : Input EL := { fIn with finalScriptSig := some [], finalScriptWitness := some [fSig.der.bytes, fKey.bytes], sequence := some 9 }
def inWsh (w : Bytes) : Input EL := { fWsh w with finalScriptSig := some [], finalScriptWitness := some [w], sequence := some 9 }
def inTime : Input EL := { inFin with minTime := some ⟨500000000, by decide⟩ }
def inHeight : Input EL := { inFin with minHeight := some ⟨7, by decide⟩ }
def inErr (r : Out InterpCheckErr Unit) : Option InterpCheckErr := match r with | .error (.err e) => some e | _ => none
-- C84: success, both errors, and panics if something is missing.
example : (eP [inFin, inWsh [9]] [3]).interpreterCheck FM true = .ok () := by decide +kernel
example : inErr ((eP [inFin, inWsh [0xee], inWsh [9]] [3]).interpreterCheck FM true) = some (.input 1 .satisfaction) := by decide +kernel
example : inErr ((eP [inTime, inHeight] [3]).interpreterCheck FM true) = some (.lockTime .conflict) := by decide +kernel
example : inErr ((eP [inFin, fIn] [3]).interpreterCheck FM false) = none ∧ (eP [inFin, fIn] [3]).interpreterCheck FM false ≠ .ok () ∧
    inErr ((eP [{ inFin with witnessUtxo := none }] [3]).interpreterCheck FM false) = none ∧
    (eP [{ inFin with witnessUtxo := none }] [3]).interpreterCheck FM false ≠ .ok () := by decide +kernel
example : Spec.AllFinal (eP [inFin, inWsh [4]] [3]) ∧
    Spec.Funding (eP [inFin, inWsh [4]] [3]).inputs [⟨5, fSpk⟩, ⟨5, [0x00, 0x20] ++ (EL.sha256 [4]).1⟩] :=
  ⟨by unfold Spec.AllFinal; decide +kernel, funding_iff.mp (by decide +kernel)⟩
-- C85: sequence numbers stated, check passed, transaction extracted.
example : (∀ i ∈ (eP [inFin, inWsh [9]] [3]).inputs, i.sequence ≠ none) ∧ (eP [inFin, inWsh [9]] [3]).interpreterCheck FM true = .ok () ∧
    (Extractor.extractUnchecked (eP [inFin, inWsh [9]] [3])).isOk = true := by decide +kernel
def inTx : Tx := ok! ⟨2, 0, [], []⟩ (Extractor.extractUnchecked (fDone (eP [fIn] [3])))
example : Finalizer.new (eP [fIn] [3]) = .ok (eP [fIn] [3]) ∧ Finalizer.finalize FM true (eP [fIn] [3]) = .ok (fDone (eP [fIn] [3])) ∧
    Extractor.extractUnchecked (fDone (eP [fIn] [3])) = .ok inTx ∧ (segwitSighash EL inTx 0 [7] 5 ⟨1, by decide⟩).isSome = true ∧
    (segwitSighash EL (Spec.checkedTx (eP [fIn] [3])) 0 [7] 5 ⟨1, by decide⟩).isSome = true ∧
    (legacySighash EL inTx 0 [7] ⟨1, by decide⟩).isSome = true ∧ (legacySighash EL (Spec.checkedTx (eP [fIn] [3])) 0 [7] ⟨1, by decide⟩).isSome = true ∧
    Spec.segwitHashed EL inTx 0 [7] 5 ⟨1, by decide⟩ ≠ Spec.segwitHashed EL (Spec.checkedTx (eP [fIn] [3])) 0 [7]  5 ⟨1, by decide⟩ := by decide +kernel
example : inTx.Small ∧ (Spec.checkedTx (eP [fIn] [3])).Small := by unfold Tx.Small TxIn.Small; decide +kernel
end Examples

end Psbt.V2
