/- C40-C44, C63-C65: finalizing PSBT v2 inputs with rust-miniscript. -/
import Verif.Lemmas.V2Finalize
import Verif.Props.V2Sign
import Verif.Spec.DemoMs
namespace Psbt.V2
open Psbt Psbt.Spec

variable {L : Lib} {M : MsLib L}

/-! ### C40 -/

/-- C40. What finalizing an input with given scripts does: an input with a witness UTXO gets both scripts, and is refused if
the witness is empty; any other input gets the script sig only. Outpoint and UTXO fields are kept, every other field is
cleared (`onlyFinal`). -/
theorem C40_finalize_iff (i : Input L) (s : Bytes) (w : List Bytes) (r : Except InputFinalizeErr (Input L)) :
    i.finalize s w = r ↔
      i.witnessUtxo ≠ none ∧ w ≠ [] ∧ r = .ok (onlyFinal i (some s) (some w)) ∨
      i.witnessUtxo ≠ none ∧ w = [] ∧ r = .error .emptyWitness ∨
      i.witnessUtxo = none ∧ r = .ok (onlyFinal i (some s) none) := by
  by_cases hu : i.witnessUtxo = none
  · rw [finalize_legacy hu]; simp [hu, eq_comm]
  · by_cases hw : w = []
    · subst hw; rw [finalize_empty hu]; simp [hu, eq_comm]
    · rw [finalize_segwit hu hw]; simp [hu, hw, eq_comm]

/-- C40. A finalized input is recognised as finalized exactly if it has a witness UTXO. -/
theorem C40_recognised_partial {i j : Input L} {s : Bytes} {w : List Bytes} (h : i.finalize s w = .ok j) :
    j.isFinalized = true ↔ i.witnessUtxo ≠ none := by
  rcases (C40_finalize_iff _ _ _ _).mp h with ⟨hu, -, hj⟩ | ⟨-, -, hj⟩ | ⟨hu, hj⟩
  · cases hj; exact ⟨fun _ => hu, fun _ => rfl⟩
  · cases hj
  · cases hj; rw [isFinalized_iff]; simp [onlyFinal, Input.new, hu]

/-- C40 fails for inputs without a witness UTXO: the finalized input is not recognised as finalized. -/
theorem C40_recognised_counterexample : ∃ (i j : Input EL) (s : Bytes) (w : List Bytes),
    i.finalize s w = .ok j ∧ j.isFinalized = false :=
  ⟨eLegacy 5, onlyFinal (eLegacy 5) (some [1]) none, [1], [], by decide +kernel, by decide +kernel⟩

/-- C40. Finalizing leaves the unsigned transaction as it is exactly if every input has sequence number 0 (or none) and the
lock time of the PSBT is the fallback lock time. -/
theorem C40_unsigned_tx_partial {p q : Psbt L} {debug : Bool} (hf : ∀ i ∈ p.inputs, ∃ u, FundedBy i u)
    (h : Finalizer.finalize M debug p = .ok q) :
    q.unsignedTx = p.unsignedTx ↔
      (∀ i ∈ p.inputs, i.sequence = none ∨ i.sequence = some 0) ∧ LockTime p (p.global.fallbackLockTime.getD 0) := by
  obtain ⟨us, hus⟩ := funding_total hf
  rcases inputs_cases (M := M) (p := p) p.inputs 0 hf with ⟨js, h1, h2⟩ | ⟨l1, i, l2, js, e, h1, h2, h3, h4⟩
  · have hq : q = ⟨p.global, js, p.outputs⟩ := by
      rw [finalize_forms debug h2 hus] at h
      split at h
      · cases h
      · split at h <;> cases h
        rfl
    rw [hq, forms_unsigned h2, eq_comm, unsignedTx_ok]
    unfold checkedTx
    constructor
    · rintro ⟨n, hn, he⟩
      simp only [Tx.mk.injEq, true_and] at he
      obtain ⟨rfl, he, -⟩ := he
      refine ⟨fun i hi => ?_, (C17_lock_time_iff _ _).mp hn⟩
      have := List.map_inj_left.mp he i hi
      simp only [Input.unsignedTxIn, TxIn.mk.injEq, true_and, and_true] at this
      cases hs : i.sequence with
      | none => exact .inl rfl
      | some x => rw [hs] at this; exact .inr (by rw [this.2]; rfl)
    · rintro ⟨hs, hl⟩
      refine ⟨_, (C17_lock_time_iff _ _).mpr hl, ?_⟩
      simp only [Tx.mk.injEq, true_and]
      refine ⟨List.map_inj_left.mpr fun i hi => ?_, rfl⟩
      simp only [Input.unsignedTxIn, TxIn.mk.injEq, true_and, and_true]
      rcases hs i hi with e | e <;> rw [e] <;> exact ⟨rfl, rfl⟩
  · rw [finalize_fails debug h1 h2 h3] at h; cases h

section Examples
abbrev FM : MsLib EL := Demo.msLib false
/-- The key 2 2 2 …, its signature, and the P2WPKH script of the key. -/
def fKey : EL.pubkey.T := Demo.val 33 (by decide) 2
def fSig : EcdsaSig EL := ⟨Demo.val 8 (by decide) 5, ⟨1, by decide⟩⟩
def fSpk : Bytes := [0x00, 0x14] ++ (EL.hash160 fKey.bytes).1
/-- A signed P2WPKH input. -/
def fIn : Input EL :=
  { Input.new EL ⟨Demo.rep 32 1, 0⟩ with witnessUtxo := some ⟨5, fSpk⟩, partialSigs := BMap.empty.insert fKey fSig }
/-- The same, requiring a lock time and with a sequence number. -/
def fLocked : Input EL := { fIn with minHeight := some ⟨7, by decide⟩, sequence := some 9 }
def fDone (p : Psbt EL) : Psbt EL := match Finalizer.finalize FM true p with | .ok q => q | .error _ => p
end Examples

/-- C40 fails: finalizing changes the unsigned transaction (its lock time and the sequence number of its input). -/
theorem C40_unsigned_tx_counterexample : ∃ (p q : Psbt EL) (t u : Tx), Finalizer.new p = .ok p ∧
    Finalizer.finalize FM true p = .ok q ∧ p.unsignedTx = .ok t ∧ q.unsignedTx = .ok u ∧
    t.lockTime ≠ u.lockTime ∧ t.input.map TxIn.sequence ≠ u.input.map TxIn.sequence :=
  ⟨eP [fLocked] [3], fDone (eP [fLocked] [3]), ⟨2, 7, [⟨⟨Demo.rep 32 1, 0⟩, [], 9, []⟩], [⟨3, [9]⟩]⟩,
    ⟨2, 0, [⟨⟨Demo.rep 32 1, 0⟩, [], 0, []⟩], [⟨3, [9]⟩]⟩, by decide +kernel, by decide +kernel, by decide +kernel,
    by decide +kernel, by decide, by decide⟩
-- The hypotheses of the partial theorem can be met.
example : Finalizer.finalize FM true (eP [fIn] [3]) = .ok (fDone (eP [fIn] [3])) ∧ (fDone (eP [fIn] [3])).inputs ≠ [fIn] := by
  decide +kernel
example : ∀ i ∈ (eP [fIn] [3]).inputs, ∃ u, FundedBy i u := by
  intro i hi
  simp only [eP, List.mem_singleton] at hi
  subst hi; exact ⟨_, .witness rfl⟩

/-! ### C41 -/

/-- C41. A finalizer exists exactly if every input is funded, the lock time can be determined, and every input declares a
standard signature type that all its partial signatures have. It holds the PSBT unchanged. -/
theorem C41_new_iff (p q : Psbt L) : Finalizer.new p = .ok q ↔ q = p ∧ (∀ i ∈ p.inputs, ∃ u, FundedBy i u) ∧ ¬ Conflict p ∧
    ∀ i ∈ p.inputs, ∃ ty, Psbt.Spec.DeclaredType i ty ∧ ∀ pk sig, i.partialSigs.get pk = some sig → sig.ty = ty := by
  rw [← C39_check_iff, ← checkFunded_ok]
  unfold Finalizer.new
  cases h1 : checkFunded p.inputs with
  | error e => simp
  | ok _ =>
    cases h2 : p.determineLockTime with
    | error e =>
      cases e with
      | err e => have := (C17_error_iff p e).mp h2; simp [this]
      | panic s => exact absurd h2 (C18_never_panics p s)
    | ok n =>
      have : ¬ Conflict p := by
        intro hc
        have := (C17_error_iff p .conflict).mpr hc
        rw [h2] at this; cases this
      cases h3 : p.checkPartialSigsSighashType with
      | error e => simp
      | ok _ => simp [this, eq_comm]

/-- C41. What each error of `Finalizer::new` means. -/
theorem C41_new_error {p : Psbt L} {e : Fail (FinalizerErr L)} (h : Finalizer.new p = .error e) :
    match e with
    | .err (.fundingUtxo _) => ∃ i ∈ p.inputs, ∀ u, ¬ FundedBy i u
    | .err (.lockTime _) => Conflict p
    | .err (.partialSigs e) => p.checkPartialSigsSighashType = .error e
    | .panic _ => False := by
  unfold Finalizer.new at h
  cases h1 : checkFunded p.inputs with
  | error e1 =>
    rw [h1] at h; cases h
    have : ¬ ∀ i ∈ p.inputs, ∃ u, FundedBy i u := by rw [← checkFunded_ok, h1]; simp
    simp only
    exact Classical.byContradiction fun hn => this fun i hi => Classical.byContradiction fun hh =>
      hn ⟨i, hi, fun u hu => hh ⟨u, hu⟩⟩
  | ok _ =>
    rw [h1] at h
    cases h2 : p.determineLockTime with
    | error e2 =>
      cases e2 with
      | err e2 => rw [h2] at h; cases h; exact (C17_error_iff p e2).mp h2
      | panic s => exact absurd h2 (C18_never_panics p s)
    | ok n =>
      rw [h2] at h
      cases h3 : p.checkPartialSigsSighashType with
      | error e => rw [h3] at h; cases h; rfl
      | ok _ => rw [h3] at h; cases h

/-- C41. The id of the PSBT in a finalizer can be asked for without a panic. -/
theorem C41_id {p : Psbt L} (h : Finalizer.new p = .ok p) : ∃ x, Finalizer.id p = .ok x ∧ p.id = .ok x := by
  obtain ⟨-, -, hc, -⟩ := (C41_new_iff p p).mp h
  cases h2 : p.determineLockTime with
  | error e =>
    cases e with
    | err e => exact absurd ((C17_error_iff p e).mp h2) hc
    | panic s => exact absurd h2 (C18_never_panics p s)
  | ok n =>
    obtain ⟨x, hx⟩ : ∃ x, p.id = .ok x := ⟨_, id_ok.mpr ⟨n, h2, rfl⟩⟩
    exact ⟨x, by unfold Finalizer.id; rw [hx]; rfl, hx⟩

/-- C41. Finalizing succeeds exactly if every input can be finalized and has a witness UTXO, and the interpreter accepts
every finalized input. Then global map and outputs are those of the PSBT and the inputs are the finalized forms, in
order. -/
theorem C41_finalize_iff {p : Psbt L} (hf : ∀ i ∈ p.inputs, ∃ u, FundedBy i u) (debug : Bool) (q : Psbt L) :
    Finalizer.finalize M debug p = .ok q ↔
      q.global = p.global ∧ q.outputs = p.outputs ∧ q.inputs.length = p.inputs.length ∧
      (∀ (n : Nat) i j, p.inputs[n]? = some i → q.inputs[n]? = some j → InputResult M p i (.ok j)) ∧
      (∀ i ∈ p.inputs, i.witnessUtxo ≠ none) ∧
      ∃ us, Funding p.inputs us ∧ ∀ (n : Nat) j, q.inputs[n]? = some j → Checked M p us n j none := by
  obtain ⟨us, hus⟩ := funding_total hf
  have fin : ∀ {js}, Forms M p p.inputs js → (∀ i ∈ p.inputs, i.witnessUtxo ≠ none) →
      (debug && !js.all Input.isFinalized) = false := fun h hw => by rw [(forms_finalized h).mpr hw]; simp
  constructor
  · intro h
    rcases inputs_cases (M := M) (p := p) p.inputs 0 hf with ⟨js, h1, h2⟩ | ⟨l1, i, l2, js, e, h1, h2, h3, h4⟩
    · rw [finalize_forms debug h2 hus] at h
      split at h
      · cases h
      · rcases interp_cases h2 (us := us) 0 hf with ⟨g1, g2, g3⟩ | ⟨k, j, e, -, -, -, -, g5⟩ | ⟨k, i, -, -, -, -, why, g5⟩
        · rw [g1] at h; cases h
          obtain ⟨f1, f2⟩ := forms_iff.mp h2
          exact ⟨rfl, rfl, f1, f2, g2, us, hus, fun n j hj => by have := g3 n j hj; rwa [Nat.zero_add] at this⟩
        · rw [g5] at h; cases h
        · rw [g5] at h; cases h
    · rw [finalize_fails debug h1 h2 h3] at h; cases h
  · obtain ⟨g, js, os⟩ := q
    rintro ⟨rfl, rfl, f1, f2, g2, us', hus', g3⟩
    simp only at f1 f2 g3
    have h2 := forms_iff.mpr ⟨f1, f2⟩
    rw [finalize_forms debug h2 hus', fin h2 g2]
    rcases interp_cases h2 (us := us') 0 hf with ⟨g1, -, -⟩ | ⟨k, j, e, e1, e2, -⟩ | ⟨k, i, e1, e2, -⟩
    · rw [g1]; rfl
    · have := checked_unique (g3 k j e1) (by rw [Nat.zero_add] at e2; exact e2); cases this
    · exact absurd e2 (g2 i (List.mem_of_getElem? e1))

/-- C41. The first input that cannot be finalized is reported, with its index and the reason. -/
theorem C41_failing_input_iff {p : Psbt L} (hf : ∀ i ∈ p.inputs, ∃ u, FundedBy i u) (debug : Bool) (n : Nat)
    (e : FinalizeInputErr L) :
    Finalizer.finalize M debug p = .error (.err (.finalizeInput n e)) ↔
      (∃ i, p.inputs[n]? = some i ∧ InputResult M p i (.error e)) ∧
      ∀ i ∈ p.inputs.take n, ∃ j, InputResult M p i (.ok j) := by
  obtain ⟨us, hus⟩ := funding_total hf
  constructor
  · intro h
    rcases inputs_cases (M := M) (p := p) p.inputs 0 hf with ⟨js, h1, h2⟩ | ⟨l1, i, l2, js, e', h1, h2, h3, h4⟩
    · rw [finalize_forms debug h2 hus] at h
      split at h
      · cases h
      · split at h <;> cases h
    · rw [finalize_fails debug h1 h2 h3] at h; cases h
      rw [h1]
      refine ⟨⟨i, by simp, h3⟩, ?_⟩
      rw [List.take_left]; exact forms_each h2
  · rintro ⟨⟨i, h1, h2⟩, h3⟩
    obtain ⟨js, hjs⟩ := forms_exists h3
    have hlt : n < p.inputs.length := (List.getElem?_eq_some_iff.mp h1).1
    have hp : p.inputs = p.inputs.take n ++ i :: p.inputs.drop (n + 1) := by
      have : i = p.inputs[n] := (List.getElem?_eq_some_iff.mp h1).2.symm
      rw [this, List.getElem_cons_drop, List.take_append_drop]
    have := finalize_fails debug hp hjs h2
    rw [List.length_take, Nat.min_eq_left (by omega)] at this
    exact this

/-- C41. If all inputs can be finalized, the first one that the interpreter refuses is reported, with its index and the
reason - unless an earlier input (or, with debug assertions, any input) has no witness UTXO. -/
theorem C41_refused_input_iff {p : Psbt L} (hf : ∀ i ∈ p.inputs, ∃ u, FundedBy i u) (debug : Bool) (e : InterpCheckErr) :
    Finalizer.finalize M debug p = .error (.err (.interpreterCheck e)) ↔
      ∃ (js : List (Input L)) (us : List TxOut) (n : Nat) (j : Input L) (why : InterpErr), e = .input n why ∧
        js.length = p.inputs.length ∧
        (∀ (n : Nat) i j, p.inputs[n]? = some i → js[n]? = some j → InputResult M p i (.ok j)) ∧
        (debug = true → ∀ i ∈ p.inputs, i.witnessUtxo ≠ none) ∧ Funding p.inputs us ∧
        js[n]? = some j ∧ Checked M p us n j (some why) ∧
        ∀ (m : Nat) j', m < n → js[m]? = some j' → Checked M p us m j' none := by
  obtain ⟨us, hus⟩ := funding_total hf
  constructor
  · intro h
    rcases inputs_cases (M := M) (p := p) p.inputs 0 hf with ⟨js, h1, h2⟩ | ⟨l1, i, l2, js, e', h1, h2, h3, h4⟩
    · rw [finalize_forms debug h2 hus] at h
      split at h
      · cases h
      · rename_i hd
        rcases interp_cases h2 (us := us) 0 hf with ⟨g1, g2, g3⟩ | ⟨k, j, e, e1, e2, e3, e4, g5⟩ | ⟨k, i, -, -, -, -, why, g5⟩
        · rw [g1] at h; cases h
        · rw [g5] at h; cases h
          rw [Nat.zero_add] at e2 ⊢
          obtain ⟨f1, f2⟩ := forms_iff.mp h2
          refine ⟨js, us, k, j, e, rfl, f1, f2, ?_, hus, e1, e2, fun m j' hm hj => ?_⟩
          · intro hdb
            rw [← forms_finalized h2]
            simpa [hdb] using hd
          · have := e4 m j' hm hj; rwa [Nat.zero_add] at this
        · rw [g5] at h; cases h
    · rw [finalize_fails debug h1 h2 h3] at h; cases h
  · rintro ⟨js, us', n, j, why, rfl, f1, f2, hd, hus', hj, hc, hm⟩
    have h2 := forms_iff.mpr ⟨f1, f2⟩
    rw [finalize_forms debug h2 hus', if_neg (by
      cases debug with
      | false => simp
      | true => rw [(forms_finalized h2).mpr (hd rfl)]; simp)]
    have getI : ∀ {k : Nat} {j : Input L}, js[k]? = some j → ∃ i, p.inputs[k]? = some i := fun {k j} h => by
      have := (List.getElem?_eq_some_iff.mp h).1
      exact ⟨_, List.getElem?_eq_getElem (by omega)⟩
    rcases interp_cases h2 (us := us') 0 hf with ⟨-, -, g3⟩ | ⟨k, j', e, e1, e2, e3, e4, g5⟩ | ⟨k, i, e1, e2, e3, e4, why', g5⟩
    · have := g3 n j hj
      rw [Nat.zero_add] at this
      cases checked_unique this hc
    · rw [g5, Nat.zero_add]
      rw [Nat.zero_add] at e2
      rcases Nat.lt_trichotomy k n with h | h | h
      · cases checked_unique (hm k j' h e1) e2
      · subst h
        rw [hj] at e1; cases e1
        cases checked_unique hc e2; rfl
      · have := e4 n j h hj
        rw [Nat.zero_add] at this
        cases checked_unique this hc
    · rcases Nat.lt_trichotomy k n with h | h | h
      · have hk : k < js.length := by have := (List.getElem?_eq_some_iff.mp e1).1; omega
        have := hm k _ h (List.getElem?_eq_getElem hk)
        exact absurd e2 (checked_witness (f2 k i _ e1 (List.getElem?_eq_getElem hk)) this)
      · subst h
        exact absurd e2 (checked_witness (f2 k i j e1 hj) hc)
      · have := e4 n j h hj
        rw [Nat.zero_add] at this
        cases checked_unique this hc

/-- C41. Finalizing panics exactly if all inputs can be finalized but one has no witness UTXO - without debug assertions,
only if the interpreter accepts all inputs before that one. -/
theorem C41_panic_iff {p : Psbt L} (hf : ∀ i ∈ p.inputs, ∃ u, FundedBy i u) (debug : Bool) :
    (∃ why, Finalizer.finalize M debug p = .error (.panic why)) ↔
      ∃ (js : List (Input L)) (us : List TxOut) (n : Nat) (i : Input L), js.length = p.inputs.length ∧
        (∀ (n : Nat) i j, p.inputs[n]? = some i → js[n]? = some j → InputResult M p i (.ok j)) ∧ Funding p.inputs us ∧
        p.inputs[n]? = some i ∧ i.witnessUtxo = none ∧
        (debug = true ∨ ∀ (m : Nat) j', m < n → js[m]? = some j' → Checked M p us m j' none) := by
  obtain ⟨us, hus⟩ := funding_total hf
  constructor
  · rintro ⟨why, h⟩
    rcases inputs_cases (M := M) (p := p) p.inputs 0 hf with ⟨js, h1, h2⟩ | ⟨l1, i, l2, js, e', h1, h2, h3, h4⟩
    · obtain ⟨f1, f2⟩ := forms_iff.mp h2
      rw [finalize_forms debug h2 hus] at h
      split at h
      · rename_i hd
        simp only [Bool.and_eq_true, Bool.not_eq_true'] at hd
        have : ¬ ∀ i ∈ p.inputs, i.witnessUtxo ≠ none := by rw [← forms_finalized h2, hd.2]; simp
        have : ∃ i ∈ p.inputs, i.witnessUtxo = none :=
          Classical.byContradiction fun hn => this fun i hi hu => hn ⟨i, hi, hu⟩
        obtain ⟨i, hi, hu⟩ := this
        obtain ⟨n, hn⟩ := List.mem_iff_getElem?.mp hi
        exact ⟨js, us, n, i, f1, f2, hus, hn, hu, .inl hd.1⟩
      · rcases interp_cases h2 (us := us) 0 hf with ⟨g1, g2, g3⟩ | ⟨k, j, e, e1, e2, e3, e4, g5⟩ | ⟨k, i, e1, e2, e3, e4, why, g5⟩
        · rw [g1] at h; cases h
        · rw [g5] at h; cases h
        · exact ⟨js, us, k, i, f1, f2, hus, e1, e2, .inr fun m j' hm hj => by
            have := e4 m j' hm hj; rwa [Nat.zero_add] at this⟩
    · rw [finalize_fails debug h1 h2 h3] at h; cases h
  · rintro ⟨js, us', n, i, f1, f2, hus', hi, hu, hm⟩
    have h2 := forms_iff.mpr ⟨f1, f2⟩
    rw [finalize_forms debug h2 hus']
    by_cases hd : debug = true
    · rw [if_pos (by
        rw [hd, Bool.true_and]
        cases ha : js.all Input.isFinalized with
        | false => rfl
        | true => exact absurd hu ((forms_finalized h2).mp ha i (List.mem_of_getElem? hi)))]
      exact ⟨_, rfl⟩
    · rw [if_neg (by simp [hd])]
      have hm := hm.resolve_left hd
      rcases interp_cases h2 (us := us') 0 hf with ⟨-, g2, -⟩ | ⟨k, j', e, e1, e2, e3, e4, g5⟩ | ⟨k, i', e1, e2, e3, e4, why', g5⟩
      · exact absurd hu (g2 i (List.mem_of_getElem? hi))
      · rw [Nat.zero_add] at e2
        have hk : k < p.inputs.length := by have := (List.getElem?_eq_some_iff.mp e1).1; omega
        rcases Nat.lt_trichotomy k n with h | h | h
        · cases checked_unique (hm k j' h e1) e2
        · subst h
          exact absurd hu (checked_witness (f2 k i j' hi e1) e2)
        · exact absurd hu (take_witness e3 h hi)
      · rw [g5]; exact ⟨_, rfl⟩

/-- C41. In particular a PSBT with an input whose funding output is known only through the whole previous transaction (every
spend of a legacy output) is never finalized. -/
theorem C41_legacy_never {p q : Psbt L} (hf : ∀ i ∈ p.inputs, ∃ u, FundedBy i u) (debug : Bool) {i : Input L}
    (hi : i ∈ p.inputs) (hu : i.witnessUtxo = none) : Finalizer.finalize M debug p ≠ .ok q := by
  intro h
  obtain ⟨-, -, -, -, hw, -⟩ := (C41_finalize_iff hf debug q).mp h
  exact hw i hi hu

section Examples
/-- A signed P2PKH input. -/
def fLegacy : Input EL :=
  { Input.new EL ⟨Demo.rep 32 2, 1⟩ with
    nonWitnessUtxo := some ⟨2, 0, [], [⟨1, []⟩, ⟨5, [0x76, 0xa9, 0x14] ++ (EL.hash160 fKey.bytes).1 ++ [0x88, 0xac]⟩]⟩
    partialSigs := BMap.empty.insert fKey fSig }
/-- A P2WSH input. -/
def fWsh (ws : Bytes) : Input EL :=
  { Input.new EL ⟨Demo.rep 32 3, 0⟩ with witnessUtxo := some ⟨5, [0x00, 0x20] ++ (EL.sha256 ws).1⟩, witnessScript := some ws }
def fPanics (r : Out (FinalizeErr EL) (Psbt EL)) : Bool := match r with | .error (.panic _) => true | _ => false
def fErr (r : Out (FinalizeErr EL) (Psbt EL)) : Option (FinalizeErr EL) := match r with | .error (.err e) => some e | _ => none
-- Every outcome occurs, and the hypothesis holds in each case.
example : Finalizer.new (eP [fIn, fLegacy] [3]) = .ok (eP [fIn, fLegacy] [3]) := by decide +kernel
example : Finalizer.new (eP [fIn, fWsh [4], fWsh [3]] [3]) = .ok (eP [fIn, fWsh [4], fWsh [3]] [3]) := by decide +kernel
example : (fDone (eP [fIn, fWsh [9]] [3])).inputs.map Input.finalScriptWitness =
    [some [fSig.der.bytes, fKey.bytes], some [[9]]] := by decide +kernel
example : fErr (Finalizer.finalize FM true (eP [fIn, fWsh [3], fWsh [4]] [3])) = some (.finalizeInput 1 (.final .miniscript)) := by
  decide +kernel
example : fErr (Finalizer.finalize FM true (eP [fIn, fWsh [9], fWsh [4]] [3])) =
    some (.interpreterCheck (.input 2 .satisfaction)) := by decide +kernel
end Examples

/-- C41: a correctly signed PSBT with a legacy input makes the finalizer panic, with or without debug assertions. -/
theorem C41_legacy_counterexample : ∃ p : Psbt EL, Finalizer.new p = .ok p ∧ fPanics (Finalizer.finalize FM true p) = true ∧
    fPanics (Finalizer.finalize FM false p) = true :=
  ⟨eP [fIn, fLegacy] [3], by decide +kernel, by decide +kernel, by decide +kernel⟩

end Psbt.V2
