/- The finalizer of PSBT v2 does what the specification says. -/
import Verif.Spec.V2Finalize
import Verif.Lemmas.Miniscript
import Verif.Props.V2Extract
namespace Psbt.V2
open Psbt Psbt.Spec

variable {L : Lib} {M : MsLib L}

theorem mapErr_inj {ε ε' α : Type} {f : ε → ε'} (hf : ∀ a b, f a = f b → a = b) {x y : Except ε α} (h : mapErr f x = mapErr f y) :
    x = y := by
  cases x <;> cases y <;> simp_all [mapErr]
  exact hf _ _ h

theorem err_inj {ε : Type} (a b : ε) (h : Fail.err a = Fail.err b) : a = b := by cases h; rfl

theorem tapTotal {mall : Bool} {keys : List L.xonly.T} {spk : Bytes} {sat : Satisfier L} (h : P2tr spk) :
    ∃ r, constructTapWitness M mall keys spk sat = mapErr .err r ∧ TapResult M mall (tapHashMap keys) sat r := by
  have : ∃ r, constructTapWitness M mall keys spk sat = mapErr .err r := by
    unfold constructTapWitness
    rw [if_neg (by simp [isP2tr_iff.mpr h])]
    split
    · exact ⟨.ok _, rfl⟩
    · split
      · exact ⟨.ok _, rfl⟩
      · exact ⟨.error _, rfl⟩
  obtain ⟨r, hr⟩ := this
  exact ⟨r, hr, (constructTap_iff h).mp hr⟩

theorem fundedBy_unique {i : Input L} {u v : TxOut} (hu : Spec.FundedBy i u) (hv : Spec.FundedBy i v) : u = v := by
  have h1 := fundingUtxo_ok.mpr hu
  rw [fundingUtxo_ok.mpr hv] at h1
  cases h1; rfl

theorem scripts_sound {p : Psbt L} {i : Input L} {r} (h : Scripts M p i r) : Finalizer.finalScripts M p i = mapErr .err r := by
  unfold Finalizer.finalScripts
  cases h with
  | tap hu ht hr =>
    rw [fundingUtxo_ok.mpr hu]
    simp only
    rw [if_pos (isP2tr_iff.mpr ht), (constructTap_iff ht).mpr hr]; rfl
  | tapFails hu ht hr =>
    rw [fundingUtxo_ok.mpr hu]
    simp only
    rw [if_pos (isP2tr_iff.mpr ht), (constructTap_iff ht).mpr hr]; rfl
  | other hu ht hd hs =>
    rw [fundingUtxo_ok.mpr hu]
    simp only
    rw [if_neg (by rw [isP2tr_iff]; exact ht)]
    unfold Finalizer.getDescriptor
    rw [fundingUtxo_ok.mpr hu]
    simp only
    have hd := descriptorOf_iff.mpr hd
    unfold derivationKeys at hd
    rw [hd]
    simp only [orFail, mapErr, ok_bind]
    rw [hs]
  | otherFails hu ht hd =>
    rw [fundingUtxo_ok.mpr hu]
    simp only
    rw [if_neg (by rw [isP2tr_iff]; exact ht)]
    unfold Finalizer.getDescriptor
    rw [fundingUtxo_ok.mpr hu]
    simp only
    have hd := descriptorOf_iff.mpr hd
    unfold derivationKeys at hd
    rw [hd]; rfl
  | unsatisfied hu ht hd hs =>
    rw [fundingUtxo_ok.mpr hu]
    simp only
    rw [if_neg (by rw [isP2tr_iff]; exact ht)]
    unfold Finalizer.getDescriptor
    rw [fundingUtxo_ok.mpr hu]
    simp only
    have hd := descriptorOf_iff.mpr hd
    unfold derivationKeys at hd
    rw [hd]
    simp only [orFail, mapErr, ok_bind]
    rw [hs]

theorem scripts_total {p : Psbt L} {i : Input L} {u : TxOut} (hu : Spec.FundedBy i u) : ∃ r, Scripts M p i r := by
  by_cases ht : P2tr u.scriptPubkey
  · obtain ⟨r, -, hr⟩ := tapTotal (M := M) (mall := true) (keys := i.tapKeyOrigins.l.map Prod.fst) (sat := i.satisfier M) ht
    cases r with
    | ok w => exact ⟨_, .tap hu ht hr⟩
    | error e => exact ⟨_, .tapFails hu ht hr⟩
  · have hd := descriptorOf_iff (M := M) (map := hashMap M (derivationKeys p)) (sigs := i.partialSigs.l) (spk := u.scriptPubkey)
      (redeem := i.redeemScript) (witness := i.witnessScript) |>.mp rfl
    cases e : descriptorOf M (hashMap M (derivationKeys p)) i.partialSigs.l u.scriptPubkey i.redeemScript i.witnessScript with
    | error x => rw [e] at hd; exact ⟨_, .otherFails hu ht hd⟩
    | ok d =>
      rw [e] at hd
      cases hs : M.satisfy true d (i.satisfier M) with
      | none => exact ⟨_, .unsatisfied hu ht hd hs⟩
      | some x => obtain ⟨w, s⟩ := x; exact ⟨_, .other hu ht hd hs⟩

theorem scripts_unique {p : Psbt L} {i : Input L} {r r'} (h : Scripts M p i r) (h' : Scripts M p i r') : r = r' := by
  have := scripts_sound h
  rw [scripts_sound h'] at this
  exact (mapErr_inj err_inj this).symm

theorem finalize_segwit {i : Input L} {s : Bytes} {w : List Bytes} (hu : i.witnessUtxo ≠ none) (hw : w ≠ []) :
    i.finalize s w = .ok (onlyFinal i (some s) (some w)) := by
  unfold Input.finalize
  simp only
  rw [if_pos (by cases h : i.witnessUtxo <;> simp_all), if_neg (by simpa using hw)]
  rfl

theorem finalize_legacy {i : Input L} {s : Bytes} {w : List Bytes} (hu : i.witnessUtxo = none) :
    i.finalize s w = .ok (onlyFinal i (some s) none) := by
  unfold Input.finalize
  simp only
  rw [if_neg (by simp [hu])]
  rfl

theorem finalize_empty {i : Input L} {s : Bytes} (hu : i.witnessUtxo ≠ none) : i.finalize s [] = .error .emptyWitness := by
  unfold Input.finalize
  simp only
  rw [if_pos (by cases h : i.witnessUtxo <;> simp_all)]
  rfl

theorem inputResult_sound {p : Psbt L} {i : Input L} {r} (h : InputResult M p i r) :
    Finalizer.finalizeInput M p i = mapErr .err r := by
  unfold Finalizer.finalizeInput
  cases h with
  | segwit hs hu hw => rw [scripts_sound hs]; simp only [mapErr]; rw [finalize_segwit hu hw]; rfl
  | legacy hs hu => rw [scripts_sound hs]; simp only [mapErr]; rw [finalize_legacy hu]; rfl
  | noWitness hs hu => rw [scripts_sound hs]; simp only [mapErr]; rw [finalize_empty hu]; rfl
  | fails hs => rw [scripts_sound hs]; rfl

theorem inputResult_total {p : Psbt L} {i : Input L} {u : TxOut} (hu : Spec.FundedBy i u) : ∃ r, InputResult M p i r := by
  obtain ⟨r, hr⟩ := scripts_total (M := M) (p := p) hu
  cases r with
  | error e => exact ⟨_, .fails hr⟩
  | ok x =>
    obtain ⟨s, w⟩ := x
    by_cases hw : i.witnessUtxo = none
    · exact ⟨_, .legacy hr hw⟩
    · by_cases he : w = []
      · subst he; exact ⟨_, .noWitness hr hw⟩
      · exact ⟨_, .segwit hr hw he⟩

theorem inputResult_iff {p : Psbt L} {i : Input L} {u : TxOut} (hu : Spec.FundedBy i u) {r} :
    Finalizer.finalizeInput M p i = mapErr .err r ↔ InputResult M p i r := by
  refine ⟨fun h => ?_, inputResult_sound⟩
  obtain ⟨r', hr'⟩ := inputResult_total (M := M) (p := p) hu
  rw [inputResult_sound hr'] at h
  rw [← mapErr_inj err_inj h]; exact hr'

theorem inputResult_unique {p : Psbt L} {i : Input L} {r r'} (h : InputResult M p i r) (h' : InputResult M p i r') : r = r' := by
  have := inputResult_sound h
  rw [inputResult_sound h'] at this
  exact (mapErr_inj err_inj this).symm

/-- What a finalized input is. -/
theorem inputResult_form {p : Psbt L} {i j : Input L} (h : InputResult M p i (.ok j)) :
    (∃ s w, i.witnessUtxo ≠ none ∧ j = onlyFinal i (some s) (some w)) ∨ (∃ s, i.witnessUtxo = none ∧ j = onlyFinal i (some s) none) := by
  cases h with
  | segwit _ hu _ => exact .inl ⟨_, _, hu, rfl⟩
  | legacy _ hu => exact .inr ⟨_, hu, rfl⟩

/-! ### Lists of inputs -/

/-- Inputs and their finalized forms. -/
inductive Forms (M : MsLib L) (p : Psbt L) : List (Input L) → List (Input L) → Prop
  | nil : Forms M p [] []
  | cons {i j is js} : InputResult M p i (.ok j) → Forms M p is js → Forms M p (i :: is) (j :: js)

theorem forms_iff {p : Psbt L} {is js : List (Input L)} :
    Forms M p is js ↔ js.length = is.length ∧
      ∀ (n : Nat) (i j : Input L), is[n]? = some i → js[n]? = some j → InputResult M p i (.ok j) := by
  constructor
  · intro h
    induction h with
    | nil => simp
    | cons h _ ih =>
      refine ⟨by simp [ih.1], fun n i j hi hj => ?_⟩
      cases n with
      | zero => simp at hi hj; subst hi hj; exact h
      | succ n => exact ih.2 n i j (by simpa using hi) (by simpa using hj)
  · induction is generalizing js with
    | nil => rintro ⟨h, -⟩; have : js = [] := by simpa using h
             subst this; exact .nil
    | cons i is ih =>
      rintro ⟨h1, h2⟩
      cases js with
      | nil => simp at h1
      | cons j js =>
        exact .cons (h2 0 i j rfl rfl) (ih ⟨by simpa using h1, fun n i j hi hj => h2 (n + 1) i j (by simpa using hi) (by simpa using hj)⟩)

/-- Either all inputs are finalized, or there is a first one that cannot be. -/
theorem inputs_cases {p : Psbt L} (is : List (Input L)) (n : Nat) (hf : ∀ i ∈ is, ∃ u, Spec.FundedBy i u) :
    (∃ js, Finalizer.finalizeInputs M p n is = .ok js ∧ Forms M p is js) ∨
    (∃ l1 i l2 js e, is = l1 ++ i :: l2 ∧ Forms M p l1 js ∧ InputResult M p i (.error e) ∧
      Finalizer.finalizeInputs M p n is = .error (.err (.finalizeInput (n + l1.length) e))) := by
  induction is generalizing n with
  | nil => exact .inl ⟨[], rfl, .nil⟩
  | cons i is ih =>
    obtain ⟨u, hu⟩ := hf i (by simp)
    obtain ⟨r, hr⟩ := inputResult_total (M := M) (p := p) hu
    rw [Finalizer.finalizeInputs, inputResult_sound hr]
    cases r with
    | error e => exact .inr ⟨[], i, is, [], e, rfl, .nil, hr, rfl⟩
    | ok j =>
      simp only [mapErr]
      rcases ih (n + 1) (fun k hk => hf k (by simp [hk])) with ⟨js, h1, h2⟩ | ⟨l1, k, l2, js, e, h1, h2, h3, h4⟩
      · rw [h1]; exact .inl ⟨j :: js, rfl, .cons hr h2⟩
      · rw [h4]
        refine .inr ⟨i :: l1, k, l2, j :: js, e, by rw [h1]; rfl, .cons hr h2, h3, ?_⟩
        rw [List.length_cons, show n + (l1.length + 1) = n + 1 + l1.length by omega]; rfl

theorem forms_funding {p : Psbt L} {is js : List (Input L)} (h : Forms M p is js) : js.map Input.fundingUtxo = is.map Input.fundingUtxo := by
  induction h with
  | nil => rfl
  | cons h _ ih =>
    simp only [List.map_cons, ih]
    rcases inputResult_form h with ⟨s, w, -, rfl⟩ | ⟨s, -, rfl⟩ <;> rfl

theorem forms_txIn {p : Psbt L} {is js : List (Input L)} (h : Forms M p is js) :
    js.map Input.unsignedTxIn = is.map fun i => ⟨⟨i.previousTxid, i.spentOutputIndex⟩, [], 0, []⟩ := by
  induction h with
  | nil => rfl
  | cons h _ ih =>
    simp only [List.map_cons, ih]
    rcases inputResult_form h with ⟨s, w, -, rfl⟩ | ⟨s, -, rfl⟩ <;> rfl

theorem forms_free {p : Psbt L} {is js : List (Input L)} (h : Forms M p is js) :
    ∀ j ∈ js, j.sequence = none ∧ j.minTime = none ∧ j.minHeight = none := by
  induction h with
  | nil => simp
  | cons h _ ih =>
    intro j hj
    rcases List.mem_cons.mp hj with rfl | hj
    · rcases inputResult_form h with ⟨s, w, -, rfl⟩ | ⟨s, -, rfl⟩ <;> exact ⟨rfl, rfl, rfl⟩
    · exact ih j hj

theorem forms_lockTime {p : Psbt L} {js : List (Input L)} (h : Forms M p p.inputs js) :
    (⟨p.global, js, p.outputs⟩ : Psbt L).determineLockTime = .ok (p.global.fallbackLockTime.getD 0) := by
  refine (C17_lock_time_iff _ _).mpr (.fallback fun j hj hc => ?_)
  obtain ⟨-, h1, h2⟩ := forms_free h j hj
  rcases hc with hc | hc
  · exact hc h1
  · exact hc h2

theorem forms_unsigned {p : Psbt L} {js : List (Input L)} (h : Forms M p p.inputs js) :
    (⟨p.global, js, p.outputs⟩ : Psbt L).unsignedTx = .ok (checkedTx p) := by
  refine unsignedTx_ok.mpr ⟨_, forms_lockTime h, ?_⟩
  unfold checkedTx
  rw [forms_txIn h]
  rfl

theorem forms_finalized {p : Psbt L} {is js : List (Input L)} (h : Forms M p is js) :
    js.all Input.isFinalized = true ↔ ∀ i ∈ is, i.witnessUtxo ≠ none := by
  induction h with
  | nil => simp
  | cons h _ ih =>
    simp only [List.all_cons, Bool.and_eq_true, ih, List.mem_cons, forall_eq_or_imp]
    rcases inputResult_form h with ⟨s, w, hu, rfl⟩ | ⟨s, hu, rfl⟩
    · exact ⟨fun h => ⟨hu, h.2⟩, fun h => ⟨rfl, h.2⟩⟩
    · constructor
      · rintro ⟨h, -⟩; cases h
      · rintro ⟨h, -⟩; exact absurd hu h

theorem interpInput_eq {p : Psbt L} {us : List TxOut} {n : Nat} {i j : Input L} {u : TxOut} (hi : InputResult M p i (.ok j))
    (hu : Spec.FundedBy i u) (s : Bytes) (w : List Bytes) :
    interpCheckInput M (checkedTx p) n j us w s =
      match M.interp ⟨u.scriptPubkey, s, w, 0xFFFFFFFF, 0, checkedTx p, n, us⟩ with
      | some e => .error (.err (.input n e))
      | none => .ok () := by
  unfold interpCheckInput
  have : j.fundingUtxo = .ok u ∧ j.sequence = none ∧ j.lockTime = 0 := by
    rw [← fundingUtxo_ok.mpr hu]
    rcases inputResult_form hi with ⟨s, w, -, rfl⟩ | ⟨s, -, rfl⟩ <;> exact ⟨rfl, rfl, rfl⟩
  obtain ⟨h1, h2, h3⟩ := this
  rw [h1, h2, h3]
  rfl

/-- The three ways the check of the finalized inputs can end. -/
theorem interp_cases {p : Psbt L} {us : List TxOut} {is js : List (Input L)} (h : Forms M p is js) (n : Nat)
    (hf : ∀ i ∈ is, ∃ u, Spec.FundedBy i u) :
    (interpCheckFrom M (checkedTx p) us n js = .ok () ∧ (∀ i ∈ is, i.witnessUtxo ≠ none) ∧
      ∀ (k : Nat) (j : Input L), js[k]? = some j → Checked M p us (n + k) j none) ∨
    (∃ (k : Nat) (j : Input L) (e : InterpErr), js[k]? = some j ∧ Checked M p us (n + k) j (some e) ∧
      (∀ i ∈ is.take k, i.witnessUtxo ≠ none) ∧
      (∀ (m : Nat) (j' : Input L), m < k → js[m]? = some j' → Checked M p us (n + m) j' none) ∧
      interpCheckFrom M (checkedTx p) us n js = .error (.err (.input (n + k) e))) ∨
    (∃ (k : Nat) (i : Input L), is[k]? = some i ∧ i.witnessUtxo = none ∧ (∀ i ∈ is.take k, i.witnessUtxo ≠ none) ∧
      (∀ (m : Nat) (j' : Input L), m < k → js[m]? = some j' → Checked M p us (n + m) j' none) ∧
      ∃ why, interpCheckFrom M (checkedTx p) us n js = .error (.panic why)) := by
  induction h generalizing n with
  | nil => exact .inl ⟨rfl, by simp, by simp⟩
  | cons hi _ ih =>
    rename_i i j is js hforms
    obtain ⟨u, hu⟩ := hf i (by simp)
    rw [interpCheckFrom]
    rcases inputResult_form hi with ⟨s, w, hw, hj⟩ | ⟨s, hw, hj⟩
    · have hjw : j.finalScriptWitness = some w := by rw [hj]; rfl
      have hjs : j.finalScriptSig = some s := by rw [hj]; rfl
      have hju : Spec.FundedBy j u := by
        rw [← fundingUtxo_ok, ← fundingUtxo_ok.mpr hu, hj]; rfl
      rw [hjw, hjs]
      simp only
      rw [interpInput_eq hi hu]
      cases hm : M.interp ⟨u.scriptPubkey, s, w, 0xFFFFFFFF, 0, checkedTx p, n, us⟩ with
      | some e =>
        refine .inr (.inl ⟨0, j, e, rfl, ⟨u, s, w, hju, hjs, hjw, hm⟩, by simp, by simp, rfl⟩)
      | none =>
        simp only
        have hck : Checked M p us n j none := ⟨u, s, w, hju, hjs, hjw, hm⟩
        show _ ∨ _ ∨ _
        rw [ok_bind]
        rcases ih (n + 1) (fun k hk => hf k (by simp [hk])) with ⟨h1, h2, h3⟩ | ⟨k, j', e, h1, h2, h3, h4, h5⟩ | ⟨k, i', h1, h2, h3, h4, h5⟩
        · refine .inl ⟨h1, ?_, ?_⟩
          · intro i' hi'
            rcases List.mem_cons.mp hi' with rfl | hi'
            · exact hw
            · exact h2 i' hi'
          · intro k j' hj'
            cases k with
            | zero => simp at hj'; subst hj'; exact hck
            | succ k => rw [show n + (k + 1) = n + 1 + k by omega]; exact h3 k j' (by simpa using hj')
        · refine .inr (.inl ⟨k + 1, j', e, by simpa using h1, ?_, ?_, ?_, ?_⟩)
          · rw [show n + (k + 1) = n + 1 + k by omega]; exact h2
          · intro i' hi'
            rw [List.take_succ_cons] at hi'
            rcases List.mem_cons.mp hi' with rfl | hi'
            · exact hw
            · exact h3 i' hi'
          · intro m j'' hm hj''
            cases m with
            | zero => simp at hj''; subst hj''; exact hck
            | succ m => rw [show n + (m + 1) = n + 1 + m by omega]; exact h4 m j'' (by omega) (by simpa using hj'')
          · rw [show n + (k + 1) = n + 1 + k by omega]; exact h5
        · refine .inr (.inr ⟨k + 1, i', by simpa using h1, h2, ?_, ?_, h5⟩)
          · intro i' hi'
            rw [List.take_succ_cons] at hi'
            rcases List.mem_cons.mp hi' with rfl | hi'
            · exact hw
            · exact h3 i' hi'
          · intro m j'' hm hj''
            cases m with
            | zero => simp at hj''; subst hj''; exact hck
            | succ m => rw [show n + (m + 1) = n + 1 + m by omega]; exact h4 m j'' (by omega) (by simpa using hj'')
    · have hjw : j.finalScriptWitness = none := by rw [hj]; rfl
      rw [hjw]
      exact .inr (.inr ⟨0, i, rfl, hw, by simp, by simp, _, rfl⟩)

theorem funding_total {is : List (Input L)} (hf : ∀ i ∈ is, ∃ u, Spec.FundedBy i u) : ∃ us, Spec.Funding is us := by
  induction is with
  | nil => exact ⟨[], .nil⟩
  | cons i is ih =>
    obtain ⟨u, hu⟩ := hf i (by simp)
    obtain ⟨us, hus⟩ := ih (fun k hk => hf k (by simp [hk]))
    exact ⟨u :: us, .cons hu hus⟩

theorem collect_funding {is : List (Input L)} {us : List TxOut} (h : is.map Input.fundingUtxo = us.map .ok) :
    collect (is.map Input.fundingExpect) = .ok us := by
  rw [collect_ok]
  induction is generalizing us with
  | nil => cases us with
    | nil => rfl
    | cons u us => simp at h
  | cons i is ih =>
    cases us with
    | nil => simp at h
    | cons u us =>
      simp only [List.map_cons, List.cons.injEq] at h ⊢
      refine ⟨?_, ih h.2⟩
      unfold Input.fundingExpect
      rw [h.1]

theorem checkFunded_ok {is : List (Input L)} : checkFunded is = .ok () ↔ ∀ i ∈ is, ∃ u, Spec.FundedBy i u := by
  induction is with
  | nil => simp [checkFunded]
  | cons i is ih =>
    rw [checkFunded]
    simp only [List.mem_cons, forall_eq_or_imp]
    cases e : i.fundingUtxo with
    | ok u => simp only; rw [ih]; exact ⟨fun h => ⟨⟨u, fundingUtxo_ok.mp e⟩, h⟩, fun h => h.2⟩
    | error x =>
      simp only [reduceCtorEq, false_iff]
      rintro ⟨⟨u, hu⟩, -⟩
      rw [fundingUtxo_ok.mpr hu] at e; cases e

theorem checked_unique {p : Psbt L} {us : List TxOut} {n : Nat} {j : Input L} {r r'} (h : Checked M p us n j r)
    (h' : Checked M p us n j r') : r = r' := by
  obtain ⟨u, s, w, h1, h2, h3, h4⟩ := h
  obtain ⟨u', s', w', h1', h2', h3', h4'⟩ := h'
  cases fundedBy_unique h1 h1'
  rw [h2] at h2'; cases h2'
  rw [h3] at h3'; cases h3'
  rw [← h4, ← h4']

theorem checked_witness {p : Psbt L} {us : List TxOut} {n : Nat} {i j : Input L} {r} (hi : InputResult M p i (.ok j))
    (h : Checked M p us n j r) : i.witnessUtxo ≠ none := by
  obtain ⟨u, s, w, h1, h2, h3, h4⟩ := h
  rcases inputResult_form hi with ⟨s, w, hw, rfl⟩ | ⟨s, hw, rfl⟩
  · exact hw
  · cases h3

theorem forms_ok {p : Psbt L} {is js : List (Input L)} (h : Forms M p is js) (n : Nat) :
    Finalizer.finalizeInputs M p n is = .ok js := by
  induction h generalizing n with
  | nil => rfl
  | cons h _ ih => rw [Finalizer.finalizeInputs, inputResult_sound h]; simp only [mapErr]; rw [ih]; rfl

theorem forms_err {p : Psbt L} {l1 l2 js : List (Input L)} {i : Input L} {e} (h : Forms M p l1 js)
    (hi : InputResult M p i (.error e)) (n : Nat) :
    Finalizer.finalizeInputs M p n (l1 ++ i :: l2) = .error (.err (.finalizeInput (n + l1.length) e)) := by
  induction h generalizing n with
  | nil => rw [List.nil_append, Finalizer.finalizeInputs, inputResult_sound hi]; rfl
  | cons h _ ih =>
    rw [List.cons_append, Finalizer.finalizeInputs, inputResult_sound h]; simp only [mapErr]; rw [ih (n + 1)]
    rename_i is _ _
    rw [List.length_cons, show n + (is.length + 1) = n + 1 + is.length by omega]; rfl

theorem forms_exists {p : Psbt L} {is : List (Input L)} (h : ∀ i ∈ is, ∃ j, InputResult M p i (.ok j)) : ∃ js, Forms M p is js := by
  induction is with
  | nil => exact ⟨[], .nil⟩
  | cons i is ih =>
    obtain ⟨j, hj⟩ := h i (by simp)
    obtain ⟨js, hjs⟩ := ih (fun k hk => h k (by simp [hk]))
    exact ⟨j :: js, .cons hj hjs⟩

theorem forms_each {p : Psbt L} {is js : List (Input L)} (h : Forms M p is js) : ∀ i ∈ is, ∃ j, InputResult M p i (.ok j) := by
  induction h with
  | nil => simp
  | cons h _ ih =>
    intro i hi
    rcases List.mem_cons.mp hi with rfl | hi
    · exact ⟨_, h⟩
    · exact ih i hi

theorem forms_unique {p : Psbt L} {is js js' : List (Input L)} (h : Forms M p is js) (h' : Forms M p is js') : js = js' := by
  have := forms_ok h 0
  rw [forms_ok h' 0] at this
  cases this; rfl

theorem take_witness {is : List (Input L)} {k m : Nat} {i : Input L} (h : ∀ i ∈ is.take k, i.witnessUtxo ≠ none)
    (hm : m < k) (hi : is[m]? = some i) : i.witnessUtxo ≠ none :=
  h i (List.mem_iff_getElem?.mpr ⟨m, by rw [List.getElem?_take_of_lt hm]; exact hi⟩)

/-- What `finalize` does, once the inputs' forms are known. -/
theorem finalize_forms {p : Psbt L} {js : List (Input L)} {us : List TxOut} (debug : Bool) (h : Forms M p p.inputs js)
    (hus : Spec.Funding p.inputs us) :
    Finalizer.finalize M debug p =
      if debug && !js.all Input.isFinalized then .error (.panic "assertion failed: self.is_finalized()")
      else match interpCheckFrom M (checkedTx p) us 0 js with
        | .error (.err e) => .error (.err (.interpreterCheck e))
        | .error (.panic s) => .error (.panic s)
        | .ok () => .ok ⟨p.global, js, p.outputs⟩ := by
  unfold Finalizer.finalize Psbt.interpreterCheck
  rw [forms_ok h 0, ok_bind]
  simp only
  have e : (⟨p.global, js, p.outputs⟩ : Psbt L).isFinalized = js.all Input.isFinalized := rfl
  rw [e]
  by_cases hd : (debug && !js.all Input.isFinalized) = true
  · rw [if_pos hd, if_pos hd]
  · rw [if_neg hd, if_neg hd, forms_unsigned h]
    simp only
    have : collect (js.map Input.fundingExpect) = .ok us := by
      apply collect_funding
      rw [forms_funding h]; exact funding_iff.mpr hus
    rw [this]
    rfl

theorem finalize_fails {p : Psbt L} {l1 l2 js : List (Input L)} {i : Input L} {e} (debug : Bool) (hp : p.inputs = l1 ++ i :: l2)
    (h : Forms M p l1 js) (hi : InputResult M p i (.error e)) :
    Finalizer.finalize M debug p = .error (.err (.finalizeInput l1.length e)) := by
  unfold Finalizer.finalize
  rw [hp, forms_err h hi 0, Nat.zero_add]; rfl

end Psbt.V2
