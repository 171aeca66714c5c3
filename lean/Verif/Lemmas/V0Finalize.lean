/- The miniscript finalizer of PSBT v0 does what the specification says. -/
import Verif.Spec.V0Finalize
import Verif.Lemmas.V2Finalize
import Verif.Lemmas.V0Sign
namespace Psbt.V0
open Psbt Psbt.Spec Psbt.Spec.V0

variable {L : Lib} {M : MsLib L}

theorem getUtxo_eq {p : Psbt L} {n : Nat} {t : TxIn} {i : Input L} (h : HasInput p n t i) :
    p.getUtxo n = match fundingUtxo t i with
      | .ok u => .ok u
      | .error .psbtUtxoOutOfbounds => .error (.panic "index out of bounds")
      | .error _ => .error (.err .missingUtxo) := by
  unfold Psbt.getUtxo fundingUtxo
  rw [h.2]
  simp only
  cases i.witnessUtxo with
  | some u => rfl
  | none =>
    cases i.nonWitnessUtxo with
    | none => rfl
    | some tx =>
      simp only [h.1]
      cases tx.output[t.previousOutput.vout.toNat]? <;> rfl

theorem getUtxo_funded {p : Psbt L} {n : Nat} {t : TxIn} {i : Input L} {u : TxOut} (h : HasInput p n t i) (hu : FundedBy t i u) :
    p.getUtxo n = .ok u := by
  rw [getUtxo_eq h, fundingUtxo_ok.mpr hu]

theorem getUtxo_unfunded {p : Psbt L} {n : Nat} {t : TxIn} {i : Input L} (h : HasInput p n t i) (hu : Unfunded i) :
    p.getUtxo n = .error (.err .missingUtxo) := by
  rw [getUtxo_eq h]
  unfold fundingUtxo
  simp only [hu.1, hu.2]

theorem funded_cases {p : Psbt L} (hp : Sound p) {n : Nat} {t : TxIn} {i : Input L} (h : HasInput p n t i) :
    (∃ u, FundedBy t i u) ∨ Unfunded i := by
  cases h1 : i.witnessUtxo with
  | some u => exact .inl ⟨u, .witness h1⟩
  | none =>
    cases h2 : i.nonWitnessUtxo with
    | none => exact .inr ⟨h1, h2⟩
    | some tx =>
      have := hp.2 n t i tx h.1 h.2 h1 h2
      exact .inl ⟨_, .nonWitness h1 h2 (List.getElem?_eq_getElem this)⟩

theorem not_unfunded {t : TxIn} {i : Input L} {u : TxOut} (hu : FundedBy t i u) : ¬ Unfunded i := by
  rintro ⟨h1, h2⟩
  cases hu <;> simp_all

theorem hasInput_of_lt {p : Psbt L} (hp : Sound p) {n : Nat} (h : n < p.inputs.length) : ∃ t i, HasInput p n t i :=
  ⟨_, _, List.getElem?_eq_getElem (by rw [← hp.1]; exact h), List.getElem?_eq_getElem h⟩

theorem hasInput_of_get {p : Psbt L} (hp : Sound p) {n : Nat} {i : Input L} (h : p.inputs[n]? = some i) : ∃ t, HasInput p n t i := by
  obtain ⟨t, i', h'⟩ := hasInput_of_lt hp (List.getElem?_eq_some_iff.mp h).1
  cases h.symm.trans h'.2
  exact ⟨t, h'⟩

theorem prevoutsFrom_cases {p : Psbt L} (hp : Sound p) (m k : Nat) (hk : k + m = p.inputs.length) :
    (∃ us, p.prevoutsFrom (List.range' k m) = .ok us ∧ Funding (p.unsignedTx.input.drop k) (p.inputs.drop k) us) ∨
    ∃ j, p.prevoutsFrom (List.range' k m) = .error (.err (.input .missingUtxo j)) ∧ (∃ i, p.inputs[j]? = some i ∧ Unfunded i) ∧
      ∀ x i, k ≤ x → x < j → p.inputs[x]? = some i → ¬ Unfunded i := by
  induction m generalizing k with
  | zero =>
    refine .inl ⟨[], rfl, ?_⟩
    rw [List.drop_eq_nil_of_le (by rw [← hp.1]; omega), List.drop_eq_nil_of_le (by omega)]
    exact .nil
  | succ m ih =>
    obtain ⟨t, i, h⟩ := hasInput_of_lt hp (n := k) (by omega)
    rw [List.range'_succ, Psbt.prevoutsFrom]
    rcases funded_cases hp h with ⟨u, hu⟩ | hu
    · rw [getUtxo_funded h hu]
      simp only [atIndex, ok_bind]
      rcases ih (k + 1) (by omega) with ⟨us, h1, h2⟩ | ⟨j, h1, h2, h3⟩
      · refine .inl ⟨u :: us, by rw [h1]; rfl, ?_⟩
        have e1 : p.unsignedTx.input.drop k = t :: p.unsignedTx.input.drop (k + 1) := by
          obtain ⟨hl, e⟩ := List.getElem?_eq_some_iff.mp h.1
          rw [List.drop_eq_getElem_cons hl, e]
        have e2 : p.inputs.drop k = i :: p.inputs.drop (k + 1) := by
          obtain ⟨hl, e⟩ := List.getElem?_eq_some_iff.mp h.2
          rw [List.drop_eq_getElem_cons hl, e]
        rw [e1, e2]
        exact .cons hu h2
      · refine .inr ⟨j, by rw [h1]; rfl, h2, fun x y hx hj hy => ?_⟩
        rcases Nat.lt_or_ge k x with hc | hc
        · exact h3 x y hc hj hy
        · have : x = k := by omega
          subst this
          cases h.2.symm.trans hy
          exact not_unfunded hu
    · rw [getUtxo_unfunded h hu]
      exact .inr ⟨k, rfl, ⟨i, h.2, hu⟩, fun x y hx hj _ => absurd hj (by omega)⟩

theorem prevouts_cases {p : Psbt L} (hp : Sound p) :
    (∃ us, p.prevouts = .ok us ∧ Funding p.unsignedTx.input p.inputs us) ∨
    ∃ k, p.prevouts = .error (.err (.input .missingUtxo k)) ∧ FirstUnfunded p k := by
  unfold Psbt.prevouts
  rw [List.range_eq_range']
  rcases prevoutsFrom_cases hp p.inputs.length 0 (by omega) with ⟨us, h1, h2⟩ | ⟨k, h1, h2, h3⟩
  · exact .inl ⟨us, h1, by simpa using h2⟩
  · exact .inr ⟨k, h1, h2, fun m i hm hi => h3 m i (by omega) hm hi⟩

theorem funding_funded {p : Psbt L} {us : List TxOut} (h : Funding p.unsignedTx.input p.inputs us) {n : Nat} {i : Input L}
    (hi : p.inputs[n]? = some i) : ∃ t u, HasInput p n t i ∧ FundedBy t i u := by
  obtain ⟨h1, h2, h3⟩ := funding_iff.mp h
  have hn := (List.getElem?_eq_some_iff.mp hi).1
  obtain ⟨t, j, e1, e2, hf⟩ := h3 n _ (List.getElem?_eq_getElem (by omega))
  cases hi.symm.trans e2
  exact ⟨t, _, ⟨e1, e2⟩, hf⟩

theorem funding_unique {ts : List TxIn} {is : List (Input L)} {us us' : List TxOut} (h : Funding ts is us) (h' : Funding ts is us') :
    us = us' := by
  induction h generalizing us' with
  | nil => cases h'; rfl
  | cons h1 _ ih =>
    cases h' with
    | cons h1' h2' => rw [fundedBy_unique h1 h1', ih h2']

theorem firstUnfunded_unique {p : Psbt L} {k k' : Nat} (h : FirstUnfunded p k) (h' : FirstUnfunded p k') : k = k' := by
  obtain ⟨⟨i, h1, h2⟩, h3⟩ := h
  obtain ⟨⟨i', h1', h2'⟩, h3'⟩ := h'
  rcases Nat.lt_trichotomy k k' with hc | hc | hc
  · exact absurd h2 (h3' k i hc h1)
  · exact hc
  · exact absurd h2' (h3 k' i' hc h1')

theorem firstUnfunded_funding {p : Psbt L} {k : Nat} {us : List TxOut} (h : FirstUnfunded p k)
    (h' : Funding p.unsignedTx.input p.inputs us) : False := by
  obtain ⟨⟨i, h1, h2⟩, -⟩ := h
  obtain ⟨t, u, -, h4⟩ := funding_funded h' h1
  exact not_unfunded h4 h2

theorem getScriptPubkey_funded {p : Psbt L} {n : Nat} {t : TxIn} {i : Input L} {u : TxOut} (h : HasInput p n t i) (hu : FundedBy t i u) :
    p.getScriptPubkey n = .ok u.scriptPubkey := by
  unfold Psbt.getScriptPubkey
  rw [getUtxo_funded h hu]; rfl

theorem scripts_sound {p : Psbt L} {n : Nat} {mall : Bool} {r} (h : Scripts M p n mall r) :
    p.satisfyInput M n mall = match r with
      | .ok (s, w) => .ok (w, s)
      | .error e => .error (.err (.input e n)) := by
  unfold Psbt.satisfyInput
  cases h with
  | unfunded hi hu =>
    unfold Psbt.getScriptPubkey
    rw [getUtxo_unfunded hi hu]; rfl
  | tap hi hu ht hr =>
    have hr := (constructTap_iff ht).mpr hr
    unfold originKeys at hr
    rw [getScriptPubkey_funded hi hu]
    simp only [atIndex, ok_bind, hi.2]
    rw [if_pos (isP2tr_iff.mpr ht), hr]; rfl
  | tapFails hi hu ht hr =>
    have hr := (constructTap_iff ht).mpr hr
    unfold originKeys at hr
    rw [getScriptPubkey_funded hi hu]
    simp only [atIndex, ok_bind, hi.2]
    rw [if_pos (isP2tr_iff.mpr ht), hr]; rfl
  | other hi hu ht hd hs =>
    have hd := descriptorOf_iff.mpr hd
    unfold Psbt.Spec.V0.derivationKeys at hd
    unfold Psbt.getDescriptor
    rw [getScriptPubkey_funded hi hu]
    simp only [atIndex, ok_bind, hi.2]
    rw [if_neg (by rw [isP2tr_iff]; exact ht), hd]
    simp only [V2.orFail, mapErr, ok_bind, hs]
  | otherFails hi hu ht hd =>
    have hd := descriptorOf_iff.mpr hd
    unfold Psbt.Spec.V0.derivationKeys at hd
    unfold Psbt.getDescriptor
    rw [getScriptPubkey_funded hi hu]
    simp only [atIndex, ok_bind, hi.2]
    rw [if_neg (by rw [isP2tr_iff]; exact ht), hd]; rfl
  | unsatisfied hi hu ht hd hs =>
    have hd := descriptorOf_iff.mpr hd
    unfold Psbt.Spec.V0.derivationKeys at hd
    unfold Psbt.getDescriptor
    rw [getScriptPubkey_funded hi hu]
    simp only [atIndex, ok_bind, hi.2]
    rw [if_neg (by rw [isP2tr_iff]; exact ht), hd]
    simp only [V2.orFail, mapErr, ok_bind, hs]

theorem scripts_total {p : Psbt L} (hp : Sound p) {n : Nat} (hn : n < p.inputs.length) (mall : Bool) : ∃ r, Scripts M p n mall r := by
  obtain ⟨t, i, hi⟩ := hasInput_of_lt hp hn
  rcases funded_cases hp hi with ⟨u, hu⟩ | hu
  · by_cases ht : P2tr u.scriptPubkey
    · obtain ⟨r, -, hr⟩ := V2.tapTotal (M := M) (mall := mall) (keys := originKeys p) (sat := p.satisfier M n i) ht
      cases r with
      | ok w => exact ⟨_, .tap hi hu ht hr⟩
      | error e => exact ⟨_, .tapFails hi hu ht hr⟩
    · cases e : descriptorOf M (hashMap M (Psbt.Spec.V0.derivationKeys p)) i.partialSigs.l u.scriptPubkey i.redeemScript i.witnessScript with
      | error e' => exact ⟨_, .otherFails hi hu ht (descriptorOf_iff.mp e)⟩
      | ok d =>
        cases hs : M.satisfy mall d (p.satisfier M n i) with
        | none => exact ⟨_, .unsatisfied hi hu ht (descriptorOf_iff.mp e) hs⟩
        | some ws => exact ⟨_, .other hi hu ht (descriptorOf_iff.mp e) hs⟩
  · exact ⟨_, .unfunded hi hu⟩

theorem scripts_unique {p : Psbt L} {n : Nat} {mall : Bool} {r r'} (h : Scripts M p n mall r) (h' : Scripts M p n mall r') : r = r' := by
  have e := (scripts_sound h).symm.trans (scripts_sound h')
  cases r <;> cases r' <;> simp_all
  rename_i a b
  obtain ⟨a1, a2⟩ := a
  obtain ⟨b1, b2⟩ := b
  simp_all

theorem interpInpCheck_eq {p : Psbt L} {n : Nat} {us : List TxOut} {w : List Bytes} {s : Bytes} {t i u} (hi : HasInput p n t i)
    (hu : FundedBy t i u) : p.interpInpCheck M n us w s =
      match M.interp ⟨u.scriptPubkey, s, w, t.sequence, p.unsignedTx.lockTime, p.unsignedTx, n, us⟩ with
      | some e => .error (.err (.input (.interpreter e) n))
      | none => .ok () := by
  unfold Psbt.interpInpCheck
  rw [getScriptPubkey_funded hi hu]
  simp only [atIndex, ok_bind, hi.1]
  cases M.interp _ <;> rfl

theorem scripts_hasInput {p : Psbt L} {n : Nat} {mall : Bool} {r} (h : Scripts M p n mall r) : ∃ t i, HasInput p n t i := by
  cases h <;> exact ⟨_, _, by assumption⟩

theorem scripts_funded {p : Psbt L} {n : Nat} {mall : Bool} {x} (h : Scripts M p n mall (.ok x)) :
    ∃ t i u, HasInput p n t i ∧ FundedBy t i u := by
  cases h <;> exact ⟨_, _, _, by assumption, by assumption⟩

theorem result_sound {p : Psbt L} (hp : Sound p) {n : Nat} {mall : Bool} {r} (h : Result M p n mall r) :
    p.finalizeInput M n mall = match r with
      | .ok j => .ok (withInput p n j)
      | .error e => .error (.err e) := by
  unfold Psbt.finalizeInput Psbt.finalizeInputHelper
  cases h with
  | fails hs => rw [scripts_sound hs]; rfl
  | done hi hs hv =>
    rw [scripts_sound hs]
    obtain ⟨t, i', u, us, h1, h2, h3, h4⟩ := hv
    simp only [ok_bind]
    rcases prevouts_cases hp with ⟨us', e1, e2⟩ | ⟨k, e1, e2⟩
    · rw [e1]
      simp only [ok_bind]
      rw [interpInpCheck_eq h1 h2, funding_unique e2 h3, h4]
      simp only [ok_bind, hi, List.isEmpty_iff]
      rfl
    · exact (firstUnfunded_funding e2 h3).elim
  | unfunded hs hk =>
    rw [scripts_sound hs]
    simp only [ok_bind]
    rcases prevouts_cases hp with ⟨us', e1, e2⟩ | ⟨k', e1, e2⟩
    · exact (firstUnfunded_funding hk e2).elim
    · rw [e1, firstUnfunded_unique hk e2]; rfl
  | refused hs hv =>
    rw [scripts_sound hs]
    obtain ⟨t, i', u, us, h1, h2, h3, h4⟩ := hv
    simp only [ok_bind]
    rcases prevouts_cases hp with ⟨us', e1, e2⟩ | ⟨k, e1, e2⟩
    · rw [e1]
      simp only [ok_bind]
      rw [interpInpCheck_eq h1 h2, funding_unique e2 h3, h4]
      rfl
    · exact (firstUnfunded_funding e2 h3).elim

theorem result_total {p : Psbt L} (hp : Sound p) {n : Nat} (hn : n < p.inputs.length) (mall : Bool) : ∃ r, Result M p n mall r := by
  obtain ⟨r, hr⟩ := scripts_total (M := M) hp hn mall
  cases r with
  | error e => exact ⟨_, .fails hr⟩
  | ok x =>
    obtain ⟨s, w⟩ := x
    obtain ⟨t, i, u, h1, h2⟩ := scripts_funded hr
    rcases prevouts_cases hp with ⟨us, e1, e2⟩ | ⟨k, e1, e2⟩
    · cases e : M.interp ⟨u.scriptPubkey, s, w, t.sequence, p.unsignedTx.lockTime, p.unsignedTx, n, us⟩ with
      | none => exact ⟨_, .done h1.2 hr ⟨t, i, u, us, h1, h2, e2, e⟩⟩
      | some e' => exact ⟨_, .refused hr ⟨t, i, u, us, h1, h2, e2, e⟩⟩
    · exact ⟨_, .unfunded hr e2⟩

theorem result_hasInput {p : Psbt L} {n : Nat} {mall : Bool} {r} (h : Result M p n mall r) : ∃ t i, HasInput p n t i := by
  cases h with
  | done _ h _ => exact scripts_hasInput h
  | fails h => exact scripts_hasInput h
  | unfunded h _ => exact scripts_hasInput h
  | refused h _ => exact scripts_hasInput h

/-- Two PSBTs that may differ in the inputs, but not in the UTXO fields of the inputs. -/
def Same (p q : Psbt L) : Prop :=
  q.unsignedTx = p.unsignedTx ∧
    q.inputs.map (fun i => (i.nonWitnessUtxo, i.witnessUtxo)) = p.inputs.map fun i => (i.nonWitnessUtxo, i.witnessUtxo)

theorem Same.refl (p : Psbt L) : Same p p := ⟨rfl, rfl⟩
theorem Same.symm {p q : Psbt L} (h : Same p q) : Same q p := ⟨h.1.symm, h.2.symm⟩
theorem Same.trans {p q r : Psbt L} (h : Same p q) (h' : Same q r) : Same p r := ⟨h'.1.trans h.1, h'.2.trans h.2⟩

theorem Same.length {p q : Psbt L} (h : Same p q) : q.inputs.length = p.inputs.length := by
  simpa using congrArg List.length h.2

theorem Same.hasInput {p q : Psbt L} (h : Same p q) {n : Nat} {t : TxIn} {i : Input L} (hi : HasInput p n t i) :
    ∃ j, HasInput q n t j ∧ j.nonWitnessUtxo = i.nonWitnessUtxo ∧ j.witnessUtxo = i.witnessUtxo := by
  have e := congrArg (·[n]?) h.2
  simp only [List.getElem?_map, hi.2, Option.map_some] at e
  cases hj : q.inputs[n]? with
  | none => rw [hj] at e; simp at e
  | some j =>
    rw [hj] at e
    simp only [Option.map_some, Option.some.injEq, Prod.mk.injEq] at e
    exact ⟨j, ⟨by rw [h.1]; exact hi.1, hj⟩, e⟩

theorem fundedBy_same {t : TxIn} {i j : Input L} {u : TxOut} (h1 : j.nonWitnessUtxo = i.nonWitnessUtxo)
    (h2 : j.witnessUtxo = i.witnessUtxo) (h : FundedBy t i u) : FundedBy t j u := by
  cases h with
  | witness h => exact .witness (by rw [h2, h])
  | nonWitness h h' h'' => exact .nonWitness (by rw [h2, h]) (by rw [h1, h']) h''

theorem Same.sound {p q : Psbt L} (h : Same p q) (hp : Sound p) : Sound q := by
  refine ⟨by rw [h.length, hp.1, h.1], fun k t i tx h1 h2 h3 h4 => ?_⟩
  obtain ⟨j, h5, h6, h7⟩ := h.symm.hasInput (n := k) (t := t) (i := i) ⟨h1, h2⟩
  exact hp.2 k t j tx h5.1 h5.2 (by rw [h7, h3]) (by rw [h6, h4])

theorem Same.funding {p q : Psbt L} (h : Same p q) {us : List TxOut} (hf : Funding p.unsignedTx.input p.inputs us) :
    Funding q.unsignedTx.input q.inputs us := by
  rw [funding_iff] at hf ⊢
  obtain ⟨h1, h2, h3⟩ := hf
  refine ⟨by rw [h.1]; exact h1, by rw [h.length]; exact h2, fun n u hu => ?_⟩
  obtain ⟨t, i, e1, e2, hf⟩ := h3 n u hu
  obtain ⟨j, h5, h6, h7⟩ := h.hasInput ⟨e1, e2⟩
  exact ⟨t, j, h5.1, h5.2, fundedBy_same h6 h7 hf⟩

theorem Same.verdict {p q : Psbt L} (h : Same p q) {n : Nat} {s : Bytes} {w : List Bytes} {r} (hv : Verdict M p n s w r) :
    Verdict M q n s w r := by
  obtain ⟨t, i, u, us, h1, h2, h3, h4⟩ := hv
  obtain ⟨j, h5, h6, h7⟩ := h.hasInput h1
  exact ⟨t, j, u, us, h5, fundedBy_same h6 h7 h2, h.funding h3, by rw [h.1]; exact h4⟩

theorem same_withInput {p : Psbt L} {n : Nat} {i j : Input L} (hi : p.inputs[n]? = some i) (h1 : j.nonWitnessUtxo = i.nonWitnessUtxo)
    (h2 : j.witnessUtxo = i.witnessUtxo) : Same p (withInput p n j) := by
  refine ⟨rfl, ?_⟩
  simp only [withInput, List.map_set, h1, h2]
  exact set_self (by rw [List.getElem?_map, hi]; rfl)

theorem result_same {p : Psbt L} {n : Nat} {mall : Bool} {j} (h : Result M p n mall (.ok j)) : Same p (withInput p n j) := by
  cases h with
  | done hi hs hv => exact same_withInput hi rfl rfl

theorem finalizeEach_spec {mall : Bool} (m : Nat) {p : Psbt L} (hp : Sound p) {k : Nat} (hk : k + m = p.inputs.length) :
    ∃ rs : List (Except (FinErr L) (Input L)), ∃ is, rs.length = m ∧ is = p.inputs.take k ++ List.zipWith chosen (p.inputs.drop k) rs ∧
      p.finalizeEach M mall (List.range' k m) = .ok ({ p with inputs := is }, errors rs) ∧
      Same p { p with inputs := is } ∧
      ∀ n r, rs[n]? = some r → Same p (withFirst p (k + n) is) ∧ Result M (withFirst p (k + n) is) (k + n) mall r := by
  induction m generalizing p k with
  | zero =>
    refine ⟨[], p.inputs, rfl, ?_, rfl, .refl _, by simp⟩
    rw [List.zipWith_nil_right, List.append_nil, List.take_of_length_le (by omega)]
  | succ m ih =>
    obtain ⟨t, i, hi⟩ := hasInput_of_lt hp (n := k) (by omega)
    have hkl : k < p.inputs.length := by omega
    have e0 : p.inputs.drop k = i :: p.inputs.drop (k + 1) := by
      obtain ⟨hl, e⟩ := List.getElem?_eq_some_iff.mp hi.2
      rw [List.drop_eq_getElem_cons hl, e]
    have e1 : p.inputs = p.inputs.take k ++ i :: p.inputs.drop (k + 1) := by rw [← e0, List.take_append_drop]
    obtain ⟨r, hr⟩ := result_total (M := M) hp hkl mall
    have he := result_sound hp hr
    rw [List.range'_succ, Psbt.finalizeEach]
    have hkt : (p.inputs.take k).length = k := by rw [List.length_take]; omega
    cases r with
    | ok j =>
      simp only at he
      have hsame := result_same hr
      obtain ⟨rs, is, h1, h2, h3, h4, h5⟩ := ih (p := withInput p k j) (hsame.sound hp) (k := k + 1) (by rw [hsame.length]; omega)
      have ew : (withInput p k j).inputs = p.inputs.take k ++ j :: p.inputs.drop (k + 1) := by
        show p.inputs.set k j = _
        rw [List.set_eq_take_append_cons_drop, if_pos hkl]
      have et : (withInput p k j).inputs.take (k + 1) = p.inputs.take k ++ [j] := by
        rw [ew, List.take_append, hkt, List.take_of_length_le (by rw [hkt]; omega)]
        simp
      have ed : ∀ n, (withInput p k j).inputs.drop (k + 1 + n) = p.inputs.drop (k + 1 + n) := by
        intro n
        rw [ew, List.drop_append, hkt, List.drop_eq_nil_of_le (by rw [hkt]; omega)]
        rw [show k + 1 + n - k = n + 1 by omega, List.drop_succ_cons, List.drop_drop, List.nil_append]
      have eis : is = p.inputs.take k ++ j :: List.zipWith chosen (p.inputs.drop (k + 1)) rs := by
        rw [h2, et]
        have := ed 0
        simp only [Nat.add_zero] at this
        rw [this]; simp
      refine ⟨.ok j :: rs, is, by simp [h1], ?_, ?_, hsame.trans h4, ?_⟩
      · rw [eis, e0]; rfl
      · rw [he]; exact h3
      · rintro (_ | n) r hn
        · simp only [List.getElem?_cons_zero, Option.some.injEq] at hn
          subst hn
          have : withFirst p (k + 0) is = p := by
            unfold withFirst
            have : is.take (k + 0) ++ p.inputs.drop (k + 0) = p.inputs := by
              simp only [Nat.add_zero]
              rw [eis, List.take_append_of_le_length (by omega), List.take_of_length_le (by omega), List.take_append_drop]
            rw [this]
          rw [this]
          exact ⟨.refl _, hr⟩
        · simp only [List.getElem?_cons_succ] at hn
          obtain ⟨h6, h7⟩ := h5 n r hn
          have : withFirst (withInput p k j) (k + 1 + n) is = withFirst p (k + (n + 1)) is := by
            unfold withFirst
            rw [ed n, show k + (n + 1) = k + 1 + n by omega]; rfl
          rw [this] at h6 h7
          rw [show k + 1 + n = k + (n + 1) by omega] at h7
          exact ⟨hsame.trans h6, h7⟩
    | error e =>
      simp only at he
      obtain ⟨rs, is, h1, h2, h3, h4, h5⟩ := ih hp (k := k + 1) (by omega)
      have et : p.inputs.take (k + 1) = p.inputs.take k ++ [i] := by
        rw [List.take_add_one, hi.2]; rfl
      have eis : is = p.inputs.take k ++ i :: List.zipWith chosen (p.inputs.drop (k + 1)) rs := by
        rw [h2, et]; simp
      refine ⟨.error e :: rs, is, by simp [h1], ?_, ?_, h4, ?_⟩
      · rw [eis, e0]; rfl
      · rw [he]
        simp only [h3, ok_bind]
        rfl
      · rintro (_ | n) r hn
        · simp only [List.getElem?_cons_zero, Option.some.injEq] at hn
          subst hn
          have : withFirst p (k + 0) is = p := by
            unfold withFirst
            have : is.take (k + 0) ++ p.inputs.drop (k + 0) = p.inputs := by
              simp only [Nat.add_zero]
              rw [eis, List.take_append_of_le_length (by omega), List.take_of_length_le (by omega), List.take_append_drop]
            rw [this]
          rw [this]
          exact ⟨.refl _, hr⟩
        · simp only [List.getElem?_cons_succ] at hn
          have := h5 n r hn
          rw [show k + 1 + n = k + (n + 1) by omega] at this
          exact this

theorem result_unique {p : Psbt L} (hp : Sound p) {n : Nat} {mall : Bool} {r r'} (h : Result M p n mall r) (h' : Result M p n mall r') :
    r = r' := by
  obtain ⟨t, i, hi⟩ := result_hasInput h
  have hl := (List.getElem?_eq_some_iff.mp hi.2).1
  have e := (result_sound hp h).symm.trans (result_sound hp h')
  cases r with
  | error e1 => cases r' with
    | error e2 => simpa using e
    | ok j' => simp at e
  | ok j => cases r' with
    | error e2 => simp at e
    | ok j' =>
      simp only [Except.ok.injEq] at e
      have e := congrArg (fun q => q.inputs[n]?) e
      simp only [withInput, List.getElem?_set_self hl, Option.some.injEq] at e
      rw [e]

theorem descriptorOf_congr {map map' : BMap (FixedBytes 20) L.pubkey.T} {sigs : List (L.pubkey.T × EcdsaSig L)} {spk : Bytes}
    {rs ws : Option Bytes} (h : ∀ ctx s ms, (ws = some s ∨ spk = s) → M.parse ctx s = some ms → M.substitute map ms = M.substitute map' ms) :
    descriptorOf M map sigs spk rs ws = descriptorOf M map' sigs spk rs ws := by
  have hb : ∀ ms, M.parse .bare spk = some ms → M.substitute map ms = M.substitute map' ms := fun ms => h _ _ ms (.inr rfl)
  have hw : ∀ w, ws = some w → ∀ ms, M.parse .segwitv0 w = some ms → M.substitute map ms = M.substitute map' ms :=
    fun w hw ms => h _ _ ms (.inl hw)
  unfold descriptorOf
  cases eb : M.parse .bare spk <;> cases ws with
  | none => first | rfl | simp only [hb _ eb]
  | some w =>
    cases ew : M.parse .segwitv0 w <;>
      first | simp only [ew, hb _ eb, hw _ rfl _ ew] | simp only [ew, hw _ rfl _ ew] | simp only [ew, hb _ eb] | simp only [ew]

theorem tapCandidate_congr {mall : Bool} {map map' : BMap (FixedBytes 20) L.xonly.T} {sat : Satisfier L} {cb : L.ctrl.T} {s : Bytes}
    {ver : LeafVersion} (h : ∀ ms, M.tapParse s = some ms → M.tapSubstitute map ms = M.tapSubstitute map' ms) :
    tapCandidate M mall map sat cb s ver = tapCandidate M mall map' sat cb s ver := by
  unfold tapCandidate
  cases hb : M.tapParse s with
  | none => rfl
  | some ms => simp only [h ms hb]

theorem tapLoop_congr {mall : Bool} {map map' : BMap (FixedBytes 20) L.xonly.T} {sat : Satisfier L}
    {l : List (L.ctrl.T × Bytes × LeafVersion)}
    (h : ∀ cb s ver ms, (cb, s, ver) ∈ l → M.tapParse s = some ms → M.tapSubstitute map ms = M.tapSubstitute map' ms)
    (best : Option (List Bytes × Nat)) : tapLoop M mall map sat l best = tapLoop M mall map' sat l best := by
  induction l generalizing best with
  | nil => rfl
  | cons x l ih =>
    obtain ⟨cb, s, ver⟩ := x
    have ih := fun b => ih (fun cb s ver ms hm => h cb s ver ms (List.mem_cons_of_mem _ hm)) b
    simp only [tapLoop, tapCandidate_congr (M := M) (mall := mall) (sat := sat) (cb := cb) (ver := ver)
      (fun ms => h cb s ver ms (List.mem_cons_self ..)), ih]

theorem mem_derivationKeys {p : Psbt L} {n : Nat} {i : Input L} (hi : p.inputs[n]? = some i) :
    ∀ k ∈ i.bip32Derivation.l.map Prod.fst, k ∈ Psbt.Spec.V0.derivationKeys p :=
  fun _ hk => List.mem_flatMap.mpr ⟨i, List.mem_of_getElem? hi, hk⟩
theorem mem_originKeys {p : Psbt L} {n : Nat} {i : Input L} (hi : p.inputs[n]? = some i) :
    ∀ k ∈ i.tapKeyOrigins.l.map Prod.fst, k ∈ originKeys p :=
  fun _ hk => List.mem_flatMap.mpr ⟨i, List.mem_of_getElem? hi, hk⟩

/-- A self-contained input is satisfied the same way whatever the other inputs list. -/
theorem scripts_self {p q : Psbt L} (h : Same p q) {n : Nat} (hc : SelfContained M p n) (hn : q.inputs[n]? = p.inputs[n]?)
    {mall : Bool} {r} (hs : Scripts M p n mall r) : Scripts M q n mall r := by
  have hi' : ∀ {t i}, HasInput p n t i → HasInput q n t i := fun hi => ⟨by rw [h.1]; exact hi.1, by rw [hn]; exact hi.2⟩
  have hsat : ∀ i, q.satisfier M n i = p.satisfier M n i := fun i => by unfold Psbt.satisfier; rw [h.1]
  have hd : ∀ {t i u r}, HasInput p n t i → FundedBy t i u →
      Descr M (hashMap M (Psbt.Spec.V0.derivationKeys p)) i.partialSigs.l u.scriptPubkey i.redeemScript i.witnessScript r →
      Descr M (hashMap M (Psbt.Spec.V0.derivationKeys q)) i.partialSigs.l u.scriptPubkey i.redeemScript i.witnessScript r := by
    intro t i u r hi hu hd
    rw [← descriptorOf_iff] at hd ⊢
    rw [← hd]
    refine descriptorOf_congr fun ctx s ms h1 h2 => ?_
    rw [(hc t i u hi hu).1 _ ctx s ms (mem_derivationKeys (hi' hi).2) h1 h2,
      (hc t i u hi hu).1 _ ctx s ms (mem_derivationKeys hi.2) h1 h2]
  have ht : ∀ {t i u r}, HasInput p n t i → FundedBy t i u → P2tr u.scriptPubkey →
      TapResult M mall (tapHashMap (originKeys p)) (p.satisfier M n i) r →
      TapResult M mall (tapHashMap (originKeys q)) (q.satisfier M n i) r := by
    intro t i u r hi hu htr hr
    rw [← constructTap_iff htr] at hr ⊢
    rw [← hr, hsat]
    unfold constructTapWitness
    have hl : ∀ (cb : L.ctrl.T) s ver ms, (cb, s, ver) ∈ (p.satisfier M n i).tapControlBlocks.l → M.tapParse s = some ms →
        M.tapSubstitute (tapHashMap (originKeys q)) ms = M.tapSubstitute (tapHashMap (originKeys p)) ms := fun cb s ver ms h1 h2 =>
      ((hc t i u hi hu).2 _ cb s ver ms (mem_originKeys (hi' hi).2) h1 h2).trans
        ((hc t i u hi hu).2 _ cb s ver ms (mem_originKeys hi.2) h1 h2).symm
    rw [tapLoop_congr hl]
  cases hs with
  | unfunded hi hu => exact .unfunded (hi' hi) hu
  | tap hi hu h1 h2 => exact .tap (hi' hi) hu h1 (ht hi hu h1 h2)
  | tapFails hi hu h1 h2 => exact .tapFails (hi' hi) hu h1 (ht hi hu h1 h2)
  | other hi hu h1 h2 h3 => exact .other (hi' hi) hu h1 (hd hi hu h2) (by rw [hsat]; exact h3)
  | otherFails hi hu h1 h2 => exact .otherFails (hi' hi) hu h1 (hd hi hu h2)
  | unsatisfied hi hu h1 h2 h3 => exact .unsatisfied (hi' hi) hu h1 (hd hi hu h2) (by rw [hsat]; exact h3)

theorem Same.unfunded {p q : Psbt L} (h : Same p q) (hp : Sound p) {k : Nat} (hk : FirstUnfunded p k) : FirstUnfunded q k := by
  obtain ⟨⟨i, h1, h2⟩, h3⟩ := hk
  obtain ⟨t, ht⟩ := hasInput_of_get hp h1
  obtain ⟨j, g1, g2, g3⟩ := h.hasInput ht
  refine ⟨⟨j, g1.2, by rw [Unfunded, g2, g3]; exact h2⟩, fun m i' hm hi' hu => ?_⟩
  obtain ⟨t', ht'⟩ := hasInput_of_get (h.sound hp) hi'
  obtain ⟨j', g1', g2', g3'⟩ := h.symm.hasInput ht'
  exact h3 m j' hm g1'.2 (by rw [Unfunded, g2', g3']; exact hu)

theorem result_self {p q : Psbt L} (hp : Sound p) (h : Same p q) {n : Nat} (hc : SelfContained M p n) (hn : q.inputs[n]? = p.inputs[n]?)
    {mall : Bool} {r} (hs : Result M p n mall r) : Result M q n mall r := by
  cases hs with
  | done hi h1 h2 => exact .done (by rw [hn]; exact hi) (scripts_self h hc hn h1) (h.verdict h2)
  | fails h1 => exact .fails (scripts_self h hc hn h1)
  | unfunded h1 h2 => exact .unfunded (scripts_self h hc hn h1) (h.unfunded hp h2)
  | refused h1 h2 => exact .refused (scripts_self h hc hn h1) (h.verdict h2)

/-- What `finalize_mut` does, in one statement. -/
theorem finalizeMut_spec {p : Psbt L} (hp : Sound p) (mall : Bool) :
    ∃ (rs : List (Except (FinErr L) (Input L))) (is : List (Input L)),
    p.finalizeMut M mall = .ok ({ p with inputs := is }, errors rs) ∧ rs.length = p.inputs.length ∧ is.length = p.inputs.length ∧
    ∀ (n : Nat) i, p.inputs[n]? = some i → ∃ r, rs[n]? = some r ∧ is[n]? = some (chosen i r) ∧
      Result M (withFirst p n is) n mall r ∧ Same p (withFirst p n is) ∧ (withFirst p n is).inputs[n]? = some i := by
  obtain ⟨rs, is, h1, h2, h3, h4, h5⟩ := finalizeEach_spec (M := M) (mall := mall) hp (k := 0) (m := p.inputs.length) (by omega)
  simp only [List.take_zero, List.drop_zero, List.nil_append] at h2
  have hz : is.length = p.inputs.length := by simp [h2, h1]
  refine ⟨rs, is, ?_, h1, hz, fun n i hi => ?_⟩
  · unfold Psbt.finalizeMut
    rw [List.range_eq_range']
    exact h3
  have hl := (List.getElem?_eq_some_iff.mp hi).1
  obtain ⟨r, hr⟩ : ∃ r, rs[n]? = some r := ⟨_, List.getElem?_eq_getElem (show n < rs.length by omega)⟩
  obtain ⟨hs, hres⟩ := h5 n _ hr
  rw [Nat.zero_add] at hs hres
  refine ⟨_, hr, by rw [h2, List.getElem?_zipWith, hi, hr], hres, hs, ?_⟩
  simp only [withFirst]
  rw [List.getElem?_append_right (by rw [List.length_take]; omega), List.length_take, List.getElem?_drop,
    show n + (n - min n is.length) = n by omega, hi]

theorem same_withFirst {p q : Psbt L} (h : Same p q) (n : Nat) : Same p (withFirst p n q.inputs) := by
  refine ⟨rfl, ?_⟩
  simp only [withFirst, List.map_append, List.map_take, List.map_drop, h.2, List.take_append_drop]

/-- What the loop that stops at the first error does. -/
theorem finalizeWhile_spec {mall : Bool} (m : Nat) {p : Psbt L} (hp : Sound p) {k : Nat} (hk : k + m = p.inputs.length) :
    ∃ c q r, p.finalizeWhile M mall (List.range' k m) = .ok (q, r) ∧ c ≤ m ∧ Same p q ∧ { q with inputs := p.inputs } = p ∧
      (∀ n : Nat, n < k ∨ k + c ≤ n → q.inputs[n]? = p.inputs[n]?) ∧
      (∀ (n : Nat) i, k ≤ n → n < k + c → p.inputs[n]? = some i →
        ∃ s w, q.inputs[n]? = some (onlyFinal i s w) ∧ Verdict M p n s w none ∧
          Result M (withFirst p n q.inputs) n mall (.ok (onlyFinal i s w))) ∧
      ((r = .ok () ∧ c = m) ∨ ∃ e, r = .error e ∧ c < m ∧ Result M q (k + c) mall (.error e)) := by
  induction m generalizing p k with
  | zero =>
    exact ⟨0, p, .ok (), rfl, Nat.le_refl _, .refl _, rfl, fun _ _ => rfl, fun n i h1 h2 => by omega, .inl ⟨rfl, rfl⟩⟩
  | succ m ih =>
    have hkl : k < p.inputs.length := by omega
    obtain ⟨r, hr⟩ := result_total (M := M) hp hkl mall
    have he := result_sound hp hr
    rw [List.range'_succ, Psbt.finalizeWhile]
    cases r with
    | error e =>
      simp only at he
      rw [he]
      exact ⟨0, p, .error e, rfl, by omega, .refl _, rfl, fun _ _ => rfl, fun n i h1 h2 => by omega, .inr ⟨e, rfl, by omega, hr⟩⟩
    | ok j =>
      simp only at he
      rw [he]
      have hsame := result_same hr
      obtain ⟨c, q, r, h1, h2, h3, h4, h5, h6, h7⟩ := ih (p := withInput p k j) (hsame.sound hp) (k := k + 1) (by rw [hsame.length]; omega)
      refine ⟨c + 1, q, r, h1, by omega, hsame.trans h3, ?_, fun n hn => ?_, fun n i hn1 hn2 hi => ?_, ?_⟩
      · have := congrArg (fun x : Psbt L => { x with inputs := p.inputs }) h4
        exact this
      · rw [h5 n (by omega)]
        simp only [withInput]
        rw [List.getElem?_set_ne (by omega)]
      · by_cases hnk : n = k
        · subst hnk
          cases hr with
          | done g1 g2 g3 =>
            cases hi.symm.trans g1
            have hq : withFirst p n q.inputs = p := by
              have : q.inputs.take n = p.inputs.take n := by
                apply List.ext_getElem?
                intro x
                by_cases hx : x < n
                · rw [List.getElem?_take_of_lt hx, List.getElem?_take_of_lt hx, h5 x (by omega)]
                  simp only [withInput]
                  rw [List.getElem?_set_ne (by omega)]
                · rw [List.getElem?_eq_none (by rw [List.length_take]; omega), List.getElem?_eq_none (by rw [List.length_take]; omega)]
              unfold withFirst
              rw [this, List.take_append_drop]
            refine ⟨_, _, ?_, g3, by rw [hq]; exact .done g1 g2 g3⟩
            rw [h5 n (by omega)]
            simp [withInput, List.getElem?_set_self hkl]
        · obtain ⟨s, w, g1, g2, g3⟩ := h6 n i (by omega) (by omega) (by
            simp only [withInput]
            rw [List.getElem?_set_ne (by omega)]; exact hi)
          have hq : withFirst (withInput p k j) n q.inputs = withFirst p n q.inputs := by
            simp only [withFirst, withInput]
            rw [List.drop_set_of_lt (by omega)]
          exact ⟨s, w, g1, hsame.symm.verdict g2, by rw [← hq]; exact g3⟩
      · rcases h7 with ⟨rfl, rfl⟩ | ⟨e, rfl, g1, g2⟩
        · exact .inl ⟨rfl, rfl⟩
        · exact .inr ⟨e, rfl, by omega, by rw [show k + (c + 1) = k + 1 + c by omega]; exact g2⟩

theorem errors_length {α : Type} {rs : List (Except (FinErr L) α)} (h : ∀ r ∈ rs, ∃ e, r = .error e) : (errors rs).length = rs.length := by
  induction rs with
  | nil => rfl
  | cons r rs ih =>
    obtain ⟨e, rfl⟩ := h r (List.mem_cons_self ..)
    simp only [errors, List.length_cons]
    rw [ih fun r hr => h r (List.mem_cons_of_mem _ hr)]

theorem errors_nil {α : Type} {rs : List (Except (FinErr L) α)} : errors rs = [] ↔ ∀ r ∈ rs, ∃ a, r = .ok a := by
  induction rs with
  | nil => simp [errors]
  | cons r rs ih => cases r <;> simp [errors, ih]

/-! ### Extraction -/

theorem sanitySigs_ok {n : Nat} {ty : EcdsaTy} {l : List (L.pubkey.T × EcdsaSig L)} :
    sanitySigs n ty l = .ok () ↔ ∀ x ∈ l, x.2.ty = ty := by
  induction l with
  | nil => simp [sanitySigs]
  | cons x l ih =>
    obtain ⟨k, s⟩ := x
    unfold sanitySigs
    by_cases h : ty = s.ty
    · rw [if_neg (by simp [h]), ih]
      simp [h]
    · rw [if_pos h]
      simp only [reduceCtorEq, List.mem_cons, forall_eq_or_imp, false_iff, not_and]
      exact fun h' => absurd h'.symm h

theorem sanityFrom_ok {n : Nat} {is : List (Input L)} : sanityFrom n is = .ok () ↔
    ∀ i ∈ is, ∃ ty, DeclaredType i ty ∧ ∀ pk sig, i.partialSigs.get pk = some sig → sig.ty = ty := by
  induction is generalizing n with
  | nil => simp [sanityFrom]
  | cons i is ih =>
    unfold sanityFrom
    simp only [List.mem_cons, forall_eq_or_imp]
    cases ht : i.ecdsaHashTy with
    | none =>
      simp only [reduceCtorEq, false_iff, not_and]
      rintro ⟨ty, h, -⟩
      rw [← inputHashTy_iff, ht] at h
      cases h
    | some ty =>
      have hq : (∀ x ∈ i.partialSigs.l, x.2.ty = ty) ↔
          ∃ ty, DeclaredType i ty ∧ ∀ pk sig, i.partialSigs.get pk = some sig → sig.ty = ty := by
        constructor
        · exact fun h => ⟨ty, inputHashTy_iff.mp ht, fun pk sig hg => h (pk, sig) (BMap.mem_iff_get.mpr hg)⟩
        · rintro ⟨ty', h1, h2⟩ ⟨pk, sig⟩ hm
          rw [← inputHashTy_iff, ht] at h1
          cases h1
          exact h2 pk sig (BMap.mem_iff_get.mp hm)
      rw [← hq, ← sanitySigs_ok (n := n), ← ih (n := n + 1)]
      simp only
      cases e : sanitySigs n ty i.partialSigs.l with
      | error e => simp
      | ok _ => simp

theorem sanityCheck_ok {p : Psbt L} : p.sanityCheck = .ok () ↔ p.inputs.length = p.unsignedTx.input.length ∧ SigTypes p := by
  unfold Psbt.sanityCheck SigTypes
  by_cases h : p.unsignedTx.input.length = p.inputs.length
  · rw [if_neg (by simp [h]), sanityFrom_ok]
    exact ⟨fun h' => ⟨h.symm, h'⟩, fun h' => h'.2⟩
  · rw [if_pos h]
    simp only [reduceCtorEq, false_iff, not_and]
    exact fun h' => absurd h'.symm h

theorem extractFrom_ok {n : Nat} {ts : List TxIn} {is : List (Input L)} (hl : is.length = ts.length) {r : List TxIn} :
    extractFrom n ts is = .ok r ↔ (∀ i ∈ is, i.finalScriptSig ≠ none ∨ i.finalScriptWitness ≠ none) ∧ r.length = ts.length ∧
      ∀ (k : Nat) t i s, ts[k]? = some t → is[k]? = some i → r[k]? = some s → FilledIn t i s := by
  induction is generalizing n ts r with
  | nil =>
    cases ts with
    | cons _ _ => simp at hl
    | nil => cases r <;> simp [extractFrom]
  | cons i is ih =>
    cases ts with
    | nil => simp at hl
    | cons t ts =>
      unfold extractFrom
      by_cases hf : i.finalScriptSig ≠ none ∨ i.finalScriptWitness ≠ none
      · rw [if_neg (by cases h1 : i.finalScriptSig <;> cases h2 : i.finalScriptWitness <;> simp_all)]
        simp only [bind_ok]
        constructor
        · rintro ⟨ts', h1, h2⟩
          cases h2
          obtain ⟨h3, h4, h5⟩ := (ih (by simpa using hl)).mp h1
          refine ⟨by simp only [List.mem_cons, forall_eq_or_imp]; exact ⟨hf, h3⟩, by simp [h4], ?_⟩
          rintro (_ | k) t' i' s' e1 e2 e3
          · simp only [List.getElem?_cons_zero, Option.some.injEq] at e1 e2 e3
            subst e1; subst e2; subst e3
            refine ⟨rfl, rfl, ?_, ?_⟩
            · cases h : i.finalScriptSig <;> simp
            · cases h : i.finalScriptWitness <;> simp
          · simp only [List.getElem?_cons_succ] at e1 e2 e3
            exact h5 k t' i' s' e1 e2 e3
        · rintro ⟨h3, h4, h5⟩
          cases r with
          | nil => simp at h4
          | cons s r =>
            refine ⟨r, (ih (by simpa using hl)).mpr ⟨fun j hj => h3 j (List.mem_cons_of_mem _ hj), by simpa using h4,
              fun k t' i' s' e1 e2 e3 => h5 (k + 1) t' i' s' (by simpa using e1) (by simpa using e2) (by simpa using e3)⟩, ?_⟩
            have := h5 0 t i s rfl rfl rfl
            obtain ⟨g1, g2, g3, g4⟩ := this
            obtain ⟨s1, s2, s3, s4⟩ := s
            simp only at g1 g2 g3 g4
            subst g1; subst g2
            congr 2
            have e3 : (match i.finalScriptSig with | some s => s | none => t.scriptSig) = s2 := by
              rcases g3 with g | ⟨g, g'⟩
              · rw [g]
              · rw [g]; exact g'.symm
            have e4 : (match i.finalScriptWitness with | some s => s | none => t.witness) = s4 := by
              rcases g4 with g | ⟨g, g'⟩
              · rw [g]
              · rw [g]; exact g'.symm
            cases e3; cases e4; rfl
      · have h1 : i.finalScriptSig = none := by cases h : i.finalScriptSig <;> simp_all
        have h2 : i.finalScriptWitness = none := by cases h : i.finalScriptWitness <;> simp_all
        rw [if_pos (by simp [h1, h2])]
        simp only [reduceCtorEq, false_iff]
        rintro ⟨h, -⟩
        exact hf (h i (List.mem_cons_self ..))

theorem extractFrom_total {n : Nat} {ts : List TxIn} {is : List (Input L)} (hl : is.length = ts.length)
    (h : ∀ i ∈ is, i.finalScriptSig ≠ none ∨ i.finalScriptWitness ≠ none) : ∃ r, extractFrom n ts is = .ok r := by
  induction is generalizing n ts with
  | nil => exact ⟨ts, by cases ts <;> rfl⟩
  | cons i is ih =>
    cases ts with
    | nil => simp at hl
    | cons t ts =>
      obtain ⟨r, hr⟩ := ih (n := n + 1) (ts := ts) (by simpa using hl) fun j hj => h j (List.mem_cons_of_mem _ hj)
      have hi := h i (List.mem_cons_self ..)
      unfold extractFrom
      rw [if_neg (by cases h1 : i.finalScriptSig <;> cases h2 : i.finalScriptWitness <;> simp_all)]
      simp only [hr, ok_bind]
      exact ⟨_, rfl⟩

theorem extractFrom_fill {n : Nat} {ts : List TxIn} {is : List (Input L)} {r : List TxIn} (h : extractFrom n ts is = .ok r)
    (hu : ∀ t ∈ ts, t.scriptSig = [] ∧ t.witness = []) : r = fillInputs ts is := by
  induction is generalizing n ts r with
  | nil => cases ts <;> (cases h; rfl)
  | cons i is ih =>
    unfold extractFrom at h
    split at h
    · cases h
    · split at h
      · cases h
      · rename_i t ts
        rw [bind_ok] at h
        obtain ⟨ts', h1, h2⟩ := h
        cases h2
        rw [ih h1 fun t ht => hu t (List.mem_cons_of_mem _ ht), fillInputs]
        have := hu t (List.mem_cons_self ..)
        congr 2
        · cases i.finalScriptSig <;> simp [this]
        · cases i.finalScriptWitness <;> simp [this]

theorem extractFrom_error {n : Nat} {ts : List TxIn} {is : List (Input L)} (hl : is.length = ts.length) {e : Fail (FinErr L)}
    (h : extractFrom n ts is = .error e) :
    ∃ k i, is[k]? = some i ∧ i.finalScriptSig = none ∧ i.finalScriptWitness = none ∧ e = .err (.missingWitness (n + k)) := by
  induction is generalizing n ts with
  | nil => cases ts <;> cases h
  | cons i is ih =>
    cases ts with
    | nil => simp at hl
    | cons t ts =>
      unfold extractFrom at h
      split at h
      · rename_i hc
        cases h
        simp only [Bool.and_eq_true, Option.isNone_iff_eq_none] at hc
        exact ⟨0, i, rfl, hc.1, hc.2, rfl⟩
      · simp only at h
        cases he : extractFrom (n + 1) ts is with
        | ok r => rw [he] at h; cases h
        | error e' =>
          rw [he] at h
          cases h
          obtain ⟨k, j, h1, h2, h3, h4⟩ := ih (by simpa using hl) he
          exact ⟨k + 1, j, by simpa using h1, h2, h3, by rw [h4]; congr 2; omega⟩

theorem sanitySigs_error {n : Nat} {ty : EcdsaTy} {l : List (L.pubkey.T × EcdsaSig L)} {e : FinErr L}
    (h : sanitySigs n ty l = .error e) : ∃ t key, e = .input (.wrongSighashFlag ty t key) n := by
  induction l with
  | nil => cases h
  | cons x l ih =>
    unfold sanitySigs at h
    split at h
    · cases h; exact ⟨_, _, rfl⟩
    · exact ih h

theorem sanityFrom_error {n : Nat} {is : List (Input L)} {e : FinErr L} (h : sanityFrom n is = .error e) :
    (∃ k, e = .input .nonStandardSighashType k) ∨ ∃ ty t key k, e = .input (.wrongSighashFlag ty t key) k := by
  induction is generalizing n with
  | nil => cases h
  | cons i is ih =>
    unfold sanityFrom at h
    split at h
    · cases h; exact .inl ⟨_, rfl⟩
    · split at h
      · rename_i he
        cases h
        obtain ⟨t, key, rfl⟩ := sanitySigs_error he
        exact .inr ⟨_, _, _, _, rfl⟩
      · exact ih h

theorem interpFrom_error {p : Psbt L} {us : List TxOut} (hf : Funding p.unsignedTx.input p.inputs us) {n : Nat} {is : List (Input L)}
    (h : p.inputs.drop n = is) {e : Fail (FinErr L)} (he : p.interpFrom M us n is = .error e) :
    ∃ k i e', p.inputs[k]? = some i ∧ e = .err (.input (.interpreter e') k) ∧
      Verdict M p k (i.finalScriptSig.getD []) (i.finalScriptWitness.getD []) (some e') := by
  induction is generalizing n with
  | nil => cases he
  | cons i is ih =>
    have hi : p.inputs[n]? = some i := by
      have := congrArg (·[0]?) h
      simpa using this
    have hd : p.inputs.drop (n + 1) = is := by
      have := congrArg (List.drop 1) h
      simpa [List.drop_drop, Nat.add_comm] using this
    obtain ⟨t, u, h1, h2⟩ := funding_funded hf hi
    unfold Psbt.interpFrom at he
    rw [interpInpCheck_eq h1 h2] at he
    cases e1 : M.interp ⟨u.scriptPubkey, i.finalScriptSig.getD [], i.finalScriptWitness.getD [], t.sequence, p.unsignedTx.lockTime,
        p.unsignedTx, n, us⟩ with
    | some e' =>
      rw [e1] at he
      cases he
      exact ⟨n, i, e', hi, rfl, t, i, u, us, h1, h2, hf, e1⟩
    | none =>
      simp only [e1, ok_bind] at he
      exact ih hd he

theorem prevoutsFrom_funded {p : Psbt L} {ns : List Nat} {us : List TxOut} (h : p.prevoutsFrom ns = .ok us) :
    ∀ n ∈ ns, ∃ u, p.getUtxo n = .ok u := by
  induction ns generalizing us with
  | nil => simp
  | cons n ns ih =>
    rw [Psbt.prevoutsFrom, bind_ok] at h
    obtain ⟨u, h1, h2⟩ := h
    rw [bind_ok] at h2
    obtain ⟨us', h2, -⟩ := h2
    intro m hm
    rcases List.mem_cons.mp hm with rfl | hm
    · cases e : p.getUtxo m with
      | ok u => exact ⟨u, rfl⟩
      | error e' => rw [e] at h1; cases e' <;> simp [atIndex] at h1
    · exact ih h2 m hm

theorem sound_of_prevouts {p : Psbt L} (hl : p.inputs.length = p.unsignedTx.input.length) {us : List TxOut} (h : p.prevouts = .ok us) :
    Sound p := by
  refine ⟨hl, indicesInRange_iff.mpr fun n t i hi => ?_⟩
  obtain ⟨u, hu⟩ := prevoutsFrom_funded h n (List.mem_range.mpr (List.getElem?_eq_some_iff.mp hi.2).1)
  rintro ⟨tx, h1, h2, h3⟩
  rw [getUtxo_eq hi] at hu
  unfold fundingUtxo at hu
  simp [h1, h2, h3] at hu

theorem sound_of_funding {p : Psbt L} {us : List TxOut} (h : Funding p.unsignedTx.input p.inputs us) : Sound p := by
  obtain ⟨h1, h2, h3⟩ := funding_iff.mp h
  refine ⟨by omega, indicesInRange_iff.mpr fun n t i hi => ?_⟩
  obtain ⟨t', u, g1, g2⟩ := funding_funded h hi.2
  cases hi.1.symm.trans g1.1
  rintro ⟨tx, e1, e2, e3⟩
  cases g2 <;> simp_all

theorem interpFrom_ok {p : Psbt L} {us : List TxOut} (hf : Funding p.unsignedTx.input p.inputs us) {n : Nat} {is : List (Input L)}
    (h : p.inputs.drop n = is) : p.interpFrom M us n is = .ok () ↔
      ∀ k i, n ≤ k → p.inputs[k]? = some i → Verdict M p k (i.finalScriptSig.getD []) (i.finalScriptWitness.getD []) none := by
  induction is generalizing n with
  | nil =>
    simp only [Psbt.interpFrom, true_iff]
    intro k i hk hi
    have := (List.getElem?_eq_some_iff.mp hi).1
    have := List.drop_eq_nil_iff.mp h
    omega
  | cons i is ih =>
    have hi : p.inputs[n]? = some i := by
      have := congrArg (·[0]?) h
      simpa using this
    have hd : p.inputs.drop (n + 1) = is := by
      have := congrArg (List.drop 1) h
      simpa [List.drop_drop, Nat.add_comm] using this
    obtain ⟨t, u, h1, h2⟩ := funding_funded hf hi
    unfold Psbt.interpFrom
    rw [interpInpCheck_eq h1 h2]
    cases e : M.interp ⟨u.scriptPubkey, i.finalScriptSig.getD [], i.finalScriptWitness.getD [], t.sequence, p.unsignedTx.lockTime,
        p.unsignedTx, n, us⟩ with
    | some e' =>
      constructor
      · intro h'; cases h'
      · intro h'
        obtain ⟨t', i', u', us', g1, g2, g3, g4⟩ := h' n i (Nat.le_refl _) hi
        obtain ⟨rfl, rfl⟩ := hasInput_unique h1 g1
        rw [← fundedBy_unique h2 g2, ← funding_unique hf g3, e] at g4
        cases g4
    | none =>
      simp only [ok_bind]
      rw [ih hd]
      constructor
      · intro h' k j hk hj
        rcases Nat.lt_or_ge n k with hc | hc
        · exact h' k j hc hj
        · have : k = n := by omega
          subst this
          cases hi.symm.trans hj
          exact ⟨t, i, u, us, h1, h2, hf, e⟩
      · exact fun h' k j hk hj => h' k j (by omega) hj

theorem interpreterCheck_ok {p : Psbt L} (hl : p.inputs.length = p.unsignedTx.input.length) : p.interpreterCheck M = .ok () ↔
    ∀ (n : Nat) i, p.inputs[n]? = some i → Verdict M p n (i.finalScriptSig.getD []) (i.finalScriptWitness.getD []) none := by
  unfold Psbt.interpreterCheck
  rw [bind_ok]
  constructor
  · rintro ⟨us, h1, h2⟩
    have hp := sound_of_prevouts hl h1
    rcases prevouts_cases hp with ⟨us', e1, e2⟩ | ⟨k, e1, -⟩
    · rw [h1] at e1
      cases e1
      exact fun n i hi => (interpFrom_ok e2 (n := 0) (by simp)).mp h2 n i (Nat.zero_le _) hi
    · rw [h1] at e1; cases e1
  · intro h
    have hf : ∃ us, Funding p.unsignedTx.input p.inputs us := by
      cases hi : p.inputs with
      | nil =>
        rw [hi] at hl
        rw [List.eq_nil_of_length_eq_zero hl.symm]
        exact ⟨[], .nil⟩
      | cons i is =>
        obtain ⟨t, i, u, us, -, -, h', -⟩ := h 0 i (by rw [hi]; rfl)
        rw [← hi]; exact ⟨us, h'⟩
    obtain ⟨us, hf⟩ := hf
    have hp := sound_of_funding hf
    rcases prevouts_cases hp with ⟨us', e1, e2⟩ | ⟨k, e1, e2⟩
    · refine ⟨us', e1, (interpFrom_ok e2 (n := 0) (by simp)).mpr fun k i _ hi => h k i hi⟩
    · exact (firstUnfunded_funding e2 hf).elim

theorem extract_ok {p : Psbt L} {tx : Tx} : p.extract M = .ok tx ↔ p.inputs.length = p.unsignedTx.input.length ∧ SigTypes p ∧ AllFinal p ∧
    (∀ (n : Nat) i, p.inputs[n]? = some i → Verdict M p n (i.finalScriptSig.getD []) (i.finalScriptWitness.getD []) none) ∧
    tx.version = p.unsignedTx.version ∧ tx.lockTime = p.unsignedTx.lockTime ∧ tx.output = p.unsignedTx.output ∧
    tx.input.length = p.unsignedTx.input.length ∧
    ∀ (n : Nat) t i s, HasInput p n t i → tx.input[n]? = some s → FilledIn t i s := by
  unfold Psbt.extract
  rw [bind_ok]
  constructor
  · rintro ⟨⟨⟩, h1, h2⟩
    have hs : p.sanityCheck = .ok () := by
      cases e : p.sanityCheck with
      | ok _ => rfl
      | error e' => rw [e] at h1; cases h1
    obtain ⟨hl, hs⟩ := sanityCheck_ok.mp hs
    rw [bind_ok] at h2
    obtain ⟨ins, h3, h4⟩ := h2
    rw [bind_ok] at h4
    obtain ⟨⟨⟩, h5, h6⟩ := h4
    cases h6
    obtain ⟨g1, g2, g3⟩ := (extractFrom_ok hl).mp h3
    exact ⟨hl, hs, g1, (interpreterCheck_ok hl).mp h5, rfl, rfl, rfl, g2, fun n t i s hi hs => g3 n t i s hi.1 hi.2 hs⟩
  · rintro ⟨hl, hs, hf, hv, e1, e2, e3, e4, e5⟩
    refine ⟨(), by rw [sanityCheck_ok.mpr ⟨hl, hs⟩]; rfl, ?_⟩
    rw [bind_ok]
    refine ⟨tx.input, (extractFrom_ok hl).mpr ⟨hf, e4, fun k t i s h1 h2 h3 => e5 k t i s ⟨h1, h2⟩ h3⟩, ?_⟩
    rw [(interpreterCheck_ok hl).mpr hv]
    simp only [ok_bind]
    obtain ⟨a, b, c, d⟩ := tx
    simp only at e1 e2 e3
    subst e1; subst e2; subst e3
    rfl

end Psbt.V0
