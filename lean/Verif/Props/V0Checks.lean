/- C52: the checks before signing a PSBT v0. -/
import Verif.Props.V0Sign
import Verif.Spec.V0Checks
namespace Psbt.V0
open Psbt

variable {L : Lib}

theorem unit_bind_ok {ε : Type} {a b : Out ε Unit} : (do a; b) = .ok () ↔ a = .ok () ∧ b = .ok () := by
  cases a with
  | ok u => cases u; simp [ok_bind]
  | error e => simp [bind, Except.bind]

theorem unit_bind_error {ε : Type} {a b : Out ε Unit} {e : Fail ε} : (do a; b) = .error e ↔ a = .error e ∨ (a = .ok () ∧ b = .error e) := by
  cases a with
  | ok u => cases u; simp [ok_bind]
  | error f => simp [bind, Except.bind]

theorem witness_funds {t : TxIn} {i : Input L} {u : TxOut} (h : i.witnessUtxo = some u) : Spec.V0.FundedBy t i u := .witness h

/-- With a witness UTXO looking up the type of spend does not panic. -/
theorem outputType_witness_no_panic {p : Psbt L} {n : Nat} {i : Input L} {s : String} (hi : p.inputs[n]? = some i)
    (h : i.witnessUtxo.isSome) : p.outputType n ≠ .error (.panic s) := by
  intro e
  obtain ⟨-, t, j, h1, tx, h2, -⟩ := outputType_panic.mp e
  have := h1.2
  rw [hi] at this
  cases this
  rw [h2] at h
  cases h

theorem checkSpend_ok {p : Psbt L} {n : Nat} {i : Input L} (hi : p.inputs[n]? = some i) :
    p.checkSpend n i = .ok () ↔ ∀ t u, Spec.V0.HasInput p n t i → i.witnessUtxo = some u → ¬ Spec.SpendType u.scriptPubkey i.redeemScript .bare := by
  unfold Psbt.checkSpend
  constructor
  · intro h t u h1 h2 h3
    rw [if_pos (by rw [h2]; rfl), (outputType_iff p n .bare).mpr ⟨t, i, u, h1, witness_funds h2, h3⟩] at h
    cases h
  · intro h
    split
    · rename_i hw
      split
      · rename_i e
        obtain ⟨t, j, u, h1, h2, h3⟩ := (outputType_iff p n .bare).mp e
        have := h1.2
        rw [hi] at this
        cases this
        obtain ⟨v, hv⟩ := Option.isSome_iff_exists.mp hw
        rw [fundedBy_unique h2 (witness_funds hv)] at h3
        exact absurd h3 (h t v h1 hv)
      · rename_i s e
        exact absurd e (outputType_witness_no_panic hi hw)
      · rfl
    · rfl

theorem checkSpend_error {p : Psbt L} {n : Nat} {i : Input L} {e : Fail ChecksErr} (hi : p.inputs[n]? = some i)
    (h : p.checkSpend n i = .error e) : ∃ c, e = .err c ∧ Spec.V0.Refused p n i c := by
  unfold Psbt.checkSpend at h
  split at h
  · rename_i hw
    split at h
    · rename_i eo
      cases h
      obtain ⟨t, j, u, h1, h2, h3⟩ := (outputType_iff p n .bare).mp eo
      have := h1.2
      rw [hi] at this
      cases this
      obtain ⟨v, hv⟩ := Option.isSome_iff_exists.mp hw
      rw [fundedBy_unique h2 (witness_funds hv)] at h3
      exact ⟨_, rfl, .nonWitnessSig h1 hv h3⟩
    · rename_i s e
      exact absurd e (outputType_witness_no_panic hi hw)
    · cases h
  · cases h

theorem checkTxid_ok {p : Psbt L} {n : Nat} {i : Input L} (hi : p.inputs[n]? = some i) :
    p.checkTxid n i = .ok () ↔ (i.nonWitnessUtxo ≠ none → ∃ t, Spec.V0.HasInput p n t i ∧ Spec.V0.UtxoMatches t i) := by
  unfold Psbt.checkTxid Spec.V0.UtxoMatches
  rw [V2.txid_fun]
  cases h : i.nonWitnessUtxo with
  | none => simp
  | some tx =>
    simp only [ne_eq, reduceCtorEq, not_false_eq_true, forall_const, Option.some.injEq, forall_eq']
    cases ht : p.unsignedTx.input[n]? with
    | none =>
      simp only [reduceCtorEq, false_iff]
      rintro ⟨t, h1, -⟩
      have := h1.1
      rw [ht] at this
      cases this
    | some t =>
      simp only
      constructor
      · intro h2
        split at h2
        · cases h2
        · rename_i h3
          exact ⟨t, ⟨ht, hi⟩, Classical.not_not.mp h3⟩
      · rintro ⟨t', ⟨h1, -⟩, h2⟩
        rw [ht] at h1
        cases h1
        rw [if_neg (fun hne => hne h2)]

theorem checkTxid_error {p : Psbt L} {n : Nat} {i : Input L} {e : Fail ChecksErr} (hi : p.inputs[n]? = some i)
    (h : p.checkTxid n i = .error e) :
    (∃ c, e = .err c ∧ Spec.V0.Refused p n i c) ∨
    (e = .panic "index out of bounds" ∧ i.nonWitnessUtxo ≠ none ∧ p.unsignedTx.input.length ≤ n) := by
  unfold Psbt.checkTxid at h
  cases h1 : i.nonWitnessUtxo with
  | none => rw [h1] at h; cases h
  | some tx =>
    simp only [h1] at h
    cases ht : p.unsignedTx.input[n]? with
    | none =>
      rw [ht] at h
      cases h
      exact .inr ⟨rfl, by simp, List.getElem?_eq_none_iff.mp ht⟩
    | some t =>
      simp only [ht] at h
      split at h
      · rename_i hne
        cases h
        exact .inl ⟨_, rfl, .txid ⟨ht, hi⟩ h1 (V2.txid_fun ▸ hne)⟩
      · cases h

theorem checkRedeem_ok {i : Input L} :
    checkRedeem i = .ok () ↔ ∀ r, i.redeemScript = some r → ∃ u, i.witnessUtxo = some u ∧ Spec.V0.P2shFor L u.scriptPubkey r := by
  unfold checkRedeem Spec.V0.P2shFor
  cases h1 : i.redeemScript with
  | none => simp
  | some r =>
    simp only [Option.some.injEq, forall_eq']
    cases h2 : i.witnessUtxo with
    | none => simp
    | some u =>
      simp only [Option.some.injEq, exists_eq_left']
      by_cases h : u.scriptPubkey = newP2sh L r
      · rw [if_neg (fun hne => hne h)]
        exact ⟨fun _ => h, fun _ => rfl⟩
      · rw [if_pos h]
        exact ⟨fun h' => (by cases h'), fun h' => absurd h' h⟩

theorem checkRedeem_error {p : Psbt L} {n : Nat} {i : Input L} {e : Fail ChecksErr} (h : checkRedeem i = .error e) :
    ∃ c, e = .err c ∧ Spec.V0.Refused p n i c := by
  unfold checkRedeem at h
  split at h
  · rename_i r h1
    split at h
    · rename_i u h2
      split at h
      · rename_i h3; cases h; exact ⟨_, rfl, .redeem h2 h1 h3⟩
      · cases h
    · rename_i h2; cases h; exact ⟨_, rfl, .missing h2 (.inl (by rw [h1]; simp))⟩
  · cases h

theorem p2sh_ne_p2wsh {s w : Bytes} (h : Spec.P2sh s) : newP2wsh L w ≠ s := by
  intro e
  obtain ⟨x, rfl⟩ := h
  have := congrArg List.length e
  simp [newP2wsh, (L.sha256 w).2, x.2] at this

theorem checkWitnessScript_ok {i : Input L} :
    checkWitnessScript i = .ok () ↔ ∀ w, i.witnessScript = some w → ∃ u, i.witnessUtxo = some u ∧
      (Spec.P2wsh u.scriptPubkey → Spec.V0.P2wshFor L u.scriptPubkey w) ∧ (Spec.P2sh u.scriptPubkey → i.redeemScript = none) := by
  unfold checkWitnessScript Spec.V0.P2wshFor
  cases h1 : i.witnessScript with
  | none => simp
  | some w =>
    simp only [Option.some.injEq, forall_eq']
    cases h2 : i.witnessUtxo with
    | none => simp
    | some u =>
      simp only [Option.some.injEq, exists_eq_left', ← isP2wsh_iff, ← isP2sh_iff]
      by_cases ha : isP2wsh u.scriptPubkey = true
      · have hb : isP2sh u.scriptPubkey = false := by
          rw [← Bool.not_eq_true, isP2sh_iff]
          exact fun h => h.not_witness (isP2wsh_iff.mp ha).witness
        simp only [ha, hb, if_true, forall_const, Bool.false_eq_true, false_implies, and_true]
        by_cases h : newP2wsh L w = u.scriptPubkey
        · simp only [h, ne_eq, not_true_eq_false, if_false, true_iff]
          exact h.symm
        · simp only [ne_eq, h, not_false_eq_true, if_true, reduceCtorEq, false_iff]
          exact fun h' => h h'.symm
      · simp only [ha, Bool.false_eq_true, if_false, false_implies, true_and]
        by_cases hb : isP2sh u.scriptPubkey = true
        · simp only [hb, if_true, forall_const]
          cases i.redeemScript with
          | none => simp
          | some r => simp [p2sh_ne_p2wsh (L := L) (isP2sh_iff.mp hb)]
        · simp [hb]

theorem checkWitnessScript_error {p : Psbt L} {n : Nat} {i : Input L} {e : Fail ChecksErr} (h : checkWitnessScript i = .error e) :
    ∃ c, e = .err c ∧ Spec.V0.Refused p n i c := by
  unfold checkWitnessScript at h
  split at h
  · rename_i w h1
    split at h
    · rename_i u h2
      split at h
      · rename_i h3
        split at h
        · rename_i h4; cases h; exact ⟨_, rfl, .wsh h2 h1 (isP2wsh_iff.mp h3) (fun h => h4 h.symm)⟩
        · cases h
      · split at h
        · rename_i h3
          split at h
          · rename_i r h4
            split at h
            · cases h; exact ⟨_, rfl, .shWsh h2 h1 h4 (isP2sh_iff.mp h3)⟩
            · cases h
          · cases h
        · cases h
    · rename_i h2; cases h; exact ⟨_, rfl, .missing h2 (.inr (by rw [h1]; simp))⟩
  · cases h

theorem checkFrom_ok {p : Psbt L} {n : Nat} {is : List (Input L)} :
    p.checkFrom n is = .ok () ↔ ∀ k i, is[k]? = some i → p.checkInput (n + k) i = .ok () := by
  induction is generalizing n with
  | nil => simp [Psbt.checkFrom]
  | cons a is ih =>
    unfold Psbt.checkFrom
    rw [unit_bind_ok, ih]
    constructor
    · rintro ⟨h1, h2⟩ k i hk
      cases k with
      | zero => cases hk; exact h1
      | succ k => rw [← Nat.add_assoc, Nat.add_right_comm]; exact h2 k i hk
    · intro h
      refine ⟨h 0 a rfl, fun k i hk => ?_⟩
      have := h (k + 1) i hk
      rw [← Nat.add_assoc, Nat.add_right_comm] at this
      exact this

theorem checkFrom_error {p : Psbt L} {n : Nat} {is : List (Input L)} {e : Fail ChecksErr} (h : p.checkFrom n is = .error e) :
    ∃ k i, is[k]? = some i ∧ p.checkInput (n + k) i = .error e ∧ ∀ j b, j < k → is[j]? = some b → p.checkInput (n + j) b = .ok () := by
  induction is generalizing n with
  | nil => cases h
  | cons a is ih =>
    unfold Psbt.checkFrom at h
    rcases unit_bind_error.mp h with h | ⟨h1, h⟩
    · exact ⟨0, a, rfl, h, fun j b hj => absurd hj (Nat.not_lt_zero _)⟩
    · obtain ⟨k, i, h2, h3, h4⟩ := ih h
      refine ⟨k + 1, i, h2, by rw [← Nat.add_assoc, Nat.add_right_comm]; exact h3, ?_⟩
      intro j b hj hb
      cases j with
      | zero => cases hb; exact h1
      | succ j =>
        have := h4 j b (by omega) hb
        rw [← Nat.add_assoc, Nat.add_right_comm]
        exact this

theorem checkInput_ok {p : Psbt L} {n : Nat} {i : Input L} (hi : p.inputs[n]? = some i) :
    p.checkInput n i = .ok () ↔ Spec.V0.Passes p n i := by
  unfold Psbt.checkInput Spec.V0.Passes
  rw [unit_bind_ok, unit_bind_ok, unit_bind_ok, checkSpend_ok hi, checkTxid_ok hi, checkRedeem_ok, checkWitnessScript_ok]

theorem checkInput_error {p : Psbt L} {n : Nat} {i : Input L} {e : Fail ChecksErr} (hi : p.inputs[n]? = some i)
    (h : p.checkInput n i = .error e) : (∃ c, e = .err c ∧ Spec.V0.Refused p n i c) ∨
    (e = .panic "index out of bounds" ∧ i.nonWitnessUtxo ≠ none ∧ p.unsignedTx.input.length ≤ n) := by
  unfold Psbt.checkInput at h
  rcases unit_bind_error.mp h with h | ⟨-, h⟩
  · exact .inl (checkSpend_error hi h)
  rcases unit_bind_error.mp h with h | ⟨-, h⟩
  · exact checkTxid_error hi h
  rcases unit_bind_error.mp h with h | ⟨-, h⟩
  · exact .inl (checkRedeem_error h)
  · exact .inl (checkWitnessScript_error h)

/-- C52, what the checks decide exactly: they accept a PSBT if and only if every input passes. Compared to BIP-174, a redeem
or witness script needs a witness UTXO, a nested witness script is never accepted, and only bare outputs are recognised as
not producing witness signatures. -/
theorem C52_accepts_iff_partial (p : Psbt L) : p.signerChecks = .ok () ↔ ∀ n i, p.inputs[n]? = some i → Spec.V0.Passes p n i := by
  unfold Psbt.signerChecks
  rw [checkFrom_ok]
  constructor
  · intro h n i hi
    have := h n i hi
    rw [Nat.zero_add] at this
    exact (checkInput_ok hi).mp this
  · intro h n i hi
    rw [Nat.zero_add]
    exact (checkInput_ok hi).mpr (h n i hi)

/-- C52. An error gives the true reason for refusing the first input that does not pass. -/
theorem C52_error_sound {p : Psbt L} {c : ChecksErr} (h : p.signerChecks = .error (.err c)) :
    ∃ n i, p.inputs[n]? = some i ∧ Spec.V0.Refused p n i c ∧ ¬ Spec.V0.Passes p n i ∧
      ∀ m j, m < n → p.inputs[m]? = some j → Spec.V0.Passes p m j := by
  obtain ⟨n, i, h1, h2, h3⟩ := checkFrom_error h
  rw [Nat.zero_add] at h2
  refine ⟨n, i, h1, ?_, ?_, ?_⟩
  · rcases checkInput_error h1 h2 with ⟨c', e, hr⟩ | ⟨e, -⟩
    · cases e; exact hr
    · cases e
  · rw [← checkInput_ok h1, h2]; simp
  · intro m j hm hj
    have := h3 m j hm hj
    rw [Nat.zero_add] at this
    exact (checkInput_ok hj).mp this

/-- C52. The checks panic only if there are more input maps than inputs of the transaction. -/
theorem C52_panic_only {p : Psbt L} {s : String} (h : p.signerChecks = .error (.panic s)) : p.unsignedTx.input.length < p.inputs.length := by
  obtain ⟨n, i, h1, h2, -⟩ := checkFrom_error h
  rw [Nat.zero_add] at h2
  rcases checkInput_error h1 h2 with ⟨c, e, -⟩ | ⟨-, -, hn⟩
  · cases e
  · have := (List.getElem?_eq_some_iff.mp h1).1
    omega

theorem checkFrom_first {p : Psbt L} {n : Nat} {is : List (Input L)} {e : Fail ChecksErr} {k : Nat} {i : Input L} (hk : is[k]? = some i)
    (he : p.checkInput (n + k) i = .error e) (hb : ∀ j b, j < k → is[j]? = some b → p.checkInput (n + j) b = .ok ()) :
    p.checkFrom n is = .error e := by
  induction is generalizing n k with
  | nil => cases hk
  | cons a is ih =>
    unfold Psbt.checkFrom
    rw [unit_bind_error]
    cases k with
    | zero => cases hk; exact .inl he
    | succ k =>
      refine .inr ⟨hb 0 a (Nat.zero_lt_succ _) rfl, ih (n := n + 1) hk (by rw [← Nat.add_assoc, Nat.add_right_comm] at he; exact he) ?_⟩
      intro j b hj hb'
      have := hb (j + 1) b (by omega) hb'
      rw [← Nat.add_assoc, Nat.add_right_comm] at this
      exact this

/-- C52. When the checks panic exactly: the first input map that does not pass is beyond the inputs of the transaction and has a
non-witness UTXO. -/
theorem C52_panics_iff (p : Psbt L) : (∃ s, p.signerChecks = .error (.panic s)) ↔
    ∃ n i, p.inputs[n]? = some i ∧ p.unsignedTx.input.length ≤ n ∧ i.nonWitnessUtxo ≠ none ∧
      ∀ m j, m < n → p.inputs[m]? = some j → Spec.V0.Passes p m j := by
  constructor
  · rintro ⟨s, h⟩
    obtain ⟨n, i, h1, h2, h3⟩ := checkFrom_error h
    rw [Nat.zero_add] at h2
    rcases checkInput_error h1 h2 with ⟨c, e, -⟩ | ⟨-, hu, hn⟩
    · cases e
    · refine ⟨n, i, h1, hn, hu, fun m j hm hj => ?_⟩
      have := h3 m j hm hj
      rw [Nat.zero_add] at this
      exact (checkInput_ok hj).mp this
  · rintro ⟨n, i, h1, hn, hu, h3⟩
    refine ⟨"index out of bounds", checkFrom_first h1 ?_ fun m j hm hj => by rw [Nat.zero_add]; exact (checkInput_ok hj).mpr (h3 m j hm hj)⟩
    rw [Nat.zero_add]
    unfold Psbt.checkInput
    have hno : ∀ t, ¬ Spec.V0.HasInput p n t i := fun t h => by
      have := h.1
      rw [List.getElem?_eq_none hn] at this; cases this
    rw [unit_bind_error]
    refine .inr ⟨(checkSpend_ok h1).mpr fun t u h => absurd h (hno t), ?_⟩
    rw [unit_bind_error]
    refine .inl ?_
    unfold Psbt.checkTxid
    cases hu' : i.nonWitnessUtxo with
    | none => exact absurd hu' hu
    | some tx => simp only [List.getElem?_eq_none hn]

/-- C52, soundness: a PSBT accepted is consistent as BIP-174 says, unless it spends a P2SH output other than for P2WPKH with a
witness UTXO, or carries a witness script for an output that is neither P2WSH nor P2SH. -/
theorem C52_sound_partial {p : Psbt L} (h : p.signerChecks = .ok ())
    (hsh : ∀ (n : Nat) i u, p.inputs[n]? = some i → i.witnessUtxo = some u → ¬ Spec.SpendType u.scriptPubkey i.redeemScript .sh)
    (hws : ∀ (n : Nat) i u, p.inputs[n]? = some i → i.witnessUtxo = some u → i.witnessScript ≠ none → Spec.P2wsh u.scriptPubkey ∨ Spec.P2sh u.scriptPubkey) :
    Spec.V0.Consistent p := by
  rw [C52_accepts_iff_partial] at h
  intro n t i hi
  obtain ⟨h1, h2, h3, h4⟩ := h n i hi.2
  refine ⟨?_, ?_, ?_, ?_⟩
  · intro tx htx
    obtain ⟨t', ht', hm⟩ := h2 (by rw [htx]; simp)
    obtain ⟨rfl, -⟩ := hasInput_unique hi ht'
    exact hm tx htx
  · intro u ty hu hty
    cases ty with
    | bare => exact absurd hty (h1 t u hi hu)
    | sh => exact absurd hty (hsh n i u hi.2 hu)
    | _ => trivial
  · intro r hr
    obtain ⟨u, hu, hp⟩ := h3 r hr
    exact ⟨u, witness_funds hu, hp⟩
  · intro w hw
    obtain ⟨u, hu, ha, hb⟩ := h4 w hw
    refine ⟨u, witness_funds hu, ?_⟩
    rcases hws n i u hi.2 hu (by rw [hw]; simp) with hx | hx
    · exact .inl (ha hx)
    · refine absurd (Spec.SpendType.sh hx ?_) (hsh n i u hi.2 hu)
      rw [hb hx]
      intro r hr
      cases hr

/-- C52, completeness: a consistent PSBT is accepted, unless it has a redeem or witness script without a witness UTXO, or a
witness script for a nested output. -/
theorem C52_complete_partial {p : Psbt L} (h : Spec.V0.Consistent p) (hlen : p.inputs.length ≤ p.unsignedTx.input.length)
    (hw : ∀ (n : Nat) i, p.inputs[n]? = some i → i.redeemScript ≠ none ∨ i.witnessScript ≠ none → i.witnessUtxo ≠ none)
    (hn : ∀ (n : Nat) i u, p.inputs[n]? = some i → i.witnessUtxo = some u → i.witnessScript ≠ none → ¬ Spec.P2sh u.scriptPubkey) :
    p.signerChecks = .ok () := by
  rw [C52_accepts_iff_partial]
  intro n i hi
  have hlt := (List.getElem?_eq_some_iff.mp hi).1
  have hx : Spec.V0.HasInput p n p.unsignedTx.input[n] i := ⟨List.getElem?_eq_getElem (by omega), hi⟩
  obtain ⟨h1, h2, h3, h4⟩ := h _ _ _ hx
  refine ⟨?_, ?_, ?_, ?_⟩
  · intro t u _ hu hb
    exact h2 u .bare hu hb
  · intro _
    exact ⟨_, hx, h1⟩
  · intro r hr
    obtain ⟨u, hu, hp⟩ := h3 r hr
    obtain ⟨v, hv⟩ := Option.ne_none_iff_exists'.mp (hw n i hi (.inl (by rw [hr]; simp)))
    exact ⟨v, hv, by rw [fundedBy_unique (witness_funds hv) hu]; exact hp⟩
  · intro w hws
    obtain ⟨u, hu, hp⟩ := h4 w hws
    obtain ⟨v, hv⟩ := Option.ne_none_iff_exists'.mp (hw n i hi (.inr (by rw [hws]; simp)))
    have hvu := fundedBy_unique (witness_funds hv) hu
    subst hvu
    have hns := hn n i v hi hv (by rw [hws]; simp)
    refine ⟨v, hv, fun _ => ?_, fun h => absurd h hns⟩
    rcases hp with hp | ⟨r, hr, -⟩
    · exact hp
    · obtain ⟨u', hu', hp'⟩ := h3 r hr
      rw [← fundedBy_unique (witness_funds hv) hu'] at hp'
      exact absurd ⟨L.hash160 r, hp'⟩ hns

/-! ### Concrete cases, and where the code disagrees with BIP-174 -/

/-- One input map, with the outpoint of transaction `id`. -/
def kP (id : Hash32) (i : Input gL) : Psbt gL :=
  { gP [i] with unsignedTx := ⟨2, 0, [⟨⟨id, 0⟩, [], 0xFFFFFFFF, []⟩], [⟨500, [0x51]⟩]⟩ }
def kW : Bytes := [0x51, 0x52]
def kWsh : Bytes := newP2wsh gL kW
/-- Spends P2WSH with its witness script; spends P2SH-P2WPKH with its redeem script. -/
def kNative : Input gL := { gIn kWsh with witnessScript := some kW }
def kNested : Input gL := { gIn (newP2sh gL V2.spkWpkh) with redeemScript := some V2.spkWpkh }
/-- P2SH-P2WSH with both scripts. -/
def kShWsh : Input gL := { gIn (newP2sh gL kWsh) with redeemScript := some kWsh, witnessScript := some kW }
/-- Legacy P2SH with the transaction spent. -/
def kTx : Tx := ⟨2, 0, [], [⟨900, newP2sh gL kW⟩]⟩
def kLegacy : Input gL := { Input.default gL with nonWitnessUtxo := some kTx, redeemScript := some kW }
/-- Legacy P2SH with a witness UTXO only. -/
def kBad : Input gL := { gIn (newP2sh gL kW) with redeemScript := some kW }

/-- With one input, consistency is about that input. -/
theorem kP_consistent {id : Hash32} {i : Input gL} {u : TxOut} (hu : Spec.V0.FundedBy ⟨⟨id, 0⟩, [], 0xFFFFFFFF, []⟩ i u)
    (h1 : ∀ tx, i.nonWitnessUtxo = some tx → Spec.txid gL tx = id)
    (h2 : ∀ v, i.witnessUtxo = some v → ∃ ty, Spec.V0.WitnessSpend ty ∧ outputTypeOf v.scriptPubkey i.redeemScript = some ty)
    (h3 : ∀ r, i.redeemScript = some r → u.scriptPubkey = newP2sh gL r)
    (h4 : ∀ w, i.witnessScript = some w → u.scriptPubkey = newP2wsh gL w ∨ i.redeemScript = some (newP2wsh gL w)) : Spec.V0.Consistent (kP id i) := by
  rintro n t j ⟨ht, hj⟩
  have ej : j = i := by simpa [kP, gP] using List.mem_of_getElem? hj
  have et : t = ⟨⟨id, 0⟩, [], 0xFFFFFFFF, []⟩ := by simpa [kP, gP] using List.mem_of_getElem? ht
  subst ej et
  refine ⟨h1, ?_, ?_, ?_⟩
  · intro v ty hv hty
    obtain ⟨ty', hw, e⟩ := h2 v hv
    rw [outputTypeOf_iff.mpr hty] at e
    cases e
    exact hw
  · intro r hr; exact ⟨u, hu, h3 r hr⟩
  · intro w hw
    refine ⟨u, hu, ?_⟩
    rcases h4 w hw with h | h
    · exact .inl h
    · exact .inr ⟨_, h, rfl⟩

-- Accepted, and the hypotheses of `C52_sound_partial` and `C52_complete_partial` are met.
example : (kP (Demo.rep 32 7) kNative).signerChecks = .ok () ∧ (kP (Demo.rep 32 7) kNested).signerChecks = .ok () := by decide +kernel
example : Spec.V0.Consistent (kP (Demo.rep 32 7) kNested) :=
  kP_consistent (.witness rfl) (by rintro tx h; cases h) (by rintro v h; cases h; exact ⟨.shWpkh, trivial, by decide +kernel⟩)
    (by rintro r h; cases h; rfl) (by rintro w h; cases h)
example : Spec.V0.Consistent (kP (Demo.rep 32 7) kNative) :=
  kP_consistent (.witness rfl) (by rintro tx h; cases h) (by rintro v h; cases h; exact ⟨.wsh, trivial, by decide +kernel⟩)
    (by rintro r h; cases h) (by rintro w h; cases h; exact .inl rfl)
-- Every error occurs but `witnessAndNonWitnessUtxo`, which the code never produces.
example : (kP (Demo.rep 32 7) (gIn V2.spkBare)).signerChecks = .error (.err .nonWitnessSig) ∧
    (kP (Demo.rep 32 7) kLegacy).signerChecks = .error (.err .nonWitnessUtxoTxidMismatch) ∧
    (kP (Demo.rep 32 7) { kNested with redeemScript := some [1] }).signerChecks = .error (.err .redeemScriptMismatch) ∧
    (kP (Demo.rep 32 7) { kNested with witnessUtxo := none }).signerChecks = .error (.err .missingTxOut) ∧
    (kP (Demo.rep 32 7) { kNative with witnessScript := some [1] }).signerChecks = .error (.err .witnessScriptMismatchWsh) := by decide +kernel

/-- C52 fails: a consistent P2SH-P2WSH input, with both its scripts, is refused. -/
theorem C52_nested_counterexample : ∃ p : Psbt gL, Spec.V0.Consistent p ∧ p.signerChecks = .error (.err .witnessScriptMismatchShWsh) :=
  ⟨kP (Demo.rep 32 7) kShWsh,
    kP_consistent (.witness rfl) (by rintro tx h; cases h) (by rintro v h; cases h; exact ⟨.shWsh, trivial, by decide +kernel⟩)
      (by rintro r h; cases h; rfl) (by rintro w h; cases h; exact .inr rfl),
    by decide +kernel⟩

/-- C52 fails: a consistent legacy P2SH input, with the transaction it spends, is refused for lack of a witness UTXO. -/
theorem C52_legacy_counterexample : ∃ p : Psbt gL, Spec.V0.Consistent p ∧ p.signerChecks = .error (.err .missingTxOut) :=
  ⟨kP (V2.txid gL kTx) kLegacy,
    kP_consistent (u := ⟨900, newP2sh gL kW⟩) (.nonWitness rfl rfl rfl) (by rintro tx h; cases h; rfl) (by rintro v h; cases h)
      (by rintro r h; cases h; rfl) (by rintro w h; cases h),
    by decide +kernel⟩

/-- C52 fails: a legacy P2SH input with nothing but a witness UTXO is accepted, and will be signed without a witness. -/
theorem C52_unsound_counterexample : ∃ p : Psbt gL, ¬ Spec.V0.Consistent p ∧ p.signerChecks = .ok () := by
  refine ⟨kP (Demo.rep 32 7) kBad, ?_, by decide +kernel⟩
  intro h
  have := (h 0 _ _ ⟨rfl, rfl⟩).2.1 _ .sh rfl (outputTypeOf_iff.mp (by decide +kernel))
  exact this

/-- C52 fails: a PSBT with more input maps than inputs makes the checks panic. -/
theorem C52_panic_counterexample : ∃ (p : Psbt gL) (s : String), p.signerChecks = .error (.panic s) :=
  ⟨{ kP (Demo.rep 32 7) kNative with inputs := [kNative, kLegacy] }, "index out of bounds", by decide +kernel⟩
example : ∃ n i, ({ kP (Demo.rep 32 7) kNative with inputs := [kNative, kLegacy] } : Psbt gL).inputs[n]? = some i ∧
    (kP (Demo.rep 32 7) kNative).unsignedTx.input.length ≤ n ∧ i.nonWitnessUtxo ≠ none := ⟨1, kLegacy, rfl, by decide, by decide⟩

end Psbt.V0
