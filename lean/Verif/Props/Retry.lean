/- C110: a call that failed can be made again. -/
import Verif.Spec.Retry
import Verif.Props.V0Finalize
import Verif.Props.V0Combine
namespace Psbt
open Psbt.Spec

variable {L : Lib}

namespace V2

/-! ### Global::combine leaves its left side partly merged -/

theorem mergeXpubsMut_eq (m : BMap L.xpub.T KeySource) (l : List (L.xpub.T × KeySource)) :
    mergeXpubs m l = match mergeXpubsMut m l with
      | (m', .ok ()) => .ok m'
      | (_, .error e) => .error e := by
  induction l generalizing m with
  | nil => rfl
  | cons a rest ih =>
    obtain ⟨x, fp1, d1⟩ := a
    rw [mergeXpubs, mergeXpubsMut]
    cases m.get x with
    | none => exact ih _
    | some b =>
      simp only
      split
      · exact ih _
      · split
        · rfl
        · split
          · exact ih _
          · rfl

/-- What the loop has done to the map when it stopped, whether it succeeded or not. -/
theorem mergeXpubsMut_left {m : BMap L.xpub.T KeySource} {l : List (L.xpub.T × KeySource)} (hs : KSorted l) (x : L.xpub.T) :
    (mergeXpubsMut m l).1.get x = m.get x ∨
      ∃ t, (x, t) ∈ l ∧ mergeOpt (m.get x) (some t) = some ((mergeXpubsMut m l).1.get x) := by
  induction l generalizing m with
  | nil => exact .inl rfl
  | cons a rest ih =>
    obtain ⟨y, fp1, d1⟩ := a
    have step : ∀ m' : BMap L.xpub.T KeySource, (∀ z, z ≠ y → m'.get z = m.get z) →
        (m'.get y = m.get y ∨ mergeOpt (m.get y) (some (fp1, d1)) = some (m'.get y)) →
        (mergeXpubsMut m' rest).1.get x = m.get x ∨
          ∃ t, (x, t) ∈ (y, fp1, d1) :: rest ∧ mergeOpt (m.get x) (some t) = some ((mergeXpubsMut m' rest).1.get x) := by
      intro m' hne heq
      by_cases hxy : x = y
      · subst hxy
        rcases ih hs.tail (m := m') with h | ⟨t, ht, -⟩
        · rw [h]
          exact heq.imp id fun h => ⟨_, List.mem_cons_self .., h⟩
        · exact absurd (hs.lt_of_mem _ ht) (by simp [OrdKey.irrefl])
      · have hg := hne x hxy
        rcases ih hs.tail (m := m') with h | ⟨t, ht, h⟩
        · exact .inl (h.trans hg)
        · exact .inr ⟨t, List.mem_cons_of_mem _ ht, by rw [← hg]; exact h⟩
    rw [mergeXpubsMut]
    cases hm : m.get y with
    | none =>
      refine step _ (fun z hz => BMap.get_insert_ne _ hz _) (.inr ?_)
      rw [hm, BMap.get_insert_self]; rfl
    | some b =>
      obtain ⟨fp2, d2⟩ := b
      simp only
      split
      · exact step m (fun _ _ => rfl) (.inl rfl)
      · split
        · exact .inl rfl
        · rename_i hl
          split
          · rename_i hd
            refine step _ (fun z hz => BMap.get_insert_ne _ hz _) (.inr ?_)
            rw [hm, BMap.get_insert_self]
            simp only [mergeOpt]
            rw [ksMerge_iff.mpr (.theirs (suffix_iff_drop.mpr ⟨by simp only; omega, hd⟩))]
            rfl
          · exact .inl rfl

theorem mergeable_of {a : Option KeySource} {t : KeySource} {c : Option KeySource} (h : mergeOpt a (some t) = some c) :
    ∀ s, a = some s → Mergeable s t := by
  rintro s rfl
  simp only [mergeOpt, Option.map_eq_some_iff] at h
  obtain ⟨u, hu, -⟩ := h
  cases ksMerge_iff.mp hu with
  | mine _ h => exact .inr h
  | theirs h => exact .inl h

/-- Merging in two steps, the first of which may have been broken off. -/
theorem merge_retry {m n n' r : BMap L.xpub.T KeySource} (hf : Mended m n n')
    (h : ∀ x, mergeOpt (m.get x) (n'.get x) = some (r.get x)) (x : L.xpub.T) :
    mergeOpt ((mergeXpubsMut m n.l).1.get x) (n'.get x) = some (r.get x) := by
  rcases mergeXpubsMut_left n.sorted (m := m) x with e | ⟨t, ht, e⟩
  · rw [e]; exact h x
  · have ht := hf x t (BMap.mem_iff_get.mp ht) (mergeable_of e)
    have hx := h x
    rw [ht] at hx ⊢
    rw [← Option.some.inj (e.symm.trans hx)]
    exact mergeOpt_again e

/-- C110. Combining global maps in place gives what combining them gives, or fails with the same error. -/
theorem C110_global_in_place (a b : Global L) :
    (∀ c, a.combine b = .ok c ↔ a.combineMut b = (c, .ok ())) ∧ ∀ e, a.combine b = .error e ↔ (a.combineMut b).2 = .error e := by
  unfold Global.combine Global.combineMut
  by_cases h1 : a.version ≠ b.version
  · simp [h1]
  · by_cases h2 : a.txVersion ≠ b.txVersion
    · simp [h1, h2]
    · rw [if_neg h1, if_neg h1, if_neg h2, if_neg h2, mergeXpubsMut_eq]
      rcases mergeXpubsMut a.xpubs b.xpubs.l with ⟨m, _ | _⟩
      · simp [Bind.bind, Except.bind]
      · simp [Bind.bind, Except.bind]

/-- C110. A global map that could not be combined has lost nothing: at most the extended keys changed, each it had is still
there, with the same origin or one merged from that and the other map's. -/
theorem C110_global_kept {a b c : Global L} {e} (h : a.combineMut b = (c, .error e)) :
    c = { a with xpubs := c.xpubs } ∧ ∀ x, c.xpubs.get x = a.xpubs.get x ∨
      (a.xpubs.get x = none ∧ c.xpubs.get x = b.xpubs.get x) ∨
      ∃ s t u, a.xpubs.get x = some s ∧ b.xpubs.get x = some t ∧ c.xpubs.get x = some u ∧ MergedKey s t u := by
  unfold Global.combineMut at h
  split at h
  · cases h; exact ⟨rfl, fun _ => .inl rfl⟩
  · split at h
    · cases h; exact ⟨rfl, fun _ => .inl rfl⟩
    · have hl := fun x => mergeXpubsMut_left b.xpubs.sorted (m := a.xpubs) x
      rcases hm : mergeXpubsMut a.xpubs b.xpubs.l with ⟨m, _ | _⟩
      · rw [hm] at h hl
        cases h
        refine ⟨rfl, fun x => (hl x).imp id ?_⟩
        rintro ⟨t, ht, e⟩
        rw [BMap.mem_iff_get] at ht
        cases hx : a.xpubs.get x with
        | none => rw [hx] at e; exact .inl ⟨rfl, by rw [ht]; exact (Option.some.inj e).symm⟩
        | some s =>
          rw [hx] at e
          simp only [mergeOpt, Option.map_eq_some_iff] at e
          obtain ⟨u, hu, e⟩ := e
          exact .inr ⟨s, t, u, rfl, ht, e.symm, ksMerge_iff.mp hu⟩
      · rw [hm] at h; cases h

/-- C110. Combining a global map again, after the conflicting keys were taken out of the other map, gives what it would have
given at first. -/
theorem C110_global_retry {a b b' c r : Global L} {e} (h : a.combineMut b = (c, .error e)) (hf : Mended a.xpubs b.xpubs b'.xpubs)
    (hr : a.combineMut b' = (r, .ok ())) : c.combineMut b' = (r, .ok ()) := by
  unfold Global.combineMut at h hr
  split at h
  · cases h; unfold Global.combineMut; exact hr
  · split at h
    · cases h; unfold Global.combineMut; exact hr
    · split at hr
      · cases hr
      · rename_i k1
        split at hr
        · cases hr
        · rename_i k2
          have hm : ∀ m n m' : BMap L.xpub.T KeySource, mergeXpubsMut m n.l = (m', .ok ()) ↔
              ∀ x, mergeOpt (m.get x) (n.get x) = some (m'.get x) := by
            intro m n m'
            have h1 := mergeXpubs_ok (m := m) (m' := m') n.sorted
            rw [mergeXpubsMut_eq] at h1
            refine Iff.trans ?_ h1
            rcases mergeXpubsMut m n.l with ⟨m'', _ | _⟩ <;> simp
          rcases h2 : mergeXpubsMut a.xpubs b'.xpubs.l with ⟨m, _ | _⟩
          · rw [h2] at hr; cases hr
          · rw [h2] at hr
            rcases h3 : mergeXpubsMut a.xpubs b.xpubs.l with ⟨m', _ | _⟩
            · rw [h3] at h
              cases h
              have := merge_retry hf ((hm _ _ _).mp h2)
              rw [h3] at this
              unfold Global.combineMut
              simp only
              rw [(hm _ _ _).mpr this]
              rw [if_neg k1, if_neg k2]
              exact hr
            · rw [h3] at h; cases h

end V2

namespace V0
open Psbt.Spec.V0

theorem mergeXpubs_mut (m : BMap L.xpub.T KeySource) (l : List (L.xpub.T × KeySource)) :
    (mergeXpubs m l).1 = (V2.mergeXpubsMut m l).1 := by
  induction l generalizing m with
  | nil => rfl
  | cons a rest ih =>
    obtain ⟨x, fp1, d1⟩ := a
    rw [mergeXpubs, V2.mergeXpubsMut]
    cases m.get x with
    | none => exact ih _
    | some b =>
      simp only
      split
      · exact ih _
      · split
        · rfl
        · split
          · exact ih _
          · rfl

theorem vmax_after {a b c : UInt32} (h : b ≤ c) : vmax (vmax a b) c = vmax a c := by
  unfold vmax
  by_cases h1 : a ≤ b
  · have : a ≤ c := by rw [UInt32.le_iff_toNat_le] at *; omega
    simp [h1, h, this]
  · simp [h1]

/-- A combine that failed: nothing happened, or the version and the extended keys were merged up to the conflict. -/
theorem combine_failed {p q r : Psbt L} {e} (h : p.combine q = (r, .error e)) :
    r = p ∨ r = { p with version := vmax p.version q.version, xpub := (V2.mergeXpubsMut p.xpub q.xpub.l).1 } := by
  rw [← mergeXpubs_mut]
  unfold Psbt.combine at h
  split at h
  · cases h; exact .inl rfl
  · simp only at h
    rcases hm : mergeXpubs p.xpub q.xpub.l with ⟨m, _ | _⟩
    · rw [hm] at h; cases h; exact .inr rfl
    · rw [hm] at h; cases h

/-- C110. A PSBT v0 that could not be combined has lost nothing: at most the version grew and the extended keys changed,
each it had is still there, with the same origin or one merged from that and the other PSBT's. -/
theorem C110_combine_kept {p q r : Psbt L} {e} (h : p.combine q = (r, .error e)) :
    r = { p with version := r.version, xpub := r.xpub } ∧ p.version ≤ r.version ∧ ∀ x, r.xpub.get x = p.xpub.get x ∨
      (p.xpub.get x = none ∧ r.xpub.get x = q.xpub.get x) ∨
      ∃ s t u, p.xpub.get x = some s ∧ q.xpub.get x = some t ∧ r.xpub.get x = some u ∧ MergedKey s t u := by
  rcases combine_failed h with rfl | rfl
  · exact ⟨rfl, UInt32.le_refl _, fun _ => .inl rfl⟩
  · refine ⟨rfl, ?_, fun x => (V2.mergeXpubsMut_left q.xpub.sorted (m := p.xpub) x).imp id ?_⟩
    · simp only [vmax]; split
      · assumption
      · exact UInt32.le_refl _
    · rintro ⟨t, ht, e⟩
      rw [BMap.mem_iff_get] at ht
      cases hx : p.xpub.get x with
      | none => rw [hx] at e; exact .inl ⟨rfl, by rw [ht]; exact (Option.some.inj e).symm⟩
      | some s =>
        rw [hx] at e
        simp only [V2.mergeOpt, Option.map_eq_some_iff] at e
        obtain ⟨u, hu, e⟩ := e
        exact .inr ⟨s, t, u, rfl, ht, e.symm, V2.ksMerge_iff.mp hu⟩

/-- C110. Combining again, after the conflicting extended keys were taken out of the other PSBT, gives what it would have
given at first. -/
theorem C110_combine_retry {p q q' p' r : Psbt L} {e} (h : p.combine q = (p', .error e)) (hf : Mended p.xpub q.xpub q'.xpub)
    (hv : q.version ≤ q'.version) (hr : p.combine q' = (r, .ok ())) : p'.combine q' = (r, .ok ()) := by
  rcases combine_failed h with rfl | rfl
  · exact hr
  · obtain ⟨h1, h2, h3⟩ := combine_ok.mp hr
    refine combine_ok.mpr ⟨h1, fun x => V2.merge_retry hf h2 x, ?_⟩
    rw [h3]
    simp only [vmax_after hv]

/-! ### Finalizing -/

variable {M : MsLib L}

/-- Nothing can be made for an input that holds only UTXOs and final scripts. -/
theorem scripts_final {q : Psbt L} {n : Nat} {t : TxIn} {j : Input L} {u : TxOut} {mall : Bool} {r} (hi : HasInput q n t j)
    (hj : OnlyFinal j) (hu : FundedBy t j u) (ha : Addressed u.scriptPubkey) (h : Scripts M q n mall r) :
    ∃ e, r = .error e ∧ Lacking u.scriptPubkey e := by
  obtain ⟨i, s, w, rfl⟩ := hj
  have same : ∀ {t' i' u'}, HasInput q n t' i' → FundedBy t' i' u' → i' = onlyFinal i s w ∧ u' = u := by
    intro t' i' u' h1 h2
    cases hi.1.symm.trans h1.1
    cases hi.2.symm.trans h1.2
    exact ⟨rfl, fundedBy_unique h2 hu⟩
  have hd : ∀ {map r}, ¬ P2tr u.scriptPubkey → Descr M map [] u.scriptPubkey none none r → ∃ e, r = .error e ∧ Lacking u.scriptPubkey e := by
    intro map r htr hd
    rw [← descriptorOf_iff] at hd
    rcases ha with h | h | h | h | h
    · have := P2pkh.pk h
      refine ⟨.missingPubkey, ?_, .pkh h⟩
      rw [← hd]; simp [descriptorOf, this, isP2pkh_iff.mpr h]
    · have h1 := P2wpkh.pk h; have h2 := P2wpkh.pkh h
      refine ⟨.missingPubkey, ?_, .wpkh h⟩
      rw [← hd]; simp [descriptorOf, h1, h2, isP2wpkh_iff.mpr h]
    · have h1 := P2wsh.pk h; have h2 := P2wsh.pkh h; have h3 := P2wsh.wpkh h
      refine ⟨.missingWitnessScript, ?_, .wsh h⟩
      rw [← hd]; simp [descriptorOf, h1, h2, h3, isP2wsh_iff.mpr h]
    · have h1 := P2sh.pk h; have h2 := P2sh.pkh h; have h3 := P2sh.wpkh h; have h4 := P2sh.wsh h
      refine ⟨.missingRedeemScript, ?_, .sh h⟩
      rw [← hd]; simp [descriptorOf, h1, h2, h3, h4, isP2sh_iff.mpr h]
    · exact absurd h htr
  cases h with
  | unfunded h1 h2 =>
    cases hi.1.symm.trans h1.1
    cases hi.2.symm.trans h1.2
    exact absurd h2 (not_unfunded hu)
  | tap h1 h2 h3 h4 =>
    obtain ⟨rfl, rfl⟩ := same h1 h2
    cases h4 with
    | key h => cases h
    | leaf _ h =>
      have := congrArg List.length h
      simp [Psbt.satisfier, V0.onlyFinal, Input.default, BMap.empty] at this
  | tapFails h1 h2 h3 h4 =>
    obtain ⟨rfl, rfl⟩ := same h1 h2
    cases h4 with
    | none _ _ => exact ⟨_, rfl, .tr h3⟩
  | other h1 h2 h3 h4 h5 =>
    obtain ⟨rfl, rfl⟩ := same h1 h2
    obtain ⟨e, h, -⟩ := hd h3 h4
    cases h
  | otherFails h1 h2 h3 h4 =>
    obtain ⟨rfl, rfl⟩ := same h1 h2
    obtain ⟨e, h, h'⟩ := hd h3 h4
    cases h
    exact ⟨_, rfl, h'⟩
  | unsatisfied h1 h2 h3 h4 h5 =>
    obtain ⟨rfl, rfl⟩ := same h1 h2
    obtain ⟨e, h, -⟩ := hd h3 h4
    cases h

theorem result_final {q : Psbt L} {n : Nat} {t : TxIn} {j : Input L} {u : TxOut} {mall : Bool} {r} (hi : HasInput q n t j)
    (hj : OnlyFinal j) (hu : FundedBy t j u) (ha : Addressed u.scriptPubkey) (h : Result M q n mall r) :
    ∃ e, r = .error (.input e n) ∧ Lacking u.scriptPubkey e := by
  cases h with
  | done _ h _ => obtain ⟨e, h, -⟩ := scripts_final hi hj hu ha h; cases h
  | fails h => obtain ⟨e, h, h'⟩ := scripts_final hi hj hu ha h; cases h; exact ⟨_, rfl, h'⟩
  | unfunded h _ => obtain ⟨e, h, -⟩ := scripts_final hi hj hu ha h; cases h
  | refused h _ => obtain ⟨e, h, -⟩ := scripts_final hi hj hu ha h; cases h

theorem mem_errors {α : Type} {rs : List (Except (FinErr L) α)} {e : FinErr L} (h : .error e ∈ rs) : e ∈ errors rs := by
  induction rs with
  | nil => cases h
  | cons r rs ih =>
    rcases List.mem_cons.mp h with rfl | h'
    · exact List.mem_cons_self ..
    · cases r with
      | ok _ => exact ih h'
      | error _ => exact List.mem_cons_of_mem _ (ih h')

/-- C110. An input that has been finalized and is finalized again stays as it is, and an error is reported for it, which
says what final inputs never have. -/
theorem C110_final_again {q : Psbt L} (hq : Sound q) {n : Nat} {t : TxIn} {j : Input L} {u : TxOut} (hi : HasInput q n t j)
    (hj : OnlyFinal j) (hu : FundedBy t j u) (ha : Addressed u.scriptPubkey) :
    (∃ e, q.finalizeInp M n = .error (.err (.input e n)) ∧ Lacking u.scriptPubkey e) ∧
    ∀ mall, ∃ r es e, q.finalizeMut M mall = .ok (r, es) ∧ r.inputs[n]? = some j ∧ .input e n ∈ es ∧ Lacking u.scriptPubkey e := by
  have hl := (List.getElem?_eq_some_iff.mp hi.2).1
  constructor
  · obtain ⟨r, hr⟩ := result_total (M := M) (mall := false) hq hl
    obtain ⟨e, rfl, he⟩ := result_final hi hj hu ha hr
    exact ⟨e, (C66_error_iff hq n _).mpr (.inr ⟨_, hr, rfl⟩), he⟩
  · intro mall
    obtain ⟨rs, is, h1, h2, h3, h4⟩ := finalizeMut_spec (M := M) hq mall
    obtain ⟨r, g1, g2, g3, g4, g5⟩ := h4 n j hi.2
    obtain ⟨e, rfl, he⟩ := result_final (t := t) ⟨by rw [g4.1]; exact hi.1, g5⟩ hj hu ha g3
    exact ⟨_, _, e, h1, g2, mem_errors (List.mem_of_getElem? g1), he⟩

theorem finalizeWhile_final (m : Nat) {q : Psbt L} (hq : Sound q) {k n : Nat} (hk : k ≤ n) (hm : n < k + m) {t : TxIn} {j : Input L}
    {u : TxOut} (hi : HasInput q n t j) (hj : OnlyFinal j) (hu : FundedBy t j u) (ha : Addressed u.scriptPubkey) (mall : Bool) :
    ∃ r e, q.finalizeWhile M mall (List.range' k m) = .ok (r, .error e) ∧ ∀ l : Nat, n ≤ l → r.inputs[l]? = q.inputs[l]? := by
  induction m generalizing q k with
  | zero => omega
  | succ m ih =>
    have hl := (List.getElem?_eq_some_iff.mp hi.2).1
    obtain ⟨r, hr⟩ := result_total (M := M) (mall := mall) hq (n := k) (by omega)
    have hs := result_sound hq hr
    rw [List.range'_succ, Psbt.finalizeWhile]
    cases r with
    | error e => rw [hs]; exact ⟨q, e, rfl, fun _ _ => rfl⟩
    | ok j' =>
      rw [hs]
      have hkn : k ≠ n := by
        rintro rfl
        obtain ⟨e, h, -⟩ := result_final hi hj hu ha hr
        cases h
      have hsame := result_same hr
      have hget : ∀ l : Nat, n ≤ l → (withInput q k j').inputs[l]? = q.inputs[l]? := fun l h => by
        simp only [withInput]; rw [List.getElem?_set_ne (by omega)]
      obtain ⟨r, e, h1, h2⟩ := ih (hsame.sound hq) (k := k + 1) (by omega) (by omega) ⟨hi.1, by rw [hget n (Nat.le_refl _)]; exact hi.2⟩
      exact ⟨r, e, h1, fun l h => (h2 l h).trans (hget l h)⟩

/-- C110. The functions that stop at the first error never get past an input that is final already. -/
theorem C110_stuck {q : Psbt L} (hq : Sound q) {n : Nat} {t : TxIn} {j : Input L} {u : TxOut} (hi : HasInput q n t j)
    (hj : OnlyFinal j) (hu : FundedBy t j u) (ha : Addressed u.scriptPubkey) (mall : Bool) :
    ∃ r e, q.finalizeHelper M mall = .ok (r, .error e) ∧ ∀ l : Nat, n ≤ l → r.inputs[l]? = q.inputs[l]? := by
  unfold Psbt.finalizeHelper
  cases q.sanityCheck with
  | error e => exact ⟨q, e, rfl, fun _ _ => rfl⟩
  | ok _ =>
    rw [List.range_eq_range']
    exact finalizeWhile_final _ hq (Nat.zero_le _) (by rw [Nat.zero_add]; exact (List.getElem?_eq_some_iff.mp hi.2).1) hi hj hu ha mall

/-- C110. Finalizing again: the first call finalized some inputs; the others were replaced with ones that may have what was
missing. A second call then leaves the PSBT with the inputs that one call at that time would have given, if the scripts of
each input need no keys that only other inputs list. -/
theorem C110_finalize_retry_partial {p p' q q' r : Psbt L} (hp : Sound p) (hs : SameCoins p p') {mall : Bool} {es es'}
    (ha : ∀ n t i u, HasInput p n t i → FundedBy t i u → Addressed u.scriptPubkey) (hc : ∀ n, SelfContained M p' n)
    (h : p.finalizeMut M mall = .ok (q, es)) (hf : Repaired p q p' q') (hr : p'.finalizeMut M mall = .ok (r, es')) :
    ∃ r' es'', q'.finalizeMut M mall = .ok (r', es'') ∧ r'.inputs = r.inputs := by
  have hs : Same p p' := hs
  obtain ⟨rs1, is1, a1, a2, a3, a4⟩ := finalizeMut_spec (M := M) hp mall
  obtain ⟨rfl, rfl⟩ := Prod.mk.inj (Except.ok.inj (h.symm.trans a1))
  have hp' := hs.sound hp
  obtain ⟨rs2, is2, b1, b2, b3, b4⟩ := finalizeMut_spec (M := M) hp' mall
  obtain ⟨rfl, rfl⟩ := Prod.mk.inj (Except.ok.inj (hr.symm.trans b1))
  obtain ⟨f1, f2, f3⟩ := hf
  -- what the second call in `p'` does, and what an input finalized by the first call is
  have res : ∀ {s : Psbt L} {n : Nat} {o o'}, Same p' s → s.inputs[n]? = p'.inputs[n]? → n < p'.inputs.length →
      Result M s n mall o → Result M p' n mall o' → o = o' := by
    intro s n o o' g1 g2 g3 g4 g5
    exact result_unique (g1.sound hp') g4 (result_self hp' g1 (hc n) g2 g5)
  have hsq : Same p q' := by
    refine ⟨f1, List.ext_getElem? fun n => ?_⟩
    simp only [List.getElem?_map]
    by_cases hn : is1[n]? = p.inputs[n]?
    · rw [(f3 n).1 hn]
      have := congrArg (·[n]?) hs.2
      simpa only [List.getElem?_map] using this
    · obtain ⟨-, e2⟩ := (f3 n).2 hn
      rw [e2]
      by_cases hl : n < p.inputs.length
      · obtain ⟨o, g1, g2, g3, -, g5⟩ := a4 n _ (List.getElem?_eq_getElem hl)
        rw [g2, List.getElem?_eq_getElem hl]
        cases o with
        | error e => rfl
        | ok j' =>
          cases g3 with
          | done k1 _ _ => cases k1.symm.trans g5; rfl
      · rw [List.getElem?_eq_none (by simpa only [a3] using Nat.le_of_not_lt hl), List.getElem?_eq_none (by omega)]
  have hq' := hsq.sound hp
  obtain ⟨rs3, is3, c1, c2, c3, c4⟩ := finalizeMut_spec (M := M) hq' mall
  refine ⟨_, _, c1, List.ext_getElem? fun n => ?_⟩
  simp only
  have hl' : p'.inputs.length = p.inputs.length := hs.length
  by_cases hl : n < p.inputs.length
  · obtain ⟨o3, g1, g2, g3, g4, g5⟩ := c4 n _ (List.getElem?_eq_getElem (by omega))
    obtain ⟨o2, k1, k2, k3, k4, k5⟩ := b4 n _ (List.getElem?_eq_getElem (by omega))
    obtain ⟨o, ho⟩ := result_total (M := M) (mall := mall) hp' (n := n) (by omega)
    have e2 := res k4 (k5.trans (List.getElem?_eq_getElem (by omega)).symm) (by omega) k3 ho
    subst e2
    rw [g2, k2]
    by_cases hn : is1[n]? = p.inputs[n]?
    · have e1 := (f3 n).1 hn
      have e3 := res (hs.symm.trans (hsq.trans g4)) (g5.trans ((List.getElem?_eq_getElem (by omega)).symm.trans e1)) (by omega) g3 ho
      subst e3
      rw [List.getElem?_eq_getElem (by omega), List.getElem?_eq_getElem (by omega)] at e1
      rw [Option.some.inj e1]
    · obtain ⟨e1, e2⟩ := (f3 n).2 hn
      obtain ⟨o1, m1, m2, m3, m4, m5⟩ := a4 n _ (List.getElem?_eq_getElem hl)
      have e3 := res (hs.symm.trans m4) (m5.trans ((List.getElem?_eq_getElem hl).symm.trans e1.symm)) (by omega) m3 ho
      subst e3
      cases o1 with
      | error e => exact absurd (m2.trans (List.getElem?_eq_getElem hl).symm) hn
      | ok j' =>
        rw [m2] at e2
        simp only [chosen] at e2 ⊢
        have hj : OnlyFinal j' := by cases m3 with | done _ _ _ => exact ⟨_, _, _, rfl⟩
        obtain ⟨t, i, u, v1, v2⟩ : ∃ t i u, HasInput p n t i ∧ FundedBy t i u := by
          cases m3 with
          | done _ _ hv =>
            obtain ⟨t, i, u, us, v1, v2, -⟩ := m4.symm.verdict hv
            exact ⟨t, i, u, v1, v2⟩
        obtain ⟨j2, w1, w2, w3⟩ := hsq.hasInput v1
        obtain rfl := Option.some.inj (w1.2.symm.trans e2)
        have e4 : q'.inputs[n] = j2 := by
          have := w1.2
          rw [List.getElem?_eq_getElem (by omega)] at this
          exact Option.some.inj this
        rw [e4] at g5 ⊢
        obtain ⟨e, rfl, -⟩ := result_final (M := M) ⟨by rw [g4.1]; exact w1.1, g5⟩ hj (fundedBy_same w2 w3 v2) (ha n t i u v1 v2) g3
        rfl
  · rw [List.getElem?_eq_none (by omega), List.getElem?_eq_none (by omega)]

/-! ### Examples -/

/-- Two P2WPKH inputs, the second of which lacks its signature; and with both signatures. -/
def ryP : Psbt gL := gP [zIn, { zIn with partialSigs := .empty }]
def ryFull : Psbt gL := gP [zIn, zIn]
/-- The first input finalized, and the second given its signature afterwards. -/
def ryQ : Psbt gL := (zAll ryP false).1
def ryQ' : Psbt gL := withInput ryQ 1 zIn

theorem ryRepaired : Repaired ryP ryQ ryFull ryQ' := by
  refine ⟨by decide +kernel, by decide +kernel, fun n => ?_⟩
  match n with
  | 0 => constructor <;> decide +kernel
  | 1 => constructor <;> decide +kernel
  | n + 2 =>
    have h : ∀ q : Psbt gL, q.inputs.length = 2 → q.inputs[n + 2]? = none := fun q h => List.getElem?_eq_none (by omega)
    rw [h ryP (by decide), h ryQ (by decide +kernel), h ryFull (by decide), h ryQ' (by decide +kernel)]
    simp

/-- C110 fails: after a call that finalized one of two inputs, and after the other was given its signature, finalizing
finishes the PSBT but reports an error, about the input that was finalized before. Without the first call it reports none. The
function that stops at the first error does not finish it. -/
theorem C110_finalize_counterexample : ∃ (p q p' q' r r' : Psbt gL) (e : FinErr gL), Sound p ∧ SameCoins p p' ∧
    p.finalizeMut V2.FM false = .ok (q, [e]) ∧ Repaired p q p' q' ∧ p'.finalizeMut V2.FM false = .ok (r, []) ∧
    q'.finalizeMut V2.FM false = .ok (r', [.input .missingPubkey 0]) ∧ r'.inputs = r.inputs ∧
    q'.finalizeHelper V2.FM false = .ok (q', .error (.input .missingPubkey 0)) :=
  ⟨ryP, ryQ, ryFull, ryQ', (zAll ryFull false).1, (zAll ryQ' false).1, .input .missingPubkey 1, zSound _ (by decide), by unfold SameCoins; decide +kernel,
    by decide +kernel, ryRepaired, by decide +kernel, by decide +kernel, by decide +kernel, by decide +kernel⟩

-- The hypotheses of `C110_final_again` and `C110_stuck`.
example : ∃ t j u, HasInput ryQ' 0 t j ∧ OnlyFinal j ∧ FundedBy t j u ∧ Addressed u.scriptPubkey ∧ Sound ryQ' := by
  have hi : ryQ'.inputs = [onlyFinal zIn [] [V2.fSig.der.bytes, V2.fKey.bytes], zIn] := by decide +kernel
  refine ⟨ryP.unsignedTx.input[0], onlyFinal zIn [] [V2.fSig.der.bytes, V2.fKey.bytes], ⟨1000, V2.fSpk⟩, ⟨by decide +kernel, by rw [hi]; rfl⟩,
    ⟨_, _, _, rfl⟩, .witness rfl, .inr (.inl ?_), ?_⟩
  · exact isP2wpkh_iff.mp (by decide +kernel)
  · exact Same.sound (p := ryP) (by unfold Same; decide +kernel) (zSound _ (by decide))
-- The hypotheses of `C110_finalize_retry_partial`, for a library that knows key descriptors only.
def ryM : MsLib gL := { V2.FM with parse := fun _ _ => none }
example : ryP.finalizeMut ryM false = .ok (ryQ, [.input .missingPubkey 1]) ∧ Repaired ryP ryQ ryFull ryQ' ∧
    ryFull.finalizeMut ryM false = .ok ((zAll ryFull false).1, []) := ⟨by decide +kernel, ryRepaired, by decide +kernel⟩
example : (∀ n t i u, HasInput ryP n t i → FundedBy t i u → Addressed u.scriptPubkey) ∧ ∀ n, SelfContained ryM ryFull n := by
  refine ⟨fun n t i u hi hu => ?_, fun n t i u hi hu => ⟨fun keys ctx s ms _ h h' => (by cases h'), fun keys cb s ver ms _ h => ?_⟩⟩
  · have h : ∀ i ∈ ryP.inputs, i.witnessUtxo = some ⟨1000, V2.fSpk⟩ := by decide
    have h := h i (List.mem_of_getElem? hi.2)
    cases hu with
    | witness h' => cases h'.symm.trans h; exact .inr (.inl (isP2wpkh_iff.mp (by decide +kernel)))
    | nonWitness h' => cases h'.symm.trans h
  · have : ∀ i ∈ ryFull.inputs, i.tapScripts.l = [] := by decide
    rw [this i (List.mem_of_getElem? hi.2)] at h
    cases h

-- Combining: the second of the other's three extended keys conflicts; the first has been merged when that is noticed. Without the
-- second, combining succeeds.
def ryX (b : UInt8) : DL.xpub.T := Demo.val 78 (by decide) b
def ryC : Psbt DL := { cXP 1 [1] with version := 1 }
def ryOther : Psbt DL := { cXP 1 [2] with
  version := 3
  xpub := ((BMap.empty.insert cX (Demo.rep 4 1, [2])).insert (ryX 1) (Demo.rep 4 1, [2])).insert (ryX 9) (Demo.rep 4 1, [5])
  unknown := BMap.empty.insert ⟨0x30, [1]⟩ [7] }
def ryMended : Psbt DL := { ryOther with xpub := (BMap.empty.insert (ryX 1) (Demo.rep 4 1, [2])).insert (ryX 9) (Demo.rep 4 1, [5]) }
example : ∃ c r, ryC.combine ryOther = (c, .error (.err (.combineInconsistentKeySources cX.bytes))) ∧ c.xpub.get (ryX 1) ≠ ryC.xpub.get (ryX 1) ∧
    c.xpub.get (ryX 9) = none ∧ ryOther.version ≤ ryMended.version ∧ ryC.combine ryMended = (r, .ok ()) ∧ r.xpub.get (ryX 9) ≠ none ∧
    Mended ryC.xpub ryOther.xpub ryMended.xpub := by
  refine ⟨_, _, Prod.ext rfl (by decide +kernel), by decide +kernel, by decide +kernel, by decide, Prod.ext rfl (by decide +kernel),
    by decide +kernel, fun x t h hm => ?_⟩
  have hm := hm
  have : (x, t) ∈ ryOther.xpub.l := BMap.mem_iff_get.mpr h
  have e : ryOther.xpub.l = [(ryX 1, Demo.rep 4 1, [2]), (cX, Demo.rep 4 1, [2]), (ryX 9, Demo.rep 4 1, [5])] := by decide +kernel
  rw [e] at this
  simp only [List.mem_cons, Prod.mk.injEq, List.not_mem_nil, or_false] at this
  rcases this with ⟨rfl, rfl⟩ | ⟨rfl, rfl⟩ | ⟨rfl, rfl⟩
  · decide +kernel
  · have := hm (Demo.rep 4 1, [1]) (by decide +kernel)
    exact absurd this (by unfold Mergeable; decide)
  · decide +kernel
example : ∃ c, (({ V2.cG with xpubs := ryC.xpub } : V2.Global DL).combineMut { V2.cG with xpubs := ryOther.xpub }) =
    (c, .error (.err (.inconsistentKeySources cX))) ∧ c.xpubs.get (ryX 1) ≠ none := ⟨_, Prod.ext rfl (by rfl), by decide +kernel⟩
example : ∃ r, ({ V2.cG with xpubs := ryC.xpub } : V2.Global DL).combineMut { V2.cG with xpubs := ryMended.xpub } = (r, .ok ()) :=
  ⟨_, Prod.ext rfl (by rfl)⟩

end V0
end Psbt
