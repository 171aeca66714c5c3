/- C50: signing PSBT v0. -/
import Verif.Lemmas.V0Sign
import Verif.Spec.DemoSig
namespace Psbt.V0
open Psbt

variable {L : Lib} {S : SigLib L}

/-- All there is to know about a run that ends. -/
theorem sign_spec {p q : Psbt L} {k : Provider S} {r} (h : p.sign S k = .ok (q, r)) :
    Spec.V0.erase q = Spec.V0.erase p ∧
    (∀ n < p.inputs.length, ∀ m, outcome S k p.unsignedTx p n ≠ .panic m) ∧
    (r = if (Spec.V0.errorsReported r).isEmpty then .ok (Spec.V0.keysReported r)
      else .error (Spec.V0.keysReported r, Spec.V0.errorsReported r)) ∧
    ∀ n, if n < p.inputs.length then
        q.inputs[n]? = (outcome S k p.unsignedTx p n).input (p.inputs[n]?) ∧
        (Spec.V0.keysReported r).get n = (outcome S k p.unsignedTx p n).used ∧
        (Spec.V0.errorsReported r).get n = (outcome S k p.unsignedTx p n).err
      else (Spec.V0.keysReported r).get n = none ∧ (Spec.V0.errorsReported r).get n = none := by
  unfold Psbt.sign at h
  rcases signAll_spec (S := S) k p.unsignedTx p (List.range p.inputs.length) List.nodup_range ⟨p, .empty, .empty⟩ rfl (fun _ _ => rfl)
    with ⟨h1, s, h2, h3, h4⟩ | ⟨n, -, m, -, h2⟩
  · rw [h2] at h
    simp only at h
    have hq : q = s.psbt := by cases h; rfl
    have hr : r = if s.errors.isEmpty then .ok s.used else .error (s.used, s.errors) := by cases h; rfl
    have hk : Spec.V0.keysReported r = s.used := by
      rw [hr]; split <;> rfl
    have he : Spec.V0.errorsReported r = s.errors := by
      rw [hr]
      split
      · rename_i he; exact (BMap.isEmpty_iff.mp he).symm
      · rfl
    rw [hk, he, hq]
    refine ⟨h3, fun n hn => h1 n (List.mem_range.mpr hn), hr, fun n => ?_⟩
    obtain ⟨h5, h6, h7⟩ := h4 n
    simp only [List.mem_range] at h5 h6 h7
    split
    · rename_i hn
      rw [if_pos hn] at h5 h6 h7
      refine ⟨h5, h6.trans ?_, h7.trans ?_⟩ <;> simp
    · rename_i hn
      rw [if_neg hn] at h6 h7
      exact ⟨h6, h7⟩
  · rw [h2] at h; cases h

/-- C50. Signing changes only signatures: nothing else in the PSBT. -/
theorem C50_frame {p q : Psbt L} {k : Provider S} {r} (h : p.sign S k = .ok (q, r)) : Spec.V0.erase q = Spec.V0.erase p :=
  (sign_spec h).1

/-- C50. Every input is reported, either with keys or with an error, and nothing else is; signing succeeds exactly if no
error is reported. -/
theorem C50_reports {p q : Psbt L} {k : Provider S} {r} (h : p.sign S k = .ok (q, r)) (n : Nat) :
    (n < p.inputs.length ↔ (∃ keys, (Spec.V0.keysReported r).get n = some keys) ∨ ∃ e, (Spec.V0.errorsReported r).get n = some e) ∧
    ¬ ((∃ keys, (Spec.V0.keysReported r).get n = some keys) ∧ ∃ e, (Spec.V0.errorsReported r).get n = some e) ∧
    ((∃ used, r = .ok used) ↔ ∀ j, (Spec.V0.errorsReported r).get j = none) := by
  obtain ⟨-, h1, h2, h3⟩ := sign_spec h
  have h4 := h3 n
  refine ⟨?_, ?_, ?_⟩
  · split at h4
    · rename_i hn
      have := h1 n hn
      rw [h4.2.1, h4.2.2]
      cases e : outcome S k p.unsignedTx p n with
      | panic m => exact absurd e (this m)
      | fail e => simp [Outcome.err, hn]
      | signed i keys => simp [Outcome.used, hn]
    · rename_i hn
      rw [h4.1, h4.2]
      simp [hn]
  · split at h4
    · rw [h4.2.1, h4.2.2]
      cases outcome S k p.unsignedTx p n <;> simp [Outcome.err, Outcome.used]
    · rw [h4.1]
      simp
  · constructor
    · rintro ⟨u, rfl⟩ j; rfl
    · intro he
      rw [h2, if_pos]
      · exact ⟨_, rfl⟩
      · rw [BMap.isEmpty_iff]; exact BMap.ext_get he

/-- C50. An input that is reported with an error is unchanged. -/
theorem C50_failed_unchanged {p q : Psbt L} {k : Provider S} {r} (h : p.sign S k = .ok (q, r)) {n : Nat} {e : SignErr}
    (he : (Spec.V0.errorsReported r).get n = some e) : q.inputs[n]? = p.inputs[n]? := by
  obtain ⟨-, -, -, h3⟩ := sign_spec h
  have h4 := h3 n
  split at h4
  · rw [h4.2.2] at he
    rw [h4.1]
    cases e' : outcome S k p.unsignedTx p n with
    | panic m => rfl
    | fail e => rfl
    | signed i keys => rw [e'] at he; cases he
  · rw [h4.2] at he; cases he

theorem signingAlgorithm_of {p : Psbt L} {n : Nat} {ty : OutputType} {t : TxIn} {i : Input L} {u : TxOut}
    (h1 : Spec.V0.HasInput p n t i) (h2 : Spec.V0.FundedBy t i u) (h3 : Spec.SpendType u.scriptPubkey i.redeemScript ty) :
    p.signingAlgorithm n = .ok ty.signingAlgorithm := by
  unfold Psbt.signingAlgorithm
  rw [(outputType_iff p n ty).mpr ⟨t, i, u, h1, h2, h3⟩]
  rfl

theorem signingAlgorithm_err {p : Psbt L} {n : Nat} {e : Fail SignErr} (h : p.signingAlgorithm n = .error e) :
    ¬ Spec.V0.SpendsEcdsa p n ∧ ¬ Spec.V0.SpendsTaproot p n := by
  constructor
  · rintro ⟨t, i, u, ty, h1, h2, h3, -⟩
    rw [signingAlgorithm_of h1 h2 h3] at h; cases h
  · rintro ⟨t, i, u, h1, h2, h3⟩
    rw [signingAlgorithm_of h1 h2 (.tr h3)] at h; cases h

/-- C50. An input that is not known to be spent with ECDSA or taproot signatures (it is not funded, or its script is of an
unknown type) is reported with an error. -/
theorem C50_unknown {p q : Psbt L} {k : Provider S} {r} (h : p.sign S k = .ok (q, r)) {n : Nat} (hn : n < p.inputs.length)
    (h1 : ¬ Spec.V0.SpendsEcdsa p n) (h2 : ¬ Spec.V0.SpendsTaproot p n) : ∃ e, (Spec.V0.errorsReported r).get n = some e := by
  obtain ⟨-, hp, -, h3⟩ := sign_spec h
  have h4 := h3 n
  rw [if_pos hn] at h4
  rw [h4.2.2]
  have := hp n hn
  unfold outcome at this ⊢
  cases ha : p.signingAlgorithm n with
  | error e =>
    rw [ha] at this
    cases e with
    | panic s => exact absurd rfl (this s)
    | err e => exact ⟨e, rfl⟩
  | ok a =>
    exfalso
    unfold Psbt.signingAlgorithm at ha
    rw [bind_ok] at ha
    obtain ⟨ty, ho, -⟩ := ha
    obtain ⟨t, i, u, hi, hu, hs⟩ := (outputType_iff _ n ty).mp ho
    by_cases hty : ty = .tr
    · subst hty; cases hs with | tr hs => exact h2 ⟨t, i, u, hi, hu, hs⟩
    · exact h1 ⟨t, i, u, ty, hi, hu, hs, hty⟩

/-- C50. What happens to an input spent with ECDSA signatures. If the provider has no key for it: nothing. Otherwise, if
there is a message to sign, it gets one signature of each of these keys on it; if there is none an error is reported. -/
theorem C50_ecdsa {p q : Psbt L} {k : Provider S} {r} (h : p.sign S k = .ok (q, r)) {n : Nat} {t : TxIn} {i : Input L}
    (hi : Spec.V0.HasInput p n t i) (hs : Spec.V0.SpendsEcdsa p n) :
    (Spec.V0.keysFor S k i = [] ∧ q.inputs[n]? = some i ∧ (Spec.V0.keysReported r).get n = some (.ecdsa [])) ∨
    (Spec.V0.keysFor S k i ≠ [] ∧
      ((∃ m ty, Spec.V0.Signs p n m ty ∧
          q.inputs[n]? = some { i with partialSigs := Spec.addSigs S m ty (Spec.V0.keysFor S k i) i.partialSigs } ∧
          (Spec.V0.keysReported r).get n = some (.ecdsa ((Spec.V0.keysFor S k i).map S.pub))) ∨
       ((∀ m ty, ¬ Spec.V0.Signs p n m ty) ∧ q.inputs[n]? = some i ∧ ∃ e, (Spec.V0.errorsReported r).get n = some e))) := by
  obtain ⟨-, hp, -, h3⟩ := sign_spec h
  have hn := (List.getElem?_eq_some_iff.mp hi.2).1
  have h4 := h3 n
  rw [if_pos hn] at h4
  have hnp := hp n hn
  obtain ⟨t', i', u, ty, h1, h2, h5, h6⟩ := hs
  obtain ⟨rfl, rfl⟩ := hasInput_unique h1 hi
  have ha : p.signingAlgorithm n = .ok .ecdsa := by
    rw [signingAlgorithm_of h1 h2 h5]; cases ty <;> first | rfl | exact absurd rfl h6
  obtain ⟨h7, h8, h9⟩ := h4
  rw [h7, h8, h9]
  unfold outcome at hnp ⊢
  simp only [ha, hi.2] at hnp ⊢
  cases hsig : p.sighashEcdsa n p.unsignedTx with
  | error e =>
    cases e with
    | panic s => rw [hsig] at hnp; exact absurd rfl (hnp s)
    | err e =>
      have hno : ∀ m ty, ¬ Spec.V0.Signs p n m ty := by
        rintro m ty ⟨t', i', u', g1, g2, g3, g4⟩
        have := (sighashEcdsa_iff p n p.unsignedTx m ty).mpr ⟨t', i', u', g1, g2, g3, g4⟩
        rw [hsig] at this; cases this
      simp only
      by_cases hk : Spec.V0.keysFor S k i' = []
      · simp only [hk, List.isEmpty_nil, if_true]
        exact .inl ⟨trivial, rfl, rfl⟩
      · rw [if_neg (by simpa using hk)]
        exact .inr ⟨hk, .inr ⟨hno, rfl, e, rfl⟩⟩
  | ok mt =>
    obtain ⟨m, ty⟩ := mt
    have := (sighashEcdsa_iff p n p.unsignedTx m ty).mp hsig
    simp only
    by_cases hk : Spec.V0.keysFor S k i' = []
    · simp only [hk]
      exact .inl ⟨trivial, rfl, rfl⟩
    · exact .inr ⟨hk, .inl ⟨m, ty, this, rfl, rfl⟩⟩

theorem keyPathKey_some {k : Provider S} {i : Input L} {sk : S.SK} :
    Spec.V0.keyPathKey S k i = some sk ↔
      ∃ x lhs ks, (x, lhs, ks) ∈ i.tapKeyOrigins.l ∧ keyDue i x lhs i.tapKeySig ∧ Spec.answer (k (.bip32 ks)) = some sk := by
  unfold Spec.V0.keyPathKey keyDue
  constructor
  · intro h
    split at h
    · rename_i x h1 h2
      split at h
      · rename_i ks h3; exact ⟨x, [], ks, BMap.mem_iff_get.mpr h3, ⟨h2, rfl, h1⟩, h⟩
      · cases h
    · cases h
  · rintro ⟨x, lhs, ks, h1, ⟨h2, rfl, h3⟩, h4⟩
    rw [h2, h3]
    simp only
    rw [BMap.mem_iff_get.mp h1]
    exact h4

theorem leafKey_some {k : Provider S} {i : Input L} {x : L.xonly.T} {lh : Hash32} {sk : S.SK} :
    Spec.V0.leafKey S k i x lh = some sk ↔
      ∃ lhs ks, (x, lhs, ks) ∈ i.tapKeyOrigins.l ∧ lh ∈ lhs ∧ i.tapScriptSigs.get (x, lh) = none ∧ Spec.answer (k (.bip32 ks)) = some sk := by
  unfold Spec.V0.leafKey
  constructor
  · intro h
    split at h
    · rename_i lhs ks h1 h2
      split at h
      · rename_i h3; exact ⟨lhs, ks, BMap.mem_iff_get.mpr h2, h3, h1, h⟩
      · cases h
    · cases h
  · rintro ⟨lhs, ks, h1, h2, h3, h4⟩
    rw [h3, BMap.mem_iff_get.mp h1]
    simp only
    rw [if_pos h2]
    exact h4

theorem due_iff {k : Provider S} {i : Input L} {leaf : Option Hash32} :
    Due k i i.tapKeyOrigins.l i.tapKeySig i.tapScriptSigs leaf ↔ Spec.V0.Needs S k i leaf := by
  unfold Due Spec.V0.Needs
  simp only [Option.isSome_iff_exists, keyPathKey_some, leafKey_some]
  constructor
  · rintro ⟨x, lhs, ks, sk, h1, h2, ⟨h3, h4⟩ | ⟨lh, h3, h4, h5⟩⟩
    · exact .inl ⟨h3, sk, x, lhs, ks, h1, h4, h2⟩
    · exact .inr ⟨x, lh, h3, sk, lhs, ks, h1, h4, h5, h2⟩
  · rintro (⟨h3, sk, x, lhs, ks, h1, h4, h2⟩ | ⟨x, lh, h3, sk, lhs, ks, h1, h4, h5, h2⟩)
    · exact ⟨x, lhs, ks, sk, h1, h2, .inl ⟨h3, h4⟩⟩
    · exact ⟨x, lhs, ks, sk, h1, h2, .inr ⟨lh, h3, h4, h5⟩⟩

theorem used_eq (k : Provider S) (i : Input L) :
    i.tapKeyOrigins.l.flatMap (usedFor k i i.tapKeySig i.tapScriptSigs) = Spec.V0.tapKeysUsed S k i := by
  unfold Spec.V0.tapKeysUsed
  simp only [List.flatMap_def]
  congr 1
  apply List.map_congr_left
  rintro ⟨x, lhs, ks⟩ hm
  unfold usedFor
  cases ha : Spec.answer (k (.bip32 ks)) with
  | none => simp only [ha]
  | some sk =>
    simp only [ha]
    congr 1
    · by_cases hd : keyDue i x lhs i.tapKeySig
      · rw [if_pos hd, if_pos]
        exact ⟨Option.isSome_iff_exists.mpr ⟨sk, keyPathKey_some.mpr ⟨x, lhs, ks, hm, hd, ha⟩⟩, hd.1⟩
      · rw [if_neg hd, if_neg]
        rintro ⟨h1, h2⟩
        obtain ⟨sk', h1⟩ := Option.isSome_iff_exists.mp h1
        obtain ⟨y, l, s, g1, g2, -⟩ := keyPathKey_some.mp h1
        have : x = y := Option.some.inj (h2.symm.trans g2.1)
        subst this
        rw [BMap.mem_iff_get] at g1 hm
        rw [hm] at g1
        cases g1
        exact hd g2
    · have : (lhs.any fun lh => (Spec.V0.leafKey S k i x lh).isSome) = true ↔ leavesDue x lhs i.tapScriptSigs ≠ [] := by
        rw [List.any_eq_true]
        constructor
        · rintro ⟨lh, h1, h2⟩ hc
          obtain ⟨sk', h2⟩ := Option.isSome_iff_exists.mp h2
          obtain ⟨l, s, g1, g2, g3, -⟩ := leafKey_some.mp h2
          have : lh ∈ leavesDue x lhs i.tapScriptSigs := mem_leavesDue.mpr ⟨h1, g3⟩
          rw [hc] at this; simp at this
        · intro hc
          obtain ⟨lh, hl⟩ := List.exists_mem_of_ne_nil _ hc
          obtain ⟨h1, h2⟩ := mem_leavesDue.mp hl
          exact ⟨lh, h1, Option.isSome_iff_exists.mpr ⟨sk, leafKey_some.mpr ⟨lhs, ks, hm, h1, h2, ha⟩⟩⟩
      by_cases hl : leavesDue x lhs i.tapScriptSigs = []
      · rw [if_pos hl, if_neg (by rw [this]; simpa using hl)]
      · rw [if_neg hl, if_pos (this.mpr hl)]

theorem sign_inRange {p q : Psbt L} {k : Provider S} {r} (h : p.sign S k = .ok (q, r)) : Spec.V0.IndicesInRange p := by
  rw [indicesInRange_iff]
  intro n t i hi hd
  have ha := signingAlgorithm_panic.mpr ⟨rfl, t, i, hi, hd⟩
  have := (sign_spec h).2.1 n (List.getElem?_eq_some_iff.mp hi.2).1
  unfold outcome at this
  rw [ha] at this
  exact this _ rfl

/-- C50. What happens to an input spent with taproot signatures. If there is a message to sign for the key path and each
leaf where a signature is missing and the provider has the key, it gets these signatures and no others, and keeps
all it had. Otherwise an error is reported and the input is unchanged. -/
theorem C50_schnorr {p q : Psbt L} {k : Provider S} {r} (h : p.sign S k = .ok (q, r)) {n : Nat} {t : TxIn} {i : Input L}
    (hi : Spec.V0.HasInput p n t i) (hs : Spec.V0.SpendsTaproot p n) :
    ((∀ leaf, Spec.V0.Needs S k i leaf → ∃ m ty, Spec.V0.TapSigns p n leaf m ty) ∧
      (∃ j, q.inputs[n]? = some j ∧ Spec.V0.TapSigned S p n k i j) ∧
      (Spec.V0.keysReported r).get n = some (.schnorr (Spec.V0.tapKeysUsed S k i))) ∨
    ((∃ leaf, Spec.V0.Needs S k i leaf ∧ ∀ m ty, ¬ Spec.V0.TapSigns p n leaf m ty) ∧ q.inputs[n]? = some i ∧
      ∃ e, (Spec.V0.errorsReported r).get n = some e) := by
  have hr := sign_inRange h
  obtain ⟨-, hp, -, h3⟩ := sign_spec h
  have hn := (List.getElem?_eq_some_iff.mp hi.2).1
  have h4 := h3 n
  rw [if_pos hn] at h4
  have hnp := hp n hn
  obtain ⟨t', i', u, h1, h2, h5⟩ := hs
  obtain ⟨rfl, rfl⟩ := hasInput_unique h1 hi
  have ha : p.signingAlgorithm n = .ok .schnorr := signingAlgorithm_of h1 h2 (.tr h5)
  obtain ⟨h7, h8, h9⟩ := h4
  rw [h7, h8, h9]
  unfold outcome at hnp ⊢
  simp only [ha, hi.2] at hnp ⊢
  rcases schnorrLoop_spec (S := S) (msg := p.sighashTaproot n p.unsignedTx) k i' i'.tapKeyOrigins.l
    (keys_ne i'.tapKeyOrigins) (fun d hd => BMap.mem_iff_get.mp hd) i'.tapKeySig i'.tapScriptSigs []
    with ⟨sig, sigs, g1, g2⟩ | ⟨leaf, e, g1, g2, g3⟩
  · left
    rw [g1]
    simp only [List.nil_append, used_eq]
    refine ⟨?_, ⟨_, rfl, ?_, ?_, rfl⟩, rfl⟩
    · intro leaf hl
      rw [← due_iff] at hl
      obtain ⟨x, lhs, ks, sk, e1, e2, ⟨rfl, e4⟩ | ⟨lh, rfl, e4, e5⟩⟩ := hl
      · obtain ⟨m, ty, e6, -⟩ := g2.key x lhs ks sk e1 e4 e2
        exact ⟨m, ty, (sighashTaproot_iff hr).mp e6⟩
      · obtain ⟨m, ty, e6, -⟩ := g2.leaf x lh lhs ks sk e1 e4 e5 e2
        exact ⟨m, ty, (sighashTaproot_iff hr).mp e6⟩
    · cases hk : Spec.V0.keyPathKey S k i' with
      | none =>
        simp only
        apply g2.keyNone
        intro x lhs ks sk e1 e2 e3
        have := keyPathKey_some.mpr ⟨x, lhs, ks, e1, e2, e3⟩
        rw [hk] at this; cases this
      | some sk =>
        obtain ⟨x, lhs, ks, e1, e2, e3⟩ := keyPathKey_some.mp hk
        obtain ⟨m, ty, e6, e7⟩ := g2.key x lhs ks sk e1 e2 e3
        exact ⟨m, ty, (sighashTaproot_iff hr).mp e6, e7⟩
    · intro x lh
      cases hk : Spec.V0.leafKey S k i' x lh with
      | none =>
        simp only
        cases hg : i'.tapScriptSigs.get (x, lh) with
        | some g => exact g2.leafKept x lh g hg
        | none =>
          rw [g2.leafNone x lh, hg]
          intro lhs ks sk e1 e2 e3
          have := leafKey_some.mpr ⟨lhs, ks, e1, e2, hg, e3⟩
          rw [hk] at this; cases this
      | some sk =>
        obtain ⟨lhs, ks, e1, e2, e3, e4⟩ := leafKey_some.mp hk
        obtain ⟨m, ty, e6, e7⟩ := g2.leaf x lh lhs ks sk e1 e2 e3 e4
        exact ⟨m, ty, (sighashTaproot_iff hr).mp e6, e7⟩
  · right
    rw [g1] at hnp ⊢
    refine ⟨⟨leaf, due_iff.mp g3, ?_⟩, ?_⟩
    · intro m ty hm
      rw [(sighashTaproot_iff hr).mpr hm] at g2; cases g2
    · cases e with
      | panic s => exact absurd rfl (hnp s)
      | err e => exact ⟨rfl, e, rfl⟩

/-- C50. Signing panics exactly if some non-witness UTXO that is needed lacks the output spent. -/
theorem C50_panics_iff (p : Psbt L) (k : Provider S) : (∃ s, p.sign S k = .error (.panic s)) ↔ ¬ Spec.V0.IndicesInRange p := by
  constructor
  · rintro ⟨s, h⟩ hr
    unfold Psbt.sign at h
    rcases signAll_spec (S := S) k p.unsignedTx p (List.range p.inputs.length) List.nodup_range ⟨p, .empty, .empty⟩ rfl (fun _ _ => rfl)
      with ⟨h1, s', h2, h3, h4⟩ | ⟨n, -, m, h1, h2⟩
    · rw [h2] at h; cases h
    · exact outcome_no_panic hr n m h1
  · intro hr
    cases h : p.sign S k with
    | ok v => exact absurd (sign_inRange h) hr
    | error e =>
      cases e with
      | panic s => exact ⟨s, rfl⟩
      | err e => exact e.elim

/-! ### Cases that meet the hypotheses, and oddities -/

abbrev gL := Demo.lib false
abbrev gS := Demo.sigLib false
/-- An input funded by a witness UTXO with this script. -/
def gIn (spk : Bytes) : Input gL := { Input.default gL with witnessUtxo := some ⟨1000, spk⟩ }
def gOrigin : KeySource := (Demo.rep 4 1, [7])
/-- A public key. -/
def gX (b : UInt8) : gL.xonly.T := Demo.val 32 (by decide) b
/-- A taproot input: the internal key 1, the key 2 with two leaves, one of which is signed. -/
def gTap : Input gL :=
  { gIn V2.spkTr with
    tapInternalKey := some (gX 1)
    tapKeyOrigins := (BMap.empty.insert (gX 1) ([], gOrigin)).insert (gX 2) ([Demo.rep 32 5, Demo.rep 32 6], gOrigin)
    tapScriptSigs := BMap.empty.insert (gX 2, Demo.rep 32 5) ⟨Demo.rep 64 1, ⟨0x00, by decide⟩⟩ }
/-- A PSBT with these input maps and one output. -/
def gP (is : List (Input gL)) : Psbt gL where
  unsignedTx := ⟨2, 0, is.map fun _ => ⟨⟨Demo.rep 32 7, 0⟩, [], 0xFFFFFFFF, []⟩, [⟨500, [0x51]⟩]⟩
  version := 0
  xpub := .empty
  proprietary := .empty
  unknown := .empty
  inputs := is
  outputs := [Output.default gL]
def gEcdsa (i : Input gL) : Input gL := { i with bip32Derivation := BMap.empty.insert (Demo.val 33 (by decide) 5) gOrigin }
/-- Inputs that are signed with ECDSA and for taproot, one whose script is missing, one of unknown type. -/
def gMixed : Psbt gL := gP [gEcdsa (gIn V2.spkWpkh), gTap, gEcdsa (gIn V2.spkWsh), gIn V2.spkUnknown]
def gKeys : Provider gS := getKeyXpriv gS (0, 1)
def gQ (p : Psbt gL) : Psbt gL := match p.sign gS gKeys with | .ok (q, _) => q | _ => p
def gR (p : Psbt gL) : Except (BMap Nat (SigningKeys gL) × BMap Nat SignErr) (BMap Nat (SigningKeys gL)) :=
  match p.sign gS gKeys with | .ok (_, r) => r | _ => .ok .empty

-- The hypothesis of the C50 theorems (signing runs to its end) is met, with a mixed result.
example : gMixed.sign gS gKeys = .ok (gQ gMixed, gR gMixed) := rfl
example : (Spec.V0.keysReported (gR gMixed)).l = [(0, .ecdsa [Demo.val 33 (by decide) 2]), (1, .schnorr [gX 1, gX 2])] ∧
    (Spec.V0.errorsReported (gR gMixed)).l = [(2, .missingWitnessScript), (3, .unknownOutputType)] ∧
    ((gQ gMixed).inputs.map fun i => (i.partialSigs.l.length, i.tapKeySig.isSome, i.tapScriptSigs.l.length)) =
      [(1, false, 0), (0, true, 2), (0, false, 0), (0, false, 0)] := by decide +kernel
example : ∃ u, gR (gP [gTap]) = .ok u ∧ u.l.length = 1 := ⟨_, rfl, by decide +kernel⟩
-- Those of `C50_ecdsa`, `C50_schnorr` and `C50_unknown` are met.
example : Spec.V0.SpendsEcdsa gMixed 0 ∧ Spec.V0.SpendsTaproot gMixed 1 ∧ Spec.V0.HasInput gMixed 0 ⟨⟨Demo.rep 32 7, 0⟩, [], 0xFFFFFFFF, []⟩ (gEcdsa (gIn V2.spkWpkh)) ∧
    Spec.V0.Needs gS gKeys gTap none ∧ Spec.V0.Needs gS gKeys gTap (some (Demo.rep 32 6)) :=
  ⟨⟨_, _, _, .wpkh, ⟨rfl, rfl⟩, .witness rfl, outputTypeOf_iff.mp (by decide +kernel), by decide⟩,
    ⟨_, _, _, ⟨rfl, rfl⟩, .witness rfl, ⟨Demo.rep 32 9, rfl⟩⟩, ⟨rfl, rfl⟩, .inl ⟨rfl, by decide +kernel⟩,
    .inr ⟨gX 2, Demo.rep 32 6, rfl, by decide +kernel⟩⟩
example : ¬ Spec.V0.SpendsEcdsa gMixed 3 ∧ ¬ Spec.V0.SpendsTaproot gMixed 3 :=
  signingAlgorithm_err (e := .err .unknownOutputType) (by decide +kernel)
-- A taproot input that fails, since the output spent by another input is not known: it stays as it is.
example : (Spec.V0.errorsReported (gR (gP [gTap, cI]))).l = [(0, .missingSpendUtxo), (1, .missingSpendUtxo)] ∧
    gQ (gP [gTap, cI]) = gP [gTap, cI] := by decide +kernel

/-- C50, an oddity: a PSBT whose non-witness UTXO lacks the output spent makes signing panic. -/
theorem C50_panic_counterexample : ∃ (p : Psbt gL) (k : Provider gS) (s : String), p.sign gS k = .error (.panic s) :=
  ⟨gP [{ Input.default gL with nonWitnessUtxo := some ⟨2, 0, [], []⟩ }], gKeys, "index out of bounds", by decide +kernel⟩

/-- C50, another oddity: what is stored under a public key may be a signature of another key, since nobody compares the
provider's key with the public key it was asked for. Here a leaf is signed for the public key 3 with the key 2. -/
theorem C50_other_key_counterexample : ∃ (p q : Psbt gL) (u : BMap Nat (SigningKeys gL)) (j : Input gL) (m : Hash32) (sk : gS.SK),
    p.sign gS gKeys = .ok (q, .ok u) ∧ q.inputs = [j] ∧
    j.tapScriptSigs.get (gX 3, Demo.rep 32 5) = some ⟨gS.signSchnorr m (gS.keypair sk), ⟨0x00, by decide⟩⟩ ∧
    gS.xonly (gS.pub sk) ≠ gX 3 :=
  ⟨gP [{ gIn V2.spkTr with tapKeyOrigins := BMap.empty.insert (gX 3) ([Demo.rep 32 5], gOrigin) }], _, _, _, _, (2 : UInt8), rfl, rfl, rfl,
    by decide +kernel⟩

end Psbt.V0
