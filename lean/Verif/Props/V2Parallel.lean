/- C77, C78: several signers of one PSBT v2, in turn or in parallel with a combiner. -/
import Verif.Lemmas.Parallel
import Verif.Props.V2Combine
namespace Psbt.V2
open Psbt

variable {L : Lib} {S : SigLib L}

/-! ### C77: signing copies and combining them is signing in turn -/

/-- C77. What a signer reports does not depend on whether another signer signed before: who signs after `ka` gets the very
report, keys used and errors, that signing the original gives; and it never panics because of the earlier signer. -/
theorem C77_report {p a b : Psbt L} {tx : Tx} {ka kb : Provider S} {ra rb} (ha : p.sign S tx ka = .ok (a, ra))
    (hb : p.sign S tx kb = .ok (b, rb)) : ∃ ab, a.sign S tx kb = .ok (ab, rb) :=
  sign_congr (C33_frame ha) hb

theorem combine_erased {p a b : Psbt L} (ha : Spec.erase a = Spec.erase p) (hb : Spec.erase b = Spec.erase p) :
    ∃ c, a.combine b = .ok c ∧ Spec.erase c = Spec.erase p ∧ c.global.txModifiableFlags = a.global.txModifiableFlags ∧
      ∀ (n : Nat) (i j : Input L), a.inputs[n]? = some i → b.inputs[n]? = some j →
        c.inputs[n]? = some { i with partialSigs := i.partialSigs.extend j.partialSigs } := by
  have hab : Spec.erase a = Spec.erase b := ha.trans hb.symm
  have hg : { a.global with txModifiableFlags := 0 } = { b.global with txModifiableFlags := 0 } := by
    have := congrArg (fun q : Psbt L => q.global) hab
    exact this
  have hl := length_congr hab
  let f : Input L × Input L → Input L := fun x => { x.1 with partialSigs := x.1.partialSigs.extend x.2.partialSigs }
  have merge_eq : ∀ i j : Input L, eraseI i = eraseI j → i.combine j = .ok (f (i, j)) := by
    intro i j h
    have e : j = { i with partialSigs := j.partialSigs } := by
      have h' : { (eraseI i) with partialSigs := j.partialSigs } = { (eraseI j) with partialSigs := j.partialSigs } := by rw [h]
      exact h'.symm
    refine inputCombine_ok.mpr ⟨by rw [e], by rw [e], ?_⟩
    conv => rhs; rw [e]
    have := Input.merge_self i
    show f (i, j) = _
    conv => lhs; simp only [f]; rw [← this]
    simp only [Input.merge, combOpt_self, combUtxos_self, BMap.extend_self]
  refine ⟨⟨a.global, (a.inputs.zip b.inputs).map f, a.outputs⟩, combine_ok.mpr ⟨?_, ?_, ?_⟩, ?_, rfl, ?_⟩
  · simp only [Global.mk.injEq, true_and] at hg
    obtain ⟨h1, h2, -, -, -, hx, h3, h4, h5, h6⟩ := hg
    refine globalCombine_ok.mpr ⟨h1, h2, fun x => by rw [hx]; exact mergeOpt_self _, ?_⟩
    rw [← h3, ← h4, ← h5, ← h6]
    simp only [BMap.extend_self]
  · refine combineZip_ok.mpr ⟨by simp [hl], fun n i c hi hc => ⟨fun j hj => ?_, fun hj => ?_⟩⟩
    · simp only [List.getElem?_map, (List.getElem?_zip_eq_some (z := (i, j))).mpr ⟨hi, hj⟩, Option.map_some, Option.some.injEq] at hc
      subst hc
      apply merge_eq
      have := inputs_congr hab n
      rw [hi, hj] at this
      simpa using this
    · have h1 := (List.getElem?_eq_some_iff.mp hi).1
      rw [List.getElem?_eq_none_iff] at hj
      omega
  · rw [← outputs_congr hab]
    exact combineZip_self fun o _ => outputCombine_ok.mpr ⟨rfl, rfl, o.merge_self.symm⟩
  · rw [← ha]
    unfold Spec.erase
    simp only [List.map_map]
    congr 1
    apply List.ext_getElem
    · simp [hl]
    · intro n h1 h2
      simp [f]
  · intro n i j hi hj
    simp only [List.getElem?_map, (List.getElem?_zip_eq_some (z := (i, j))).mpr ⟨hi, hj⟩, Option.map_some, f]

theorem sigs_get (o : Outcome S) (sigs : BMap L.pubkey.T (EcdsaSig L)) (pk : L.pubkey.T) :
    (o.sigs sigs).get pk = ((o.sigs .empty).get pk).or (sigs.get pk) := by
  cases o with
  | signed m ty keys => exact addSigs_get keys sigs pk
  | _ => simp [Outcome.sigs]

theorem sigs_none {k : Provider S} {tx : Tx} {p : Psbt L} {n : Nat} {i : Input L} {m : Hash32} {ty : EcdsaTy}
    (hs : Spec.Signs tx p n i m ty) (pk : L.pubkey.T) :
    ((outcome S k tx p n).sigs .empty).get pk = none ↔ pk ∉ (Spec.keysFor S k i).map S.pub := by
  rw [outcome_signed.mpr ⟨i, hs, rfl⟩]
  exact addSigs_none _ _

theorem sigs_idle {k : Provider S} {tx : Tx} {p : Psbt L} {n : Nat} {i : Input L} (hi : p.inputs[n]? = some i)
    (hs : ¬ ∃ m ty, Spec.Signs tx p n i m ty) : ∀ s, (outcome S k tx p n).sigs s = s := by
  intro s
  cases e : outcome S k tx p n with
  | signed m ty keys =>
    obtain ⟨j, hj, -⟩ := outcome_signed.mp e
    have := hj.1.1
    rw [hi] at this
    cases this
    exact absurd ⟨m, ty, hj⟩ hs
  | _ => rfl

/-- C77. Two signers work on copies of one PSBT and a combiner puts the copies together. That always succeeds, whatever the
signers reported, and it gives what the second signer would have made of the first one's PSBT, with one exception: a
signature of the original that the first signer replaced with a different one, and the second did not. -/
theorem C77_combine_iff {p a b ab : Psbt L} {tx : Tx} {ka kb : Provider S} {ra rb r} (ha : p.sign S tx ka = .ok (a, ra))
    (hb : p.sign S tx kb = .ok (b, rb)) (hab : a.sign S tx kb = .ok (ab, r)) :
    (∃ c, a.combine b = .ok c) ∧
    (a.combine b = .ok ab ↔
      ∀ (n : Nat) (i j : Input L) pk s, p.inputs[n]? = some i → a.inputs[n]? = some j → i.partialSigs.get pk = some s →
        j.partialSigs.get pk = some s ∨ pk ∈ (Spec.keysFor S kb i).map S.pub) := by
  have ea := C33_frame ha
  have eb := C33_frame hb
  have eab := (C33_frame hab).trans ea
  obtain ⟨c, hc, ec, fc, ic⟩ := combine_erased ea eb
  refine ⟨⟨c, hc⟩, ?_⟩
  rw [hc]
  have hcount := count_congr ea
  have look : ∀ (n : Nat) (i : Input L), p.inputs[n]? = some i → n < p.global.inputCount.toNat →
      ab.inputs[n]? = some { i with partialSigs := (outcome S kb tx p n).sigs ((outcome S ka tx p n).sigs i.partialSigs) } ∧
      c.inputs[n]? = some { i with partialSigs :=
        ((outcome S ka tx p n).sigs i.partialSigs).extend ((outcome S kb tx p n).sigs i.partialSigs) } ∧
      a.inputs[n]? = some { i with partialSigs := (outcome S ka tx p n).sigs i.partialSigs } := by
    intro n i hi hn
    have h1 := sign_input ha n
    have h2 := sign_input hb n
    have h3 := sign_input hab n
    simp only [hi, Option.map_some, hn, if_true] at h1 h2
    simp only [h1, Option.map_some, hcount, hn, if_true, outcome_congr ea] at h3
    exact ⟨h3, ic n _ _ h1 h2, h1⟩
  have look' : ∀ (n : Nat) (i : Input L), p.inputs[n]? = some i → ¬ n < p.global.inputCount.toNat →
      ab.inputs[n]? = some i ∧ c.inputs[n]? = some i ∧ a.inputs[n]? = some i := by
    intro n i hi hn
    have h1 := sign_input ha n
    have h2 := sign_input hb n
    have h3 := sign_input hab n
    simp only [hi, Option.map_some, hn, if_false] at h1 h2
    simp only [h1, Option.map_some, hcount, hn, if_false] at h3
    refine ⟨h3, ?_, h1⟩
    rw [ic n _ _ h1 h2, BMap.extend_self]
  constructor
  · intro e n i j pk s hi hj hg
    have e : c = ab := Except.ok.inj e
    subst e
    by_cases hn : n < p.global.inputCount.toNat
    · obtain ⟨h1, h2, h3⟩ := look n i hi hn
      rw [h1] at h2
      rw [hj] at h3
      have h2 := congrArg (fun o : Option (Input L) => o.map fun i => i.partialSigs.get pk) h2
      simp only [Option.map_some, Option.some.injEq, BMap.get_extend] at h2
      rw [sigs_get (outcome S kb tx p n), sigs_get (outcome S kb tx p n) i.partialSigs, hg] at h2
      by_cases hs : ∃ m ty, Spec.Signs tx p n i m ty
      · obtain ⟨m, ty, hs⟩ := hs
        cases e : ((outcome S kb tx p n).sigs .empty).get pk with
        | none =>
          rw [e] at h2
          simp only [Option.none_or, Option.some_or] at h2
          cases h3
          exact .inl h2
        | some x =>
          right
          by_cases hm : pk ∈ (Spec.keysFor S kb i).map S.pub
          · exact hm
          · rw [(sigs_none hs pk).mpr hm] at e; cases e
      · rw [sigs_idle hi hs] at h3
        cases h3
        exact .inl hg
    · obtain ⟨-, -, h3⟩ := look' n i hi hn
      rw [hj] at h3; cases h3
      exact .inl hg
  · intro h
    refine congrArg _ (psbt_ext (ec.trans eab.symm) (fc.trans (flags_again ha hab).symm) ?_)
    apply List.ext_getElem?
    intro n
    cases hi : p.inputs[n]? with
    | none =>
      have : ∀ x : Psbt L, Spec.erase x = Spec.erase p → x.inputs[n]? = none := by
        intro x hx
        rw [List.getElem?_eq_none_iff, length_congr hx, ← List.getElem?_eq_none_iff]; exact hi
      rw [this c ec, this ab eab]
    | some i =>
      by_cases hn : n < p.global.inputCount.toNat
      · obtain ⟨h1, h2, h3⟩ := look n i hi hn
        rw [h1, h2]
        congr 2
        apply BMap.ext_get
        intro pk
        have := fun j => h n i j pk
        rw [BMap.get_extend, sigs_get (outcome S kb tx p n), sigs_get (outcome S kb tx p n) ((outcome S ka tx p n).sigs _)]
        cases e : ((outcome S kb tx p n).sigs .empty).get pk with
        | some x => simp
        | none =>
          simp only [Option.none_or]
          cases hg : i.partialSigs.get pk with
          | none => simp
          | some s =>
            simp only [Option.some_or]
            rcases this _ s hi h3 hg with h4 | h4
            · exact h4.symm
            · by_cases hs : ∃ m ty, Spec.Signs tx p n i m ty
              · obtain ⟨m, ty, hs⟩ := hs
                exact absurd h4 ((sigs_none hs pk).mp e)
              · rw [sigs_idle hi hs]; exact hg.symm
      · obtain ⟨h1, h2, -⟩ := look' n i hi hn
        rw [h1, h2]

/-- C77. Where the original carries no signatures yet, the parallel way is always the same as signing in turn. -/
theorem C77_combine_unsigned {p a b ab : Psbt L} {tx : Tx} {ka kb : Provider S} {ra rb r}
    (hp : ∀ i ∈ p.inputs, i.partialSigs = .empty) (ha : p.sign S tx ka = .ok (a, ra))
    (hb : p.sign S tx kb = .ok (b, rb)) (hab : a.sign S tx kb = .ok (ab, r)) : a.combine b = .ok ab := by
  refine (C77_combine_iff ha hb hab).2.mpr fun n i j pk s hi _ hg => ?_
  rw [hp i (List.mem_of_getElem? hi)] at hg
  cases hg

/-- C77. The order of two signers does not matter, provided private keys with the same public key sign alike. -/
theorem C77_order (hd : Spec.Deterministic S) {p a b ab ba : Psbt L} {tx : Tx} {ka kb : Provider S} {ra rb r r'}
    (ha : p.sign S tx ka = .ok (a, ra)) (hb : p.sign S tx kb = .ok (b, rb)) (hab : a.sign S tx kb = .ok (ab, r))
    (hba : b.sign S tx ka = .ok (ba, r')) : ab = ba := by
  have ea := C33_frame ha
  have eb := C33_frame hb
  have eab := (C33_frame hab).trans ea
  have eba := (C33_frame hba).trans eb
  refine psbt_ext (eab.trans eba.symm) ?_ ?_
  · rw [flags_again ha hab, flags_again hb hba, flags_eq ha hb]
  · apply List.ext_getElem?
    intro n
    rw [sign_input hab, sign_input hba, sign_input ha, sign_input hb, count_congr ea, count_congr eb, outcome_congr ea,
      outcome_congr eb]
    cases hi : p.inputs[n]? with
    | none => rfl
    | some i =>
      simp only [Option.map_some, Option.some.injEq]
      by_cases hn : n < p.global.inputCount.toNat
      · simp only [hn, if_true]
        congr 1
        apply BMap.ext_get
        intro pk
        rw [sigs_get, sigs_get _ i.partialSigs, sigs_get _ (Outcome.sigs i.partialSigs _), sigs_get _ i.partialSigs]
        by_cases hs : ∃ m ty, Spec.Signs tx p n i m ty
        · obtain ⟨m, ty, hs⟩ := hs
          rw [outcome_signed.mpr ⟨i, hs, rfl⟩, outcome_signed.mpr ⟨i, hs, rfl⟩]
          simp only [Outcome.sigs]
          by_cases h1 : pk ∈ (Spec.keysFor S ka i).map S.pub
          · obtain ⟨s1, -, e1, g1⟩ := addSigs_mem (m := m) (ty := ty) _ BMap.empty h1
            by_cases h2 : pk ∈ (Spec.keysFor S kb i).map S.pub
            · obtain ⟨s2, -, e2, g2⟩ := addSigs_mem (m := m) (ty := ty) _ BMap.empty h2
              rw [g1, g2, hd m s1 s2 (e1.trans e2.symm)]
            · rw [(addSigs_none _ _).mpr h2]; simp
          · rw [(addSigs_none _ _).mpr h1]; simp
        · rw [sigs_idle hi hs, sigs_idle hi hs]
      · simp only [hn, if_false]

/-- C77. Any number of signers, in any order, produce the same PSBT. -/
theorem C77_any_order (hd : Spec.Deterministic S) {tx : Tx} {ks ks' : List (Provider S)} (hk : ks.Perm ks') {p q : Psbt L}
    (h : Spec.signInTurn S tx p ks = .ok q) : Spec.signInTurn S tx p ks' = .ok q := by
  induction hk generalizing p with
  | nil => exact h
  | cons k _ ih =>
    simp only [Spec.signInTurn] at h ⊢
    cases e : p.sign S tx k with
    | error x => rw [e] at h; cases h
    | ok x => rw [e] at h; exact ih h
  | swap k k' ks =>
    simp only [Spec.signInTurn] at h ⊢
    cases e : p.sign S tx k' with
    | error x => rw [e] at h; cases h
    | ok x =>
      obtain ⟨a, ra⟩ := x
      rw [e] at h
      simp only at h
      cases e' : a.sign S tx k with
      | error x => rw [e'] at h; cases h
      | ok x =>
        obtain ⟨ab, rb⟩ := x
        rw [e'] at h
        simp only at h
        obtain ⟨b, hb⟩ := sign_congr (C33_frame e).symm e'
        obtain ⟨ba, hba⟩ := sign_congr (C33_frame hb) e
        rw [hb]
        simp only
        rw [hba]
        simp only
        rwa [← C77_order hd e hb e' hba]
  | trans _ _ ih1 ih2 => exact ih2 (ih1 h)

theorem combine_step {p a b ab : Psbt L} {tx : Tx} {kb : Provider S} {rb r} (ea : Spec.erase a = Spec.erase p)
    (ka : Spec.KeepsSignatures p a) (kb' : Spec.KeepsSignatures p b) (hb : p.sign S tx kb = .ok (b, rb))
    (hab : a.sign S tx kb = .ok (ab, r)) (hf : ab.global.txModifiableFlags = a.global.txModifiableFlags) :
    a.combine b = .ok ab ∧ Spec.KeepsSignatures p ab := by
  have eb := C33_frame hb
  have eab := (C33_frame hab).trans ea
  obtain ⟨c, hc, ec, fc, ic⟩ := combine_erased ea eb
  have key : ∀ (n : Nat) (i ia ib iab : Input L), p.inputs[n]? = some i → a.inputs[n]? = some ia → b.inputs[n]? = some ib →
      ab.inputs[n]? = some iab → ∀ pk, iab.partialSigs.get pk = (ib.partialSigs.get pk).or (ia.partialSigs.get pk) := by
    intro n i ia ib iab hi hia hib hiab pk
    have h2 := sign_input hb n
    have h3 := sign_input hab n
    rw [hib, hi, Option.map_some, Option.some.injEq] at h2
    rw [hiab, hia, Option.map_some, Option.some.injEq, count_congr ea, outcome_congr ea] at h3
    have old := ka n i ia pk
    by_cases hn : n < p.global.inputCount.toNat
    · simp only [hn, if_true] at h2 h3
      subst h2 h3
      simp only
      rw [sigs_get, sigs_get _ i.partialSigs]
      cases (Outcome.sigs BMap.empty (outcome S kb tx p n)).get pk with
      | some x => simp
      | none =>
        simp only [Option.none_or]
        cases hg : i.partialSigs.get pk with
        | none => simp
        | some s => rw [old s hi hia hg]; simp
    · simp only [hn, if_false] at h2 h3
      subst h2 h3
      cases hg : ib.partialSigs.get pk with
      | none => simp
      | some s => rw [old s hi hia hg]; simp
  have all : ∀ x : Psbt L, Spec.erase x = Spec.erase p → ∀ (n : Nat) (i : Input L), p.inputs[n]? = some i →
      ∃ j, x.inputs[n]? = some j := by
    intro x hx n i hi
    have := length_congr hx
    exact ⟨_, List.getElem?_eq_getElem (by rw [this]; exact (List.getElem?_eq_some_iff.mp hi).1)⟩
  refine ⟨?_, ?_⟩
  · rw [hc]
    refine congrArg _ (psbt_ext (ec.trans eab.symm) (fc.trans hf.symm) ?_)
    apply List.ext_getElem?
    intro n
    cases hi : p.inputs[n]? with
    | none =>
      have : ∀ x : Psbt L, Spec.erase x = Spec.erase p → x.inputs[n]? = none := by
        intro x hx
        rw [List.getElem?_eq_none_iff, length_congr hx, ← List.getElem?_eq_none_iff]; exact hi
      rw [this c ec, this ab eab]
    | some i =>
      obtain ⟨ia, hia⟩ := all a ea n i hi
      obtain ⟨ib, hib⟩ := all b eb n i hi
      obtain ⟨iab, hiab⟩ := all ab eab n i hi
      have k := key n i ia ib iab hi hia hib hiab
      rw [ic n ia ib hia hib, hiab]
      have h3 := sign_input hab n
      rw [hiab, hia, Option.map_some, Option.some.injEq] at h3
      have : iab = { ia with partialSigs := iab.partialSigs } := by rw [h3]; split <;> rfl
      rw [this]
      congr 2
      apply BMap.ext_get
      intro pk
      rw [BMap.get_extend, k pk]
  · intro n i iab pk s hi hiab hg
    obtain ⟨ia, hia⟩ := all a ea n i hi
    obtain ⟨ib, hib⟩ := all b eb n i hi
    rw [key n i ia ib iab hi hia hib hiab pk, kb' n i ib pk s hi hib hg]
    rfl

theorem copies_aux {p q : Psbt L} {tx : Tx} {ks : List (Provider S)} {a p' : Psbt L} {k' : Provider S} {r'}
    (ea : Spec.erase a = Spec.erase p) (ka : Spec.KeepsSignatures p a) (hs : p'.sign S tx k' = .ok (a, r'))
    (hk : ∀ k ∈ ks, ∀ b r, p.sign S tx k = .ok (b, r) → Spec.KeepsSignatures p b)
    (h : Spec.signInTurn S tx a ks = .ok q) : Spec.combineCopies S tx p a ks = some q := by
  induction ks generalizing a p' k' r' with
  | nil => cases h; rfl
  | cons k ks ih =>
    simp only [Spec.signInTurn] at h
    simp only [Spec.combineCopies]
    cases e : a.sign S tx k with
    | error x => rw [e] at h; cases h
    | ok x =>
      obtain ⟨ab, r⟩ := x
      rw [e] at h
      obtain ⟨b, hb⟩ := sign_congr ea.symm e
      obtain ⟨h1, h2⟩ := combine_step ea ka (hk k (by simp) b r hb) hb e (flags_again hs e)
      rw [hb]
      simp only [h1]
      exact ih ((C33_frame e).trans ea) h2 e (fun k hk' => hk k (by simp [hk'])) h

/-- C77. Any number of signers: the first one's copy, combined with the copies of the others one after the other, is what
the signers produce in turn, provided none of them replaces a signature of the original with a different one. -/
theorem C77_copies {p q a : Psbt L} {tx : Tx} {k : Provider S} {ks : List (Provider S)} {r} (ha : p.sign S tx k = .ok (a, r))
    (hk : ∀ k' ∈ k :: ks, ∀ b r, p.sign S tx k' = .ok (b, r) → Spec.KeepsSignatures p b)
    (h : Spec.signInTurn S tx p (k :: ks) = .ok q) : Spec.combineCopies S tx p a ks = some q := by
  simp only [Spec.signInTurn, ha] at h
  exact copies_aux (C33_frame ha) (hk k (by simp) a r ha) ha (fun k' h' => hk k' (by simp [h'])) h

/-- C77, for the public entry point: copies of a PSBT given to two Signers and then to the Combiner. If both succeed, the
second one also succeeds on the first one's PSBT, with the same keys; and, for a PSBT without earlier signatures, combining
the two copies, in either order, gives that same PSBT. -/
theorem C77_signer (hd : Spec.Deterministic S) {p a b : Psbt L} {ka kb : Provider S} {ua ub}
    (ha : Signer.sign S p ka = .ok (a, ua)) (hb : Signer.sign S p kb = .ok (b, ub)) :
    ∃ ab, Signer.sign S a kb = .ok (ab, ub) ∧ Signer.sign S b ka = .ok (ab, ua) ∧
      ((∀ i ∈ p.inputs, i.partialSigs = .empty) → a.combine b = .ok ab ∧ b.combine a = .ok ab) := by
  obtain ⟨tx, ht, ha⟩ := signer_sign_iff.mp ha
  obtain ⟨tx', ht', hb⟩ := signer_sign_iff.mp hb
  rw [ht] at ht'
  cases ht'
  obtain ⟨ab, hab⟩ := C77_report ha hb
  obtain ⟨ba, hba⟩ := C77_report hb ha
  have := C77_order hd ha hb hab hba
  subst this
  refine ⟨ab, signer_sign_iff.mpr ⟨tx, (C33_same_transaction ha).1.trans ht, hab⟩,
    signer_sign_iff.mpr ⟨tx, (C33_same_transaction hb).1.trans ht, hba⟩, fun hp => ?_⟩
  exact ⟨C77_combine_unsigned hp ha hb hab, C77_combine_unsigned hp hb ha hba⟩

/-! Cases that meet the hypotheses. -/

/-- A second key origin. -/
def paOrigin : BMap SL.secpPk.T KeySource := sOrigin.insert (Demo.val 33 (by decide) 6) (Demo.rep 4 3, [7])
/-- A PSBT with an input both signers have a key for and one, of another type, that only the first has a key for. -/
def paP : Psbt SL := sFlags 0x03 (sP [
  { sIn spkWpkh with bip32Derivations := paOrigin },
  { sIn spkBare with bip32Derivations := sOrigin, sighashType := some 0x83 }])
/-- The second signer. -/
def paKeys : Provider SS := getKeyXpriv SS (0, 3)
def paSigned (k : Provider SS) (p : Psbt SL) : Psbt SL := match p.sign SS (sTx paP) k with | .ok (q, _) => q | _ => p
def paCombined (p q : Psbt SL) : Psbt SL := match p.combine q with | .ok r => r | _ => p

theorem demo_deterministic : Spec.Deterministic SS := by
  intro m sk sk' h
  have : ∀ a b : UInt8, (Demo.val 33 (by decide) a : SL.pubkey.T) = Demo.val 33 (by decide) b → a = b := by
    intro a b h
    have := congrArg (fun x : SL.pubkey.T => x.bytes[0]?) h
    simpa [Demo.val] using this
  rw [this sk sk' h]

example : ∃ ra rb rab, paP.sign SS (sTx paP) sKeys = .ok (paSigned sKeys paP, .ok ra) ∧
    paP.sign SS (sTx paP) paKeys = .ok (paSigned paKeys paP, .ok rb) ∧
    (paSigned sKeys paP).sign SS (sTx paP) paKeys = .ok (paSigned paKeys (paSigned sKeys paP), .ok rab) ∧
    ((paSigned sKeys paP).inputs.map fun i => i.partialSigs.l.length) = [1, 1] ∧
    ((paSigned paKeys paP).inputs.map fun i => i.partialSigs.l.length) = [1, 0] ∧
    ((paSigned paKeys (paSigned sKeys paP)).inputs.map fun i => i.partialSigs.l.length) = [2, 1] ∧
    (∀ i ∈ paP.inputs, i.partialSigs = .empty) ∧ (paSigned sKeys paP).global.txModifiableFlags = 0x04 :=
  ⟨_, _, _, rfl, rfl, rfl, by decide +kernel, by decide +kernel, by decide +kernel, by decide +kernel, by decide +kernel⟩
example : Spec.signInTurn SS (sTx paP) paP [sKeys, paKeys, sKeys] = .ok (paSigned paKeys (paSigned sKeys paP)) := by decide +kernel
example : ∃ a b ua ub, Signer.sign SS paP sKeys = .ok (a, ua) ∧ Signer.sign SS paP paKeys = .ok (b, ub) :=
  ⟨_, _, _, _, rfl, rfl⟩

/-- C77 fails without the exception: the first signer replaces an outdated signature of its key; combining with the copy of
the second signer, who only carries the outdated one along, brings it back. -/
theorem C77_stale_counterexample : ∃ (p a b ab : Psbt SL) (tx : Tx) (ka kb : Provider SS) (ua ub u : BMap Nat (List SL.pubkey.T)),
    p.sign SS tx ka = .ok (a, .ok ua) ∧ p.sign SS tx kb = .ok (b, .ok ub) ∧ a.sign SS tx kb = .ok (ab, .ok u) ∧
    ∃ c, a.combine b = .ok c ∧ c ≠ ab ∧
      (c.inputs.map fun i => i.partialSigs.get sPk) = p.inputs.map (fun i => i.partialSigs.get sPk) := by
  let old : EcdsaSig SL := ⟨Demo.val 8 (by decide) 9, ⟨0x01, by decide⟩⟩
  let p := sP [{ sIn spkWpkh with bip32Derivations := paOrigin, partialSigs := BMap.empty.insert sPk old }]
  refine ⟨p, paSigned sKeys p, paSigned paKeys p, paSigned paKeys (paSigned sKeys p), sTx paP, sKeys, paKeys, _, _, _, rfl, rfl,
    rfl, ?_⟩
  exact ⟨paCombined (paSigned sKeys p) (paSigned paKeys p), rfl,
    by decide +kernel, by decide +kernel⟩

/-! ### C78: the modifiable flags and the signatures -/

/-- C78. Signing keeps the flags honest: if they forbid everything the signatures of the PSBT forbid, they still do when
new signatures have been added. -/
theorem C78_sign {p q : Psbt L} {tx : Tx} {k : Provider S} {r} (hp : Spec.HonestFlags p) (h : p.sign S tx k = .ok (q, r)) :
    Spec.HonestFlags q := by
  obtain ⟨f0, f1, f2, -⟩ := C34_flags h
  intro j hj pk s hs
  obtain ⟨n, hn⟩ := List.mem_iff_getElem?.mp hj
  have hl := length_congr (C33_frame h)
  have hi : p.inputs[n]? = some (p.inputs[n]'(by rw [← hl]; exact (List.getElem?_eq_some_iff.mp hn).1)) := List.getElem?_eq_getElem _
  obtain ⟨-, h1, -⟩ := C33_existing_signatures h hi hn pk
  rcases h1 with h1 | ⟨m, ty, sk, hsg, -, -, h1⟩
  · rw [hs] at h1
    obtain ⟨p0, p1, p2⟩ := hp _ (List.mem_of_getElem? hi) pk s h1.symm
    exact ⟨fun h => p0 (f0.mp h).1, fun h => p1 (f1.mp h).1, fun h => f2.mpr (.inl (p2 h))⟩
  · rw [hs] at h1
    cases h1
    exact ⟨fun h => (f0.mp h).2 _ _ _ _ hsg, fun h => (f1.mp h).2 _ _ _ _ hsg, fun h => f2.mpr (.inr ⟨_, _, _, _, hsg, h⟩)⟩

/-- C78. Combining: the flags of the result are those of the first PSBT; they are honest exactly if they also permit the
signatures taken over from the second. -/
theorem C78_combine_iff {p q r : Psbt L} (hp : Spec.HonestFlags p) (h : p.combine q = .ok r) :
    r.global.txModifiableFlags = p.global.txModifiableFlags ∧
    (Spec.HonestFlags r ↔ ∀ (n : Nat) j, q.inputs[n]? = some j → n < p.inputs.length →
      ∀ pk s, j.partialSigs.get pk = some s → Spec.Permits p s.ty) := by
  obtain ⟨hg, hi, -⟩ := combine_ok.mp h
  have hf : r.global.txModifiableFlags = p.global.txModifiableFlags := by
    rw [(globalCombine_ok.mp hg).2.2.2]
  have hpm : ∀ ty, Spec.Permits r ty ↔ Spec.Permits p ty := by
    intro ty
    simp only [Spec.Permits, Spec.flag, hf]
  refine ⟨hf, ?_⟩
  obtain ⟨hl, hz⟩ := combineZip_ok.mp hi
  constructor
  · intro hr n j hj hn pk s hs
    have hpi : p.inputs[n]? = some (p.inputs[n]'hn) := List.getElem?_eq_getElem _
    have hri : r.inputs[n]? = some (r.inputs[n]'(by omega)) := List.getElem?_eq_getElem _
    have hc := (hz n _ _ hpi hri).1 j hj
    obtain ⟨-, -, hc⟩ := inputCombine_ok.mp hc
    refine (hpm _).mp (hr _ (List.mem_of_getElem? hri) pk s ?_)
    rw [hc]
    simp only [Input.merge, BMap.get_extend, hs, Option.some_or]
  · intro hq j hj pk s hs
    obtain ⟨n, hn⟩ := List.mem_iff_getElem?.mp hj
    have hlt := (List.getElem?_eq_some_iff.mp hn).1
    have hpi : p.inputs[n]? = some (p.inputs[n]'(by omega)) := List.getElem?_eq_getElem _
    rw [hpm]
    obtain ⟨z1, z2⟩ := hz n _ _ hpi hn
    cases hqi : q.inputs[n]? with
    | none =>
      rw [z2 hqi] at hs
      exact hp _ (List.mem_of_getElem? hpi) pk s hs
    | some i =>
      obtain ⟨-, -, hc⟩ := inputCombine_ok.mp (z1 i hqi)
      rw [hc] at hs
      simp only [Input.merge, BMap.get_extend] at hs
      cases e : i.partialSigs.get pk with
      | none => rw [e] at hs; exact hp _ (List.mem_of_getElem? hpi) pk s hs
      | some x =>
        rw [e] at hs
        cases hs
        exact hq n i hqi (by omega) pk s e

/-- C78. Combining copies of one PSBT that two signers signed keeps the flags honest. -/
theorem C78_copies_partial {p a b c : Psbt L} {tx : Tx} {ka kb : Provider S} {ra rb} (hp : Spec.HonestFlags p)
    (ha : p.sign S tx ka = .ok (a, ra)) (hb : p.sign S tx kb = .ok (b, rb)) (hc : a.combine b = .ok c) : Spec.HonestFlags c := by
  refine (C78_combine_iff (C78_sign hp ha) hc).2.mpr fun n j hj _ pk s hs => ?_
  have := C78_sign hp hb j (List.mem_of_getElem? hj) pk s hs
  simpa only [Spec.Permits, Spec.flag, flags_eq ha hb] using this

-- `paP`, without signatures, has honest flags, and so has the PSBT combined of its signed copies.
example : Spec.HonestFlags paP := by
  intro i hi pk s hs
  have : i.partialSigs = .empty := (by decide +kernel : ∀ i ∈ paP.inputs, i.partialSigs = .empty) i hi
  rw [this] at hs; cases hs

/-- C78 fails for combining in general: an unsigned copy, combined with a signed one, gets the signatures of type ALL, but
its flags still say that inputs and outputs may be added; in the other order they do not. -/
theorem C78_combine_counterexample : ∃ (p q r r' : Psbt SL) (k : Provider SS) (used : BMap Nat (List SL.pubkey.T)),
    Signer.sign SS p k = .ok (q, used) ∧ p.combine q = .ok r ∧ q.combine p = .ok r' ∧ Spec.HonestFlags p ∧ Spec.HonestFlags q ∧
    Spec.HonestFlags r' ∧ Spec.flag r 0 = true ∧ Spec.flag r 1 = true ∧ ¬ Spec.HonestFlags r ∧
    ∃ i ∈ r.inputs, ∃ s, i.partialSigs.get sPk = some s ∧ s.ty.1 = 0x01 := by
  let p := sFlags 0x03 (sP [{ sIn spkWpkh with bip32Derivations := sOrigin }])
  let q := match Signer.sign SS p sKeys with | .ok (q, _) => q | _ => p
  have hp : Spec.HonestFlags p := by
    intro i hi pk s hs
    have : i.partialSigs = .empty := (by decide +kernel : ∀ i ∈ p.inputs, i.partialSigs = .empty) i hi
    rw [this] at hs; cases hs
  have hs : ∃ u, Signer.sign SS p sKeys = .ok (q, u) := ⟨_, rfl⟩
  obtain ⟨u, hs⟩ := hs
  have hq : Spec.HonestFlags q := by
    obtain ⟨tx, -, h⟩ := signer_sign_iff.mp hs
    exact C78_sign hp h
  have hr : p.combine q = .ok (paCombined p q) := rfl
  have hr' : q.combine p = .ok (paCombined q p) := rfl
  have hsig : ∃ i ∈ (paCombined p q).inputs, ∃ s, i.partialSigs.get sPk = some s ∧ s.ty.1 = 0x01 :=
    ⟨q.inputs.headD (sIn spkWpkh), by decide +kernel, ⟨_, rfl, by decide +kernel⟩⟩
  refine ⟨p, q, _, _, sKeys, u, hs, hr, hr', hp, hq, ?_, by decide +kernel, by decide +kernel, ?_, hsig⟩
  · refine (C78_combine_iff hq hr').2.mpr fun n j hj _ pk s hs => ?_
    have : j.partialSigs = .empty := (by decide +kernel : ∀ i ∈ p.inputs, i.partialSigs = .empty) j (List.mem_of_getElem? hj)
    rw [this] at hs; cases hs
  · intro h
    obtain ⟨i, hi, s, h1, h2⟩ := hsig
    have := (h i hi sPk s h1).1 (by decide +kernel)
    rw [h2] at this
    revert this
    decide

end Psbt.V2
