/- Signing a PSBT v2 with stateful providers, input by input. -/
import Verif.Lemmas.World
import Verif.Props.V2Sign
namespace Psbt.V2
variable {L : Lib} {S : SigLib L} {W : World S}

/-- What may come of input `n`, whatever the provider answers. -/
def Allowed (W : World S) (tx : Tx) (p : Psbt L) (n : Nat) : Outcome S → Prop
  | .skip => ¬ ∃ i, Spec.Signable p n i
  | .panic m => ∃ i, Spec.Signable p n i ∧
      ((m = "at this stage we know its ok" ∧ ∃ e, p.sighashEcdsa n tx = .error (.err e)) ∨ p.sighashEcdsa n tx = .error (.panic m))
  | .fail e => ∃ i, Spec.Signable p n i ∧ p.sighashEcdsa n tx = .error (.err e) ∧
      ∃ d ∈ i.bip32Derivations.l, ∃ sk, Spec.Gave W d sk
  | .signed m ty keys => ∃ i, Spec.Signs tx p n i m ty ∧ ∀ sk ∈ keys, ∃ d ∈ i.bip32Derivations.l, Spec.Gave W d sk

theorem signStepW_eq (tx : Tx) (t : Signing L) (n : Nat) (s : W.σ) :
    ∃ o s', Allowed W tx t.psbt n o ∧ signStepW W tx t n s =
      ((match o with | .panic m => .error (.panic m) | o => .ok (applyState t n o)), s') := by
  by_cases hs : ∃ i, Spec.Signable t.psbt n i
  · obtain ⟨i, hi⟩ := hs
    have ha := (signingAlgorithm_iff t.psbt n).mpr ⟨i, hi⟩
    unfold signStepW
    rw [ha]
    unfold Psbt.bip32SignEcdsaW Psbt.signWithW
    simp only [hi.1.1]
    cases e : t.psbt.sighashEcdsa n tx with
    | error x =>
      cases x with
      | panic m => exact ⟨.panic m, s, ⟨i, hi, .inr e⟩, rfl⟩
      | err x =>
        simp only
        obtain ⟨keys, h1, h2⟩ := signLoopW_eq (W := W) (.error x : Except SignErr (Hash32 × EcdsaTy)) i.bip32Derivations.l i.partialSigs [] s
        rcases hl : signLoopW W (.error x : Except SignErr (Hash32 × EcdsaTy)) i.bip32Derivations.l i.partialSigs [] s with ⟨a, s1⟩
        rw [hl] at h2
        simp only at h2
        subst h2
        cases keys with
        | nil => exact ⟨.panic "at this stage we know its ok", s1, ⟨i, hi, .inl ⟨rfl, x, e⟩⟩, rfl⟩
        | cons sk sks =>
          obtain ⟨d, hd, hg⟩ := h1 sk (by simp)
          exact ⟨.fail x, s1, ⟨i, hi, e, d, hd, sk, hg⟩, rfl⟩
    | ok mt =>
      obtain ⟨m, ty⟩ := mt
      simp only
      obtain ⟨keys, h1, h2⟩ := signLoopW_eq (W := W) (.ok (m, ty) : Except SignErr (Hash32 × EcdsaTy)) i.bip32Derivations.l i.partialSigs [] s
      have h2 : (signLoopW W (.ok (m, ty) : Except SignErr (Hash32 × EcdsaTy)) i.bip32Derivations.l i.partialSigs [] s).1 =
          .ok (Spec.addSigs S m ty keys i.partialSigs, keys.map S.pub) := by
        refine Eq.trans h2 ?_
        cases keys <;> rfl
      rcases hl : signLoopW W (.ok (m, ty) : Except SignErr (Hash32 × EcdsaTy)) i.bip32Derivations.l i.partialSigs [] s with ⟨a, s1⟩
      rw [hl] at h2
      simp only at h2
      subst h2
      obtain ⟨j, hj⟩ := signs_iff.mp e
      obtain rfl := hasInput_unique hi.1 hj.1
      refine ⟨.signed m ty keys, s1, ⟨i, hj, h1⟩, ?_⟩
      simp only [clearTxModifiable_eq, applyState, applyOutcome]
      rw [set_eq_modify hi.1.1 fun j => { j with partialSigs := Spec.addSigs S m ty keys j.partialSigs }]
  · refine ⟨.skip, s, hs, ?_⟩
    unfold signStepW
    cases e : t.psbt.signingAlgorithm n with
    | error x =>
      cases x with
      | err x => rfl
      | panic m => exact absurd e (signingAlgorithm_no_panic _ n m)
    | ok a =>
      cases a with
      | schnorr => rfl
      | ecdsa => exact absurd ((signingAlgorithm_iff _ n).mp e) hs

/-- With a steady provider, what comes of an input is what comes of it with that provider. -/
theorem signStepW_steady {k : Provider S} (hk : Spec.Steady W k) (tx : Tx) (t : Signing L) (n : Nat) (s : W.σ) :
    (signStepW W tx t n s).1 = signStep S k tx t n := by
  unfold signStepW signStep
  cases t.psbt.signingAlgorithm n with
  | error e => cases e <;> rfl
  | ok a =>
    cases a with
    | schnorr => rfl
    | ecdsa =>
      simp only
      have hw : ∀ res, (t.psbt.signWithW W n res s).1 = t.psbt.signWith S k n res := by
        intro res
        unfold Psbt.signWithW Psbt.signWith
        cases t.psbt.inputs[n]? with
        | none => rfl
        | some i =>
          simp only
          have h1 := signLoopW_steady hk res i.bip32Derivations.l i.partialSigs [] s
          rcases hl : signLoopW W res i.bip32Derivations.l i.partialSigs [] s with ⟨a, s1⟩
          rw [hl] at h1
          simp only at h1
          subst h1
          rcases signLoop S k res i.bip32Derivations.l i.partialSigs [] with _ | ⟨_, _⟩
          · rfl
          · cases res <;> rfl
      have he : (t.psbt.bip32SignEcdsaW W n tx s).1 = t.psbt.bip32SignEcdsa S k n tx := by
        unfold Psbt.bip32SignEcdsaW Psbt.bip32SignEcdsa
        cases t.psbt.sighashEcdsa n tx with
        | error e => cases e with
          | panic m => rfl
          | err e => exact hw _
        | ok mt => exact hw _
      rcases hl : t.psbt.bip32SignEcdsaW W n tx s with ⟨a, s1⟩
      rw [hl] at he
      simp only at he
      subst he
      rcases t.psbt.bip32SignEcdsa S k n tx with _ | ⟨_, _ | _⟩ <;> rfl

theorem signAllW_steady {k : Provider S} (hk : Spec.Steady W k) (tx : Tx) (t : Signing L) (ns : List Nat) (s : W.σ) :
    (signAllW W tx t ns s).1 = signAll S k tx t ns := by
  induction ns generalizing t s with
  | nil => rfl
  | cons n ns ih =>
    rw [signAllW, signAll]
    have h1 := signStepW_steady hk tx t n s
    rcases hl : signStepW W tx t n s with ⟨a, s1⟩
    rw [hl] at h1
    simp only at h1
    subst h1
    rcases signStep S k tx t n with _ | t'
    · rfl
    · exact ih _ _

theorem allowed_erase {tx : Tx} {p q : Psbt L} (h : Spec.erase q = Spec.erase p) {n : Nat} {o : Outcome S} (ho : Allowed W tx q n o) :
    Allowed W tx p n o := by
  have ha : q.signingAlgorithm n = p.signingAlgorithm n := by rw [← signingAlgorithm_erase, h, signingAlgorithm_erase]
  have hm : q.sighashEcdsa n tx = p.sighashEcdsa n tx := by rw [← sighashEcdsa_erase, h, sighashEcdsa_erase]
  have hin : ∀ i, Spec.Signable q n i → ∃ j, Spec.Signable p n j ∧ i.bip32Derivations = j.bip32Derivations := by
    intro i hi
    obtain ⟨j, hj⟩ := (signingAlgorithm_iff p n).mp (ha ▸ (signingAlgorithm_iff q n).mpr ⟨i, hi⟩)
    refine ⟨j, hj, ?_⟩
    have he : (Spec.erase q).inputs[n]? = (Spec.erase p).inputs[n]? := by rw [h]
    simp only [Spec.erase, List.getElem?_map, hi.1.1, hj.1.1, Option.map_some] at he
    injection he with he
    injection he
  cases o with
  | skip =>
    rintro ⟨i, hi⟩
    exact ho ((signingAlgorithm_iff q n).mp (ha.trans ((signingAlgorithm_iff p n).mpr ⟨i, hi⟩)))
  | panic m =>
    obtain ⟨i, hi, h1⟩ := ho
    obtain ⟨j, hj, -⟩ := hin i hi
    exact ⟨j, hj, by rw [← hm]; exact h1⟩
  | fail e =>
    obtain ⟨i, hi, h1, h2⟩ := ho
    obtain ⟨j, hj, hd⟩ := hin i hi
    exact ⟨j, hj, by rw [← hm]; exact h1, by rw [← hd]; exact h2⟩
  | signed m ty keys =>
    obtain ⟨i, hi, h1⟩ := ho
    obtain ⟨j, hj, hd⟩ := hin i (signable_of_signs hi)
    obtain ⟨j', hj'⟩ := signs_iff.mp (hm ▸ signs_iff.mpr ⟨i, hi⟩)
    obtain rfl := hasInput_unique hj.1 hj'.1
    exact ⟨j, hj', by rw [← hd]; exact h1⟩

theorem signAllW_ok (tx : Tx) (p : Psbt L) (ns : List Nat) (hn : ns.Nodup) (t : Signing L) (s : W.σ)
    (ht : Spec.erase t.psbt = Spec.erase p) :
    (∃ (f : Nat → Outcome S) (s' : W.σ), (∀ n ∈ ns, Allowed W tx p n (f n) ∧ ∀ m, f n ≠ .panic m) ∧
      signAllW W tx t ns s = (.ok (ns.foldl (fun s n => applyState s n (f n)) t), s')) ∨
    ∃ n ∈ ns, ∃ m s', Allowed W tx p n (.panic m : Outcome S) ∧ signAllW W tx t ns s = (.error (.panic m), s') := by
  induction ns generalizing t s with
  | nil => exact .inl ⟨fun _ => .skip, s, by simp, rfl⟩
  | cons n ns ih =>
    obtain ⟨hn1, hn2⟩ := List.nodup_cons.mp hn
    obtain ⟨o, s1, h1, h2⟩ := signStepW_eq (W := W) tx t n s
    have h1' := allowed_erase ht h1
    rw [signAllW, h2]
    have go : (∀ m, o ≠ .panic m) →
        (∃ (f : Nat → Outcome S) (s' : W.σ), (∀ j ∈ n :: ns, Allowed W tx p j (f j) ∧ ∀ m, f j ≠ .panic m) ∧
          signAllW W tx (applyState t n o) ns s1 = (.ok ((n :: ns).foldl (fun s n => applyState s n (f n)) t), s')) ∨
        ∃ j ∈ n :: ns, ∃ m s', Allowed W tx p j (.panic m : Outcome S) ∧
          signAllW W tx (applyState t n o) ns s1 = (.error (.panic m), s') := by
      intro hp
      rcases ih hn2 (applyState t n o) s1 ((erase_apply _ _ _).trans ht) with ⟨f, s', g1, g2⟩ | ⟨j, hj, m, s', g1, g2⟩
      · refine .inl ⟨fun j => if j = n then o else f j, s', ?_, ?_⟩
        · intro j hj
          by_cases h : j = n
          · subst h
            simp only [if_true]
            exact ⟨h1', hp⟩
          · simp only [h, if_false]
            exact g1 j ((List.mem_cons.mp hj).resolve_left h)
        · rw [g2, List.foldl_cons]
          simp only [if_true]
          have hc : ∀ (l : List Nat), n ∉ l → ∀ t : Signing L, l.foldl (fun s n => applyState s n (f n)) t =
              l.foldl (fun s j => applyState s j (if j = n then o else f j)) t := by
            intro l
            induction l with
            | nil => intros; rfl
            | cons a l ih =>
              intro ha t
              rw [List.foldl_cons, List.foldl_cons, if_neg (by rintro rfl; exact ha (by simp)),
                ih (fun h => ha (by simp [h]))]
          rw [hc ns hn1]
      · exact .inr ⟨j, by simp [hj], m, s', g1, g2⟩
    cases o with
    | panic m => exact .inr ⟨n, by simp, m, s1, h1', rfl⟩
    | skip => exact go (by simp)
    | fail e => exact go (by simp)
    | signed m ty keys => exact go (by simp)

end Psbt.V2
