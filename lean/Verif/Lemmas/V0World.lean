/- Signing a PSBT v0 with stateful providers and random nonces, input by input. -/
import Verif.Lemmas.World
namespace Psbt.V0
variable {L : Lib} {S : SigLib L} {W : World S}

/-- The outcome for input `n` from a state of the world, read off the PSBT signing started with, and the state afterwards. -/
def outcomeW (W : World S) (tx : Tx) (p : Psbt L) (n : Nat) (s : W.State) : Outcome L × W.State :=
  match p.signingAlgorithm n with
  | .error (.panic m) => (.panic m, s)
  | .error (.err e) => (.fail e, s)
  | .ok .ecdsa =>
    match p.inputs[n]? with
    | none => (.panic "index out of bounds", s)
    | some i =>
      match p.sighashEcdsa n tx with
      | .error (.panic m) => (.panic m, s)
      | .error (.err e) =>
        match signLoopW W (.error e : Except SignErr (Hash32 × EcdsaTy)) i.bip32Derivation.l i.partialSigs [] s.1 with
        | (.error e, s1) => (.fail e, (s1, s.2))
        | (.ok (sigs, used), s1) => (.signed { i with partialSigs := sigs } (.ecdsa used), (s1, s.2))
      | .ok mt =>
        match signLoopW W (.ok mt : Except SignErr (Hash32 × EcdsaTy)) i.bip32Derivation.l i.partialSigs [] s.1 with
        | (.error e, s1) => (.fail e, (s1, s.2))
        | (.ok (sigs, used), s1) => (.signed { i with partialSigs := sigs } (.ecdsa used), (s1, s.2))
  | .ok .schnorr =>
    match p.inputs[n]? with
    | none => (.panic "index out of bounds", s)
    | some i =>
      match schnorrLoopW W (p.sighashTaproot n tx) i i.tapKeyOrigins.l i.tapKeySig i.tapScriptSigs [] s with
      | (.error (.panic m), s) => (.panic m, s)
      | (.error (.err e), s) => (.fail e, s)
      | (.ok (sig, sigs, used), s) => (.signed { i with tapKeySig := sig, tapScriptSigs := sigs } (.schnorr used), s)

theorem alg_input {p : Psbt L} {n : Nat} {a : SigningAlgorithm} (ha : p.signingAlgorithm n = .ok a) :
    ∃ t i, Spec.V0.HasInput p n t i := by
  unfold Psbt.signingAlgorithm at ha
  rw [bind_ok] at ha
  obtain ⟨ty, ho, -⟩ := ha
  obtain ⟨t, i, u, h1, -⟩ := (outputType_iff _ n ty).mp ho
  exact ⟨t, i, h1⟩

theorem checkedInput_of {p : Psbt L} {n : Nat} {t : TxIn} {i : Input L} (h : Spec.V0.HasInput p n t i) : p.checkedInput n = .ok i :=
  checkedInput_ok.mpr ⟨t, h⟩

theorem signStepW_eq (tx : Tx) (t : Signing L) (n : Nat) (s : W.State) :
    signStepW W tx t n s =
      match outcomeW W tx t.psbt n s with
      | (.panic m, s) => (.error (.panic m), s)
      | (o, s) => (.ok (applyState t n o), s) := by
  unfold signStepW outcomeW
  cases ha : t.psbt.signingAlgorithm n with
  | error e => cases e <;> rfl
  | ok a =>
    obtain ⟨ti, i, hi⟩ := alg_input ha
    cases a with
    | ecdsa =>
      simp only [hi.2]
      unfold Psbt.bip32SignEcdsaW Psbt.signWithW
      simp only [hi.2]
      cases hs : t.psbt.sighashEcdsa n tx with
      | error e =>
        cases e with
        | panic m => rfl
        | err e =>
          simp only
          rcases signLoopW W (.error e : Except SignErr (Hash32 × EcdsaTy)) i.bip32Derivation.l i.partialSigs [] s.1 with ⟨_ | ⟨_, _⟩, s1⟩ <;> rfl
      | ok mt =>
        simp only
        rcases signLoopW W (.ok mt : Except SignErr (Hash32 × EcdsaTy)) i.bip32Derivation.l i.partialSigs [] s.1 with ⟨_ | ⟨_, _⟩, s1⟩ <;> rfl
    | schnorr =>
      unfold Psbt.bip32SignSchnorrW
      simp only [hi.2, checkedInput_of hi]
      rcases schnorrLoopW W (t.psbt.sighashTaproot n tx) i i.tapKeyOrigins.l i.tapKeySig i.tapScriptSigs [] s with ⟨(_ | _) | ⟨_, _, _⟩, s1⟩ <;> rfl

theorem outcomeW_congr {tx : Tx} {p q : Psbt L} {n : Nat} (he : Spec.V0.erase q = Spec.V0.erase p)
    (hi : q.inputs[n]? = p.inputs[n]?) (s : W.State) : outcomeW W tx q n s = outcomeW W tx p n s := by
  have h1 : q.signingAlgorithm n = p.signingAlgorithm n := by rw [← signingAlgorithm_erase, he, signingAlgorithm_erase]
  have h2 : q.sighashEcdsa n tx = p.sighashEcdsa n tx := by rw [← sighashEcdsa_erase, he, sighashEcdsa_erase]
  have h3 : q.sighashTaproot n tx = p.sighashTaproot n tx := by
    funext leaf; rw [← sighashTaproot_erase, he, sighashTaproot_erase]
  unfold outcomeW
  rw [h1, h2, h3, hi]

/-- What an outcome can be. -/
theorem outcomeW_signed {tx : Tx} {p : Psbt L} {n : Nat} {s s' : W.State} {j : Input L} {keys : SigningKeys L}
    (h : outcomeW W tx p n s = (.signed j keys, s')) :
    ∃ i, p.inputs[n]? = some i ∧
      ((p.signingAlgorithm n = .ok .ecdsa ∧ s'.2 = s.2 ∧ ∃ sks : List S.SK, (∀ sk ∈ sks, ∃ d ∈ i.bip32Derivation.l, Spec.Gave W d sk) ∧
          keys = .ecdsa (sks.map S.pub) ∧
          ((sks = [] ∧ j = i) ∨ ∃ m ty, p.sighashEcdsa n tx = .ok (m, ty) ∧
            j = { i with partialSigs := Spec.addSigs S m ty sks i.partialSigs })) ∨
       (p.signingAlgorithm n = .ok .schnorr ∧ ∃ xs, keys = .schnorr xs ∧
          j = { i with tapKeySig := j.tapKeySig, tapScriptSigs := j.tapScriptSigs } ∧
          Spec.Drawn (LoopMade W (p.sighashTaproot n tx) i) (Spec.V0.tapSigOf i) (Spec.V0.tapSigOf j) s.2 s'.2)) := by
  unfold outcomeW at h
  cases ha : p.signingAlgorithm n with
  | error e => rw [ha] at h; cases e <;> cases h
  | ok a =>
    cases hi : p.inputs[n]? with
    | none => simp only [ha, hi] at h; cases a <;> cases h
    | some i =>
      refine ⟨i, rfl, ?_⟩
      simp only [ha, hi] at h
      cases a with
      | ecdsa =>
        left
        refine ⟨rfl, ?_⟩
        cases hs : p.sighashEcdsa n tx with
        | error e =>
          cases e with
          | panic m => simp only [hs] at h; cases h
          | err e =>
            simp only [hs] at h
            obtain ⟨keys', h1, h2⟩ := signLoopW_eq (W := W) (.error e : Except SignErr (Hash32 × EcdsaTy)) i.bip32Derivation.l i.partialSigs [] s.1
            rcases hl : signLoopW W (.error e : Except SignErr (Hash32 × EcdsaTy)) i.bip32Derivation.l i.partialSigs [] s.1 with ⟨_ | ⟨_, _⟩, s1⟩
            · rw [hl] at h; cases h
            · rw [hl] at h h2
              cases h
              cases keys' with
              | nil =>
                simp only at h2
                cases h2
                exact ⟨rfl, [], by simp, rfl, .inl ⟨rfl, rfl⟩⟩
              | cons a l => cases h2
        | ok mt =>
          obtain ⟨m, ty⟩ := mt
          simp only [hs] at h
          obtain ⟨keys', h1, h2⟩ := signLoopW_eq (W := W) (.ok (m, ty) : Except SignErr (Hash32 × EcdsaTy)) i.bip32Derivation.l i.partialSigs [] s.1
          rcases hl : signLoopW W (.ok (m, ty) : Except SignErr (Hash32 × EcdsaTy)) i.bip32Derivation.l i.partialSigs [] s.1 with ⟨_ | ⟨sg, us⟩, s1⟩
          · rw [hl] at h; cases h
          · rw [hl] at h h2
            cases h
            have h2 : Except.ok (sg, us) = Except.ok (ε := SignErr) (Spec.addSigs S m ty keys' i.partialSigs, keys'.map S.pub) := by
              refine Eq.trans h2 ?_
              cases keys' <;> rfl
            cases h2
            exact ⟨rfl, keys', h1, rfl, .inr ⟨m, ty, rfl, rfl⟩⟩
      | schnorr =>
        right
        refine ⟨rfl, ?_⟩
        obtain ⟨-, -, h3⟩ := schnorrLoopW_spec (W := W) (msg := p.sighashTaproot n tx) i.tapKeyOrigins.l
          (fun d hd => BMap.mem_iff_get.mp hd) i.tapKeySig i.tapScriptSigs [] s
        rcases hl : schnorrLoopW W (p.sighashTaproot n tx) i i.tapKeyOrigins.l i.tapKeySig i.tapScriptSigs [] s with ⟨(_ | _) | ⟨sig, sigs, u⟩, s1⟩
        · rw [hl] at h; cases h
        · rw [hl] at h; cases h
        · rw [hl] at h
          cases h
          refine ⟨u, rfl, rfl, ?_⟩
          have := h3 _ _ _ _ hl
          have e1 : Spec.V0.tapSigOf i = view i.tapKeySig i.tapScriptSigs := by funext a; cases a <;> rfl
          have e2 : Spec.V0.tapSigOf { i with tapKeySig := sig, tapScriptSigs := sigs } = view sig sigs := by funext a; cases a <;> rfl
          rw [e1, e2]
          exact this

theorem outcomeW_count {tx : Tx} {p : Psbt L} {n : Nat} (s : W.State) : s.2 ≤ (outcomeW W tx p n s).2.2 := by
  unfold outcomeW
  cases ha : p.signingAlgorithm n with
  | error e => cases e <;> exact Nat.le_refl _
  | ok a =>
    cases hi : p.inputs[n]? with
    | none => cases a <;> exact Nat.le_refl _
    | some i =>
      cases a with
      | ecdsa =>
        simp only
        cases hs : p.sighashEcdsa n tx with
        | error e =>
          cases e with
          | panic m => exact Nat.le_refl _
          | err e =>
            simp only
            rcases signLoopW W (.error e : Except SignErr (Hash32 × EcdsaTy)) i.bip32Derivation.l i.partialSigs [] s.1 with ⟨_ | ⟨_, _⟩, s1⟩ <;>
              exact Nat.le_refl _
        | ok mt =>
          simp only
          rcases signLoopW W (.ok mt : Except SignErr (Hash32 × EcdsaTy)) i.bip32Derivation.l i.partialSigs [] s.1 with ⟨_ | ⟨_, _⟩, s1⟩ <;>
            exact Nat.le_refl _
      | schnorr =>
        obtain ⟨h1, -, -⟩ := schnorrLoopW_spec (W := W) (msg := p.sighashTaproot n tx) i.tapKeyOrigins.l
          (fun d hd => BMap.mem_iff_get.mp hd) i.tapKeySig i.tapScriptSigs [] s
        simp only
        rcases hl : schnorrLoopW W (p.sighashTaproot n tx) i i.tapKeyOrigins.l i.tapKeySig i.tapScriptSigs [] s with ⟨(_ | _) | ⟨sig, sigs, u⟩, s1⟩ <;>
          (rw [hl] at h1; exact h1)

theorem addSigs_eraseInput {i : Input L} (sigs : BMap L.pubkey.T (EcdsaSig L)) :
    Spec.V0.eraseInput { i with partialSigs := sigs } = Spec.V0.eraseInput i := rfl

theorem outcomeW_erase {tx : Tx} {p : Psbt L} {n : Nat} {s : W.State} {j : Input L} {keys : SigningKeys L}
    (h : (outcomeW W tx p n s).1 = .signed j keys) : ∃ i, p.inputs[n]? = some i ∧ Spec.V0.eraseInput j = Spec.V0.eraseInput i := by
  obtain ⟨i, h1, h2⟩ := outcomeW_signed (s' := (outcomeW W tx p n s).2) (Prod.ext h rfl)
  refine ⟨i, h1, ?_⟩
  rcases h2 with ⟨-, -, sks, -, -, ⟨-, rfl⟩ | ⟨m, ty, -, rfl⟩⟩ | ⟨-, xs, -, h2, -⟩
  · rfl
  · rfl
  · rw [h2]; rfl

theorem signAllW_spec (tx : Tx) (p : Psbt L) (ns : List Nat) (hn : ns.Pairwise (· < ·)) (t : Signing L) (s : W.State)
    (he : Spec.V0.erase t.psbt = Spec.V0.erase p) (hs : ∀ n ∈ ns, t.psbt.inputs[n]? = p.inputs[n]?) :
    (∃ st : Nat → W.State, (∀ n ∈ ns, ∀ m, (outcomeW W tx p n (st n)).1 ≠ .panic m) ∧
      ∃ t' s', signAllW W tx t ns s = (.ok t', s') ∧ Spec.V0.erase t'.psbt = Spec.V0.erase p ∧ s.2 ≤ s'.2 ∧
      (∀ n ∈ ns, s.2 ≤ (st n).2 ∧ (outcomeW W tx p n (st n)).2.2 ≤ s'.2) ∧
      (∀ a ∈ ns, ∀ b ∈ ns, a < b → (outcomeW W tx p a (st a)).2.2 ≤ (st b).2) ∧
      ∀ j, t'.psbt.inputs[j]? = (if j ∈ ns then (outcomeW W tx p j (st j)).1.input (p.inputs[j]?) else t.psbt.inputs[j]?) ∧
        t'.used.get j = (if j ∈ ns then (outcomeW W tx p j (st j)).1.used.or (t.used.get j) else t.used.get j) ∧
        t'.errors.get j = (if j ∈ ns then (outcomeW W tx p j (st j)).1.err.or (t.errors.get j) else t.errors.get j)) ∨
    ∃ n ∈ ns, ∃ s0 m s', outcomeW W tx p n s0 = (.panic m, s') ∧ signAllW W tx t ns s = (.error (.panic m), s') := by
  induction ns generalizing t s with
  | nil => exact .inl ⟨fun _ => s, by simp, t, s, rfl, he, Nat.le_refl _, by simp, by simp, fun j => by simp⟩
  | cons n ns ih =>
    obtain ⟨hn1, hn2⟩ := List.pairwise_cons.mp hn
    have ho : outcomeW W tx t.psbt n s = outcomeW W tx p n s := outcomeW_congr he (hs n (by simp)) s
    have hcount := outcomeW_count (W := W) (tx := tx) (p := p) (n := n) s
    rw [signAllW, signStepW_eq, ho]
    rcases e : outcomeW W tx p n s with ⟨o, s1⟩
    rw [e] at hcount
    have go : (∀ m, o ≠ .panic m) →
      ((∃ st : Nat → W.State, (∀ j ∈ n :: ns, ∀ m, (outcomeW W tx p j (st j)).1 ≠ .panic m) ∧
        ∃ t' s', signAllW W tx (applyState t n o) ns s1 = (.ok t', s') ∧ Spec.V0.erase t'.psbt = Spec.V0.erase p ∧ s.2 ≤ s'.2 ∧
        (∀ j ∈ n :: ns, s.2 ≤ (st j).2 ∧ (outcomeW W tx p j (st j)).2.2 ≤ s'.2) ∧
        (∀ a ∈ n :: ns, ∀ b ∈ n :: ns, a < b → (outcomeW W tx p a (st a)).2.2 ≤ (st b).2) ∧
        ∀ j, t'.psbt.inputs[j]? = (if j ∈ n :: ns then (outcomeW W tx p j (st j)).1.input (p.inputs[j]?) else t.psbt.inputs[j]?) ∧
          t'.used.get j = (if j ∈ n :: ns then (outcomeW W tx p j (st j)).1.used.or (t.used.get j) else t.used.get j) ∧
          t'.errors.get j = (if j ∈ n :: ns then (outcomeW W tx p j (st j)).1.err.or (t.errors.get j) else t.errors.get j)) ∨
      ∃ j ∈ n :: ns, ∃ s0 m s', outcomeW W tx p j s0 = (.panic m, s') ∧ signAllW W tx (applyState t n o) ns s1 = (.error (.panic m), s')) := by
      intro hnp
      have ho' : (outcomeW W tx p n s).1 = o := by rw [e]
      have hin : ∀ j, (applyState t n o).psbt.inputs[j]? = if j = n then o.input (p.inputs[j]?) else t.psbt.inputs[j]? := by
        intro j
        cases o with
        | panic m => exact absurd rfl (hnp m)
        | fail e =>
          simp only [applyState, Outcome.input]
          split
          · rename_i h; subst h; exact hs j (by simp)
          · rfl
        | signed i' keys =>
          obtain ⟨i, h1, h2⟩ := outcomeW_erase ho'
          have h3 := hs n (by simp)
          rw [h1] at h3
          have := (List.getElem?_eq_some_iff.mp h3).1
          simp only [applyState, Outcome.input, List.getElem?_set]
          by_cases hj : n = j
          · subst hj; simp [this]
          · have : ¬ j = n := fun h => hj h.symm
            simp [hj, this]
      have her : Spec.V0.erase (applyState t n o).psbt = Spec.V0.erase p := by
        cases o with
        | panic m => exact he
        | fail e => exact he
        | signed i' keys =>
          obtain ⟨i, h1, h2⟩ := outcomeW_erase ho'
          have h3 := hs n (by simp)
          rw [h1] at h3
          exact (erase_set h3 h2).trans he
      have hu : ∀ j, (applyState t n o).used.get j = if j = n then o.used.or (t.used.get j) else t.used.get j := by
        intro j
        cases o <;> simp only [applyState, Outcome.used, Option.none_or, ite_self, Option.some_or]
        rw [BMap.get_insert]
      have hr : ∀ j, (applyState t n o).errors.get j = if j = n then o.err.or (t.errors.get j) else t.errors.get j := by
        intro j
        cases o <;> simp only [applyState, Outcome.err, Option.none_or, ite_self, Option.some_or]
        rw [BMap.get_insert]
      have hnotin : n ∉ ns := fun h => Nat.lt_irrefl _ (hn1 n h)
      have hne : ∀ j ∈ ns, j ≠ n := fun j hj h => hnotin (h ▸ hj)
      rcases ih hn2 (applyState t n o) s1 her (by
        intro j hj
        rw [hin, if_neg (hne j hj)]; exact hs j (by simp [hj])) with ⟨st, h1, t', s', h2, h3, h4, h5, h6, h7⟩ | ⟨j, hj, s0, m, s', h1, h2⟩
      · refine .inl ⟨fun j => if j = n then s else st j, ?_, t', s', h2, h3, Nat.le_trans hcount h4, ?_, ?_, ?_⟩
        · intro j hj m hm
          by_cases hjn : j = n
          · subst hjn
            simp only [if_true] at hm
            rw [e] at hm
            exact hnp m hm
          · simp only [hjn, if_false] at hm
            rcases List.mem_cons.mp hj with rfl | hj
            · exact hjn rfl
            · exact h1 j hj m hm
        · intro j hj
          by_cases hjn : j = n
          · subst hjn
            simp only [if_true]
            rw [e]
            exact ⟨Nat.le_refl _, h4⟩
          · simp only [hjn, if_false]
            rcases List.mem_cons.mp hj with rfl | hj
            · exact absurd rfl hjn
            · exact ⟨Nat.le_trans hcount (h5 j hj).1, (h5 j hj).2⟩
        · intro a ha b hb hab
          have hbn : b ≠ n := by
            rintro rfl
            rcases List.mem_cons.mp ha with rfl | ha
            · omega
            · have := hn1 a ha; omega
          simp only [hbn, if_false]
          have hb' : b ∈ ns := by
            rcases List.mem_cons.mp hb with rfl | hb
            · exact absurd rfl hbn
            · exact hb
          by_cases han : a = n
          · subst han
            simp only [if_true]
            rw [e]
            exact (h5 b hb').1
          · simp only [han, if_false]
            rcases List.mem_cons.mp ha with rfl | ha
            · exact absurd rfl han
            · exact h6 a ha b hb' hab
        · intro j
          obtain ⟨g5, g6, g7⟩ := h7 j
          rw [g5, g6, g7, hin, hu, hr]
          by_cases hj : j = n
          · subst hj
            simp [hnotin, e]
          · simp [hj]
      · exact .inr ⟨j, by simp [hj], s0, m, s', h1, h2⟩
    cases o with
    | panic m => exact .inr ⟨n, by simp, s, m, s1, e, rfl⟩
    | fail f => exact go (by simp)
    | signed i keys => exact go (by simp)

theorem outcomeW_no_panic {p : Psbt L} (hr : Spec.V0.IndicesInRange p) (n : Nat) (s : W.State) (m : String) :
    (outcomeW W p.unsignedTx p n s).1 ≠ .panic m := by
  intro h
  unfold outcomeW at h
  cases ha : p.signingAlgorithm n with
  | error e =>
    cases e with
    | panic s =>
      obtain ⟨-, t, i, h1, h2⟩ := signingAlgorithm_panic.mp ha
      exact not_dangling hr h1 h2
    | err e => rw [ha] at h; cases h
  | ok a =>
    obtain ⟨t, i, hi⟩ := alg_input ha
    simp only [ha, hi.2] at h
    cases a with
    | ecdsa =>
      cases hs : p.sighashEcdsa n p.unsignedTx with
      | error e =>
        cases e with
        | panic s => exact sighashEcdsa_no_panic p n _ (List.getElem?_eq_some_iff.mp hi.1).1 (fun t i h => not_dangling hr h) s hs
        | err e =>
          simp only [hs] at h
          rcases hl : signLoopW W (.error e : Except SignErr (Hash32 × EcdsaTy)) i.bip32Derivation.l i.partialSigs [] s.1 with ⟨_ | ⟨_, _⟩, s1⟩ <;>
            (rw [hl] at h; cases h)
      | ok mt =>
        simp only [hs] at h
        rcases hl : signLoopW W (.ok mt : Except SignErr (Hash32 × EcdsaTy)) i.bip32Derivation.l i.partialSigs [] s.1 with ⟨_ | ⟨_, _⟩, s1⟩ <;>
          (rw [hl] at h; cases h)
    | schnorr =>
      obtain ⟨-, h2, -⟩ := schnorrLoopW_spec (W := W) (msg := p.sighashTaproot n p.unsignedTx) i.tapKeyOrigins.l
        (fun d hd => BMap.mem_iff_get.mp hd) i.tapKeySig i.tapScriptSigs [] s
      simp only at h
      rcases hl : schnorrLoopW W (p.sighashTaproot n p.unsignedTx) i i.tapKeyOrigins.l i.tapKeySig i.tapScriptSigs [] s with ⟨(_ | _) | ⟨sig, sigs, u⟩, s1⟩
      · rw [hl] at h; cases h
      · obtain ⟨leaf, h3⟩ := h2 _ _ hl
        exact sighashTaproot_no_panic hr _ h3
      · rw [hl] at h; cases h

/-! ### A provider that does not change its answers -/

section Steady
variable {k : Provider S} (R : TapSig → TapSig → Prop)

/-- Signatures in the same places, related by `R`. -/
def Rel (v w : Option (L.xonly.T × Hash32) → Option TapSig) : Prop :=
  ∀ a, (v a = none ∧ w a = none) ∨ ∃ t u, v a = some t ∧ w a = some u ∧ R t u

variable {R}

theorem Rel.isNone {v w : Option (L.xonly.T × Hash32) → Option TapSig} (h : Rel R v w) (a) : (v a).isNone = (w a).isNone := by
  rcases h a with ⟨h1, h2⟩ | ⟨t, u, h1, h2, -⟩ <;> rw [h1, h2] <;> rfl

variable {msg : Option Hash32 → Out SignErr (Hash32 × TapTy)} (hR : ∀ m kp r ty, R ⟨W.signAux m kp r, ty⟩ ⟨S.signSchnorr m kp, ty⟩)
include hR

theorem signLeavesW_sim {kp : S.Keypair} {x : L.xonly.T} (sig sig0 : Option TapSig) (lhs : List Hash32)
    (sigs sigs0 : BMap (L.xonly.T × Hash32) TapSig) (c : Nat) (h : Rel R (view sig sigs) (view sig0 sigs0)) :
    (∃ e, (signLeavesW W msg kp x lhs sigs c).1 = .error e ∧ signLeaves S msg kp x lhs sigs0 = .error e) ∨
    ∃ r r0, (signLeavesW W msg kp x lhs sigs c).1 = .ok r ∧ signLeaves S msg kp x lhs sigs0 = .ok r0 ∧
      Rel R (view sig r) (view sig0 r0) := by
  induction lhs generalizing sigs sigs0 c with
  | nil => exact .inr ⟨sigs, sigs0, rfl, rfl, h⟩
  | cons lh lhs ih =>
    rw [signLeavesW, signLeaves]
    cases hm : msg (some lh) with
    | error e => exact .inl ⟨e, rfl, rfl⟩
    | ok mt =>
      obtain ⟨m, ty⟩ := mt
      apply ih
      intro a
      cases a with
      | none => exact h none
      | some key =>
        simp only [view, BMap.get_insert]
        by_cases hk : key = (x, lh)
        · simp only [hk, if_true]
          exact .inr ⟨_, _, rfl, rfl, hR _ _ _ _⟩
        · simp only [hk, if_false]
          exact h (some key)

theorem signKeyPathW_sim {i : Input L} {x : L.xonly.T} {lhs : List Hash32} {sk : S.SK} (sig sig0 : Option TapSig)
    (sigs sigs0 : BMap (L.xonly.T × Hash32) TapSig) (c : Nat) (h : Rel R (view sig sigs) (view sig0 sigs0)) :
    (∃ e, (signKeyPathW W msg i x lhs sk sig c).1 = .error e ∧ signKeyPath S msg i x lhs sk sig0 = .error e) ∨
    ∃ r r0 u, (signKeyPathW W msg i x lhs sk sig c).1 = .ok (r, u) ∧ signKeyPath S msg i x lhs sk sig0 = .ok (r0, u) ∧
      Rel R (view r sigs) (view r0 sigs0) := by
  unfold signKeyPathW signKeyPath
  have hn : sig.isNone = sig0.isNone := h.isNone none
  cases i.tapInternalKey with
  | none => exact .inr ⟨sig, sig0, [], rfl, rfl, h⟩
  | some ik =>
    simp only [hn]
    by_cases hd : ik = x ∧ lhs.isEmpty ∧ sig0.isNone
    · rw [if_pos hd, if_pos hd]
      cases hm : msg none with
      | error e => exact .inl ⟨e, rfl, rfl⟩
      | ok mt =>
        obtain ⟨m, ty⟩ := mt
        refine .inr ⟨_, _, _, rfl, rfl, ?_⟩
        intro a
        cases a with
        | none => exact .inr ⟨_, _, rfl, rfl, hR _ _ _ _⟩
        | some key => exact h (some key)
    · rw [if_neg hd, if_neg hd]
      exact .inr ⟨sig, sig0, [], rfl, rfl, h⟩

theorem signScriptPathW_sim {i : Input L} {x : L.xonly.T} {sk : S.SK} (sig sig0 : Option TapSig)
    (sigs sigs0 : BMap (L.xonly.T × Hash32) TapSig) (c : Nat) (h : Rel R (view sig sigs) (view sig0 sigs0)) :
    (∃ e, (signScriptPathW W msg i x sk sigs c).1 = .error e ∧ signScriptPath S msg i x sk sigs0 = .error e) ∨
    ∃ r r0 u, (signScriptPathW W msg i x sk sigs c).1 = .ok (r, u) ∧ signScriptPath S msg i x sk sigs0 = .ok (r0, u) ∧
      Rel R (view sig r) (view sig0 r0) := by
  unfold signScriptPathW signScriptPath
  cases i.tapKeyOrigins.get x with
  | none => exact .inr ⟨sigs, sigs0, [], rfl, rfl, h⟩
  | some d =>
    obtain ⟨lhs, ks⟩ := d
    have hn : (fun lh => (sigs.get (x, lh)).isNone) = fun lh => (sigs0.get (x, lh)).isNone := by
      funext lh; exact h.isNone (some (x, lh))
    simp only [hn]
    generalize lhs.filter _ = due
    by_cases hd : due.isEmpty = true
    · rw [if_pos hd, if_pos hd]
      exact .inr ⟨sigs, sigs0, [], rfl, rfl, h⟩
    · rw [if_neg hd, if_neg hd]
      rcases signLeavesW_sim hR (msg := msg) (kp := S.keypair sk) (x := x) sig sig0 due sigs sigs0 c h with ⟨e, h1, h2⟩ | ⟨r, r0, h1, h2, h3⟩
      · rcases hl : signLeavesW W msg (S.keypair sk) x due sigs c with ⟨a, c1⟩
        rw [hl] at h1
        simp only at h1
        subst h1
        rw [h2]
        exact .inl ⟨e, rfl, rfl⟩
      · rcases hl : signLeavesW W msg (S.keypair sk) x due sigs c with ⟨a, c1⟩
        rw [hl] at h1
        simp only at h1
        subst h1
        rw [h2]
        exact .inr ⟨r, r0, _, rfl, rfl, h3⟩

theorem schnorrLoopW_sim (hk : Spec.Steady W k) {i : Input L} (ds : List (L.xonly.T × List Hash32 × KeySource)) (sig sig0 : Option TapSig)
    (sigs sigs0 : BMap (L.xonly.T × Hash32) TapSig) (used : List L.xonly.T) (s : W.State) (h : Rel R (view sig sigs) (view sig0 sigs0)) :
    (∃ e, (schnorrLoopW W msg i ds sig sigs used s).1 = .error e ∧ schnorrLoop S k msg i ds sig0 sigs0 used = .error e) ∨
    ∃ r r' r0 r0' u, (schnorrLoopW W msg i ds sig sigs used s).1 = .ok (r, r', u) ∧
      schnorrLoop S k msg i ds sig0 sigs0 used = .ok (r0, r0', u) ∧ Rel R (view r r') (view r0 r0') := by
  induction ds generalizing sig sig0 sigs sigs0 used s with
  | nil => exact .inr ⟨_, _, _, _, _, rfl, rfl, h⟩
  | cons d ds ih =>
    obtain ⟨x, lhs, ks⟩ := d
    obtain ⟨s, c⟩ := s
    rw [schnorrLoopW, schnorrLoop, ← hk s]
    rcases W.ask s (.bip32 ks) with ⟨_ | _ | sk, s1⟩
    · exact ih _ _ _ _ _ _ h
    · exact ih _ _ _ _ _ _ h
    · simp only
      rcases signKeyPathW_sim hR (msg := msg) (i := i) (x := x) (lhs := lhs) (sk := sk) sig sig0 sigs sigs0 c h with ⟨e, h1, h2⟩ | ⟨r, r0, u, h1, h2, h3⟩
      · rcases hl : signKeyPathW W msg i x lhs sk sig c with ⟨a, c1⟩
        rw [hl] at h1
        simp only at h1
        subst h1
        rw [h2]
        exact .inl ⟨e, rfl, rfl⟩
      · rcases hl : signKeyPathW W msg i x lhs sk sig c with ⟨a, c1⟩
        rw [hl] at h1
        simp only at h1
        subst h1
        rw [h2]
        simp only [Bind.bind, Except.bind]
        rcases signScriptPathW_sim hR (msg := msg) (i := i) (x := x) (sk := sk) r r0 sigs sigs0 c1 h3 with ⟨e, g1, g2⟩ | ⟨q, q0, v, g1, g2, g3⟩
        · rcases hl : signScriptPathW W msg i x sk sigs c1 with ⟨a, c2⟩
          rw [hl] at g1
          simp only at g1
          subst g1
          rw [g2]
          exact .inl ⟨e, rfl, rfl⟩
        · rcases hl : signScriptPathW W msg i x sk sigs c1 with ⟨a, c2⟩
          rw [hl] at g1
          simp only at g1
          subst g1
          rw [g2]
          exact ih _ _ _ _ _ _ g3

/-- The outcomes in the two settings. -/
theorem outcomeW_sim (hk : Spec.Steady W k) (hrefl : ∀ t, R t t) (tx : Tx) (p : Psbt L) (n : Nat) (s : W.State) :
    (outcomeW W tx p n s).1 = outcome S k tx p n ∨
    ∃ j j0 keys, (outcomeW W tx p n s).1 = .signed j keys ∧ outcome S k tx p n = .signed j0 keys ∧
      Spec.V0.eraseInput j = Spec.V0.eraseInput j0 ∧ j.partialSigs = j0.partialSigs ∧
      Rel R (Spec.V0.tapSigOf j) (Spec.V0.tapSigOf j0) := by
  unfold outcomeW outcome
  cases ha : p.signingAlgorithm n with
  | error e => cases e <;> exact .inl rfl
  | ok a =>
    cases hi : p.inputs[n]? with
    | none => cases a <;> exact .inl rfl
    | some i =>
      simp only
      cases a with
      | ecdsa =>
        left
        cases hs : p.sighashEcdsa n tx with
        | error e =>
          cases e with
          | panic m => rfl
          | err e =>
            simp only
            have h1 := signLoopW_steady hk (.error e : Except SignErr (Hash32 × EcdsaTy)) i.bip32Derivation.l i.partialSigs [] s.1
            rw [signLoop_v0] at h1
            rcases hl : signLoopW W (.error e : Except SignErr (Hash32 × EcdsaTy)) i.bip32Derivation.l i.partialSigs [] s.1 with ⟨a, s1⟩
            rw [hl] at h1
            simp only at h1
            subst h1
            by_cases hkf : (Spec.V0.keysFor S k i).isEmpty = true
            · simp only [if_pos hkf]
            · simp only [if_neg hkf]
        | ok mt =>
          obtain ⟨m, ty⟩ := mt
          simp only
          have h1 := signLoopW_steady hk (.ok (m, ty) : Except SignErr (Hash32 × EcdsaTy)) i.bip32Derivation.l i.partialSigs [] s.1
          rw [signLoop_v0] at h1
          rcases hl : signLoopW W (.ok (m, ty) : Except SignErr (Hash32 × EcdsaTy)) i.bip32Derivation.l i.partialSigs [] s.1 with ⟨a, s1⟩
          rw [hl] at h1
          simp only at h1
          subst h1
          by_cases hkf : (Spec.V0.keysFor S k i).isEmpty = true
          · simp only [if_pos hkf]
            rw [List.isEmpty_iff.mp hkf]
            rfl
          · simp only [if_neg hkf]
      | schnorr =>
        simp only
        rcases schnorrLoopW_sim (W := W) (msg := p.sighashTaproot n tx) hR hk (i := i) i.tapKeyOrigins.l i.tapKeySig i.tapKeySig i.tapScriptSigs i.tapScriptSigs [] s
          (fun a => by
            cases e : view i.tapKeySig i.tapScriptSigs a with
            | none => exact .inl ⟨rfl, rfl⟩
            | some t => exact .inr ⟨t, t, rfl, rfl, hrefl t⟩) with ⟨e, h1, h2⟩ | ⟨r, r', r0, r0', u, h1, h2, h3⟩
        · left
          rcases hl : schnorrLoopW W (p.sighashTaproot n tx) i i.tapKeyOrigins.l i.tapKeySig i.tapScriptSigs [] s with ⟨a, s1⟩
          rw [hl] at h1
          simp only at h1
          subst h1
          rw [h2]
          cases e <;> rfl
        · right
          rcases hl : schnorrLoopW W (p.sighashTaproot n tx) i i.tapKeyOrigins.l i.tapKeySig i.tapScriptSigs [] s with ⟨a, s1⟩
          rw [hl] at h1
          simp only at h1
          subst h1
          rw [h2]
          refine ⟨_, _, _, rfl, rfl, rfl, rfl, ?_⟩
          intro a
          have := h3 a
          cases a <;> exact this

end Steady
end Psbt.V0
