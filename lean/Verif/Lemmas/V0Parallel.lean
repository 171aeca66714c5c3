/- Signing by several signers, PSBT v0. -/
import Verif.Props.V0Sign
import Verif.Lemmas.V0Combine
import Verif.Lemmas.Parallel
import Verif.Spec.V0Parallel
namespace Psbt.V0
open Psbt

variable {L : Lib} {S : SigLib L}

/-! ### Messages exist for all leaves or for none -/

theorem tapSighash_leaf {tx : Tx} {n : Nat} {q : Prevouts} {ty : TapTy} (leaf leaf' : Option Hash32)
    (h : ∃ m, tapSighash L tx n q leaf ty = .ok m) : ∃ m, tapSighash L tx n q leaf' ty = .ok m := by
  obtain ⟨m, h⟩ := h
  unfold tapSighash tapPreimage at h ⊢
  simp only [bind_ok] at h ⊢
  obtain ⟨b, h, -⟩ := h
  cases q with
  | one j u =>
    simp only [Bool.false_eq_true, ↓reduceIte, bind_ok] at h ⊢
    obtain ⟨x, h1, y, h2, z, h3, -⟩ := h
    exact ⟨_, _, ⟨x, h1, y, h2, z, h3, rfl⟩, rfl⟩
  | all us =>
    by_cases hc : us.length ≠ tx.input.length
    · rw [if_pos (decide_eq_true hc)] at h
      cases h
    · simp only [hc, decide_false, Bool.false_eq_true, ↓reduceIte, bind_ok] at h ⊢
      obtain ⟨x, h1, y, h2, z, h3, -⟩ := h
      exact ⟨_, _, ⟨x, h1, y, h2, z, h3, rfl⟩, rfl⟩

theorem sighashTaproot_leaf {p : Psbt L} {n : Nat} {tx : Tx} (leaf leaf' : Option Hash32)
    (h : ∃ r, p.sighashTaproot n tx leaf = .ok r) : ∃ r, p.sighashTaproot n tx leaf' = .ok r := by
  obtain ⟨r, h⟩ := h
  unfold Psbt.sighashTaproot at h ⊢
  rw [bind_ok] at h
  obtain ⟨a, h1, h⟩ := h
  rw [h1]
  simp only [ok_bind]
  split at h
  · cases h
  · rename_i hc
    simp only [hc, ↓reduceIte]
    rw [bind_ok] at h
    obtain ⟨i, h2, h⟩ := h
    rw [bind_ok] at h
    obtain ⟨t, h3, h⟩ := h
    rw [h2, h3]
    simp only [ok_bind]
    cases t with
    | tr =>
      simp only at h ⊢
      cases h4 : i.taprootHashTy with
      | none => rw [h4] at h; cases h
      | some ty =>
        rw [h4] at h
        simp only at h ⊢
        rw [bind_ok] at h
        obtain ⟨us, h5, h⟩ := h
        rw [bind_ok] at h
        obtain ⟨q, h6, h⟩ := h
        rw [h5]
        simp only [ok_bind]
        rw [h6]
        simp only [ok_bind]
        cases h7 : tapSighash L tx n q leaf ty with
        | error x => rw [h7] at h; cases h
        | ok x =>
          obtain ⟨m, h8⟩ := tapSighash_leaf leaf leaf' ⟨x, h7⟩
          rw [h8]
          exact ⟨_, rfl⟩
    | _ => cases h

/-! ### What a signer adds -/

/-- The ECDSA signatures a signer adds to input `n`. -/
def freshE (S : SigLib L) (k : Provider S) (p : Psbt L) (n : Nat) (pk : L.pubkey.T) : Option (EcdsaSig L) :=
  match p.inputs[n]? with
  | none => none
  | some i =>
    match p.signingAlgorithm n, p.sighashEcdsa n p.unsignedTx with
    | .ok .ecdsa, .ok (m, ty) => (Spec.addSigs S m ty (Spec.V0.keysFor S k i) .empty).get pk
    | _, _ => none

/-- The key path signature a signer adds to input `n` if there is none. -/
def freshK (S : SigLib L) (k : Provider S) (p : Psbt L) (n : Nat) : Option TapSig :=
  match p.inputs[n]? with
  | none => none
  | some i =>
    match p.sighashTaproot n p.unsignedTx none with
    | .ok (m, ty) => (Spec.V0.keyPathKey S k (Spec.V0.eraseInput i)).map fun sk =>
        ⟨S.signSchnorr m (S.tapTweak (S.keypair sk) i.tapMerkleRoot), ty⟩
    | _ => none

/-- The leaf signatures a signer adds to input `n` where there are none. -/
def freshF (S : SigLib L) (k : Provider S) (p : Psbt L) (n : Nat) (x : L.xonly.T) (lh : Hash32) : Option TapSig :=
  match p.inputs[n]? with
  | none => none
  | some i =>
    match p.sighashTaproot n p.unsignedTx (some lh) with
    | .ok (m, ty) => (Spec.V0.leafKey S k (Spec.V0.eraseInput i) x lh).map fun sk => ⟨S.signSchnorr m (S.keypair sk), ty⟩
    | _ => none

theorem tx_congr {p a : Psbt L} (h : Spec.V0.erase a = Spec.V0.erase p) : a.unsignedTx = p.unsignedTx := by
  have : (Spec.V0.erase a).unsignedTx = (Spec.V0.erase p).unsignedTx := by rw [h]
  exact this

theorem input_congr {p a : Psbt L} (h : Spec.V0.erase a = Spec.V0.erase p) (n : Nat) :
    a.inputs[n]?.map Spec.V0.eraseInput = p.inputs[n]?.map Spec.V0.eraseInput := by
  rw [← hasInput_erase, h, hasInput_erase]

theorem length_congr {p a : Psbt L} (h : Spec.V0.erase a = Spec.V0.erase p) : a.inputs.length = p.inputs.length := by
  have : (Spec.V0.erase a).inputs.length = (Spec.V0.erase p).inputs.length := by rw [h]
  simpa [Spec.V0.erase] using this

theorem erased_eq {i j : Input L} (h : Spec.V0.eraseInput i = Spec.V0.eraseInput j) :
    i = { j with partialSigs := i.partialSigs, tapKeySig := i.tapKeySig, tapScriptSigs := i.tapScriptSigs } := by
  have h' : { (Spec.V0.eraseInput i) with partialSigs := i.partialSigs, tapKeySig := i.tapKeySig, tapScriptSigs := i.tapScriptSigs } =
    { (Spec.V0.eraseInput j) with partialSigs := i.partialSigs, tapKeySig := i.tapKeySig, tapScriptSigs := i.tapScriptSigs } := by rw [h]
  exact h'

theorem keysFor_congr {k : Provider S} {i j : Input L} (h : Spec.V0.eraseInput i = Spec.V0.eraseInput j) :
    Spec.V0.keysFor S k i = Spec.V0.keysFor S k j := by
  have : Spec.V0.keysFor S k (Spec.V0.eraseInput i) = Spec.V0.keysFor S k (Spec.V0.eraseInput j) := by rw [h]
  exact this

theorem root_congr {i j : Input L} (h : Spec.V0.eraseInput i = Spec.V0.eraseInput j) : i.tapMerkleRoot = j.tapMerkleRoot := by
  have : (Spec.V0.eraseInput i).tapMerkleRoot = (Spec.V0.eraseInput j).tapMerkleRoot := by rw [h]
  exact this

theorem algorithm_congr {p a : Psbt L} (h : Spec.V0.erase a = Spec.V0.erase p) (n : Nat) :
    a.signingAlgorithm n = p.signingAlgorithm n := by rw [← signingAlgorithm_erase, h, signingAlgorithm_erase]
theorem ecdsa_congr {p a : Psbt L} (h : Spec.V0.erase a = Spec.V0.erase p) (n : Nat) (tx : Tx) :
    a.sighashEcdsa n tx = p.sighashEcdsa n tx := by rw [← sighashEcdsa_erase, h, sighashEcdsa_erase]
theorem taproot_congr {p a : Psbt L} (h : Spec.V0.erase a = Spec.V0.erase p) (n : Nat) (tx : Tx) (leaf : Option Hash32) :
    a.sighashTaproot n tx leaf = p.sighashTaproot n tx leaf := by rw [← sighashTaproot_erase, h, sighashTaproot_erase]

theorem freshE_congr {p a : Psbt L} {k : Provider S} (h : Spec.V0.erase a = Spec.V0.erase p) (n : Nat) (pk : L.pubkey.T) :
    freshE S k a n pk = freshE S k p n pk := by
  have hi := input_congr h n
  unfold freshE
  rw [algorithm_congr h, tx_congr h, ecdsa_congr h]
  cases e1 : a.inputs[n]? with
  | none =>
    rw [e1] at hi
    have : p.inputs[n]? = none := by cases e : p.inputs[n]? with | none => rfl | some j => rw [e] at hi; cases hi
    rw [this]
  | some i =>
    rw [e1] at hi
    cases e2 : p.inputs[n]? with
    | none => rw [e2] at hi; cases hi
    | some j =>
      rw [e2] at hi
      simp only [Option.map_some, Option.some.injEq] at hi
      simp only [keysFor_congr hi]

theorem freshK_congr {p a : Psbt L} {k : Provider S} (h : Spec.V0.erase a = Spec.V0.erase p) (n : Nat) :
    freshK S k a n = freshK S k p n := by
  have hi := input_congr h n
  unfold freshK
  rw [tx_congr h, taproot_congr h]
  cases e1 : a.inputs[n]? with
  | none =>
    rw [e1] at hi
    have : p.inputs[n]? = none := by cases e : p.inputs[n]? with | none => rfl | some j => rw [e] at hi; cases hi
    rw [this]
  | some i =>
    rw [e1] at hi
    cases e2 : p.inputs[n]? with
    | none => rw [e2] at hi; cases hi
    | some j =>
      rw [e2] at hi
      simp only [Option.map_some, Option.some.injEq] at hi
      simp only [hi, root_congr hi]

theorem freshF_congr {p a : Psbt L} {k : Provider S} (h : Spec.V0.erase a = Spec.V0.erase p) (n : Nat) (x : L.xonly.T) (lh : Hash32) :
    freshF S k a n x lh = freshF S k p n x lh := by
  have hi := input_congr h n
  unfold freshF
  rw [tx_congr h, taproot_congr h]
  cases e1 : a.inputs[n]? with
  | none =>
    rw [e1] at hi
    have : p.inputs[n]? = none := by cases e : p.inputs[n]? with | none => rfl | some j => rw [e] at hi; cases hi
    rw [this]
  | some i =>
    rw [e1] at hi
    cases e2 : p.inputs[n]? with
    | none => rw [e2] at hi; cases hi
    | some j =>
      rw [e2] at hi
      simp only [Option.map_some, Option.some.injEq] at hi
      simp only [hi]

/-- The input `j` is `i` with these signatures added. -/
structure Adds (E : L.pubkey.T → Option (EcdsaSig L)) (K : Option TapSig) (F : L.xonly.T → Hash32 → Option TapSig) (i j : Input L) : Prop where
  ecdsa : ∀ pk, j.partialSigs.get pk = (E pk).or (i.partialSigs.get pk)
  key : j.tapKeySig = i.tapKeySig.or K
  leaf : ∀ x lh, j.tapScriptSigs.get (x, lh) = (i.tapScriptSigs.get (x, lh)).or (F x lh)
  rest : Spec.V0.eraseInput j = Spec.V0.eraseInput i

theorem Adds.none {i : Input L} {E : L.pubkey.T → Option (EcdsaSig L)} {K : Option TapSig} {F : L.xonly.T → Hash32 → Option TapSig}
    (h1 : ∀ pk, E pk = none) (h2 : K = none) (h3 : ∀ x lh, F x lh = none) : Adds E K F i i where
  ecdsa pk := by rw [h1]; rfl
  key := by rw [h2]; simp
  leaf x lh := by rw [h3]; simp
  rest := rfl

theorem Adds.unique {E : L.pubkey.T → Option (EcdsaSig L)} {K : Option TapSig} {F : L.xonly.T → Hash32 → Option TapSig} {i j j' : Input L}
    (h : Adds E K F i j) (h' : Adds E K F i j') : j = j' := by
  rw [erased_eq (h.rest.trans h'.rest.symm)]
  have e1 : j.partialSigs = j'.partialSigs := BMap.ext_get fun pk => by rw [h.ecdsa, h'.ecdsa]
  have e2 : j.tapScriptSigs = j'.tapScriptSigs := BMap.ext_get fun x => by rw [h.leaf, h'.leaf]
  rw [e1, e2, h.key, ← h'.key]

theorem spends_of_schnorr {p : Psbt L} {n : Nat} (h : p.signingAlgorithm n = .ok .schnorr) :
    Spec.V0.SpendsTaproot p n := by
  unfold Psbt.signingAlgorithm at h
  rw [bind_ok] at h
  obtain ⟨ty, ho, ht⟩ := h
  obtain ⟨t, i, u, hi, hu, hs⟩ := (outputType_iff _ n ty).mp ho
  cases ty <;> first | (cases ht; done) | skip
  cases hs with | tr hs => exact ⟨t, i, u, hi, hu, hs⟩

theorem keyPathKey_erase (k : Provider S) (i : Input L) :
    Spec.V0.keyPathKey S k i = if i.tapKeySig.isSome then none else Spec.V0.keyPathKey S k (Spec.V0.eraseInput i) := by
  unfold Spec.V0.keyPathKey Spec.V0.eraseInput
  cases i.tapKeySig <;> rfl

theorem leafKey_erase (k : Provider S) (i : Input L) (x : L.xonly.T) (lh : Hash32) :
    Spec.V0.leafKey S k i x lh = if (i.tapScriptSigs.get (x, lh)).isSome then none else Spec.V0.leafKey S k (Spec.V0.eraseInput i) x lh := by
  unfold Spec.V0.leafKey Spec.V0.eraseInput
  cases i.tapScriptSigs.get (x, lh) <;> rfl

theorem taproot_wrong {p : Psbt L} {n : Nat} {tx : Tx} {leaf : Option Hash32} (h : p.signingAlgorithm n ≠ .ok .schnorr) :
    ∀ r, p.sighashTaproot n tx leaf ≠ .ok r := by
  intro r hr
  unfold Psbt.sighashTaproot at hr
  cases e : p.signingAlgorithm n with
  | error x => rw [e] at hr; cases hr
  | ok a =>
    rw [e] at hr
    simp only [ok_bind] at hr
    cases a with
    | schnorr => exact h e
    | ecdsa => cases hr

theorem freshK_none {p : Psbt L} {k : Provider S} {n : Nat} (h : ∀ leaf r, p.sighashTaproot n p.unsignedTx leaf ≠ .ok r) :
    freshK S k p n = none := by
  unfold freshK
  split
  · rfl
  · split
    · rename_i h'; exact absurd h' (h _ _)
    · rfl

theorem freshF_none {p : Psbt L} {k : Provider S} {n : Nat} (h : ∀ leaf r, p.sighashTaproot n p.unsignedTx leaf ≠ .ok r)
    (x : L.xonly.T) (lh : Hash32) : freshF S k p n x lh = none := by
  unfold freshF
  split
  · rfl
  · split
    · rename_i h'; exact absurd h' (h _ _)
    · rfl

/-- What signing does to an input, in one formula. -/
theorem sign_input {p q : Psbt L} {k : Provider S} {r} (h : p.sign S k = .ok (q, r)) {n : Nat} {i : Input L}
    (hi : p.inputs[n]? = some i) :
    ∃ j, q.inputs[n]? = some j ∧ Adds (freshE S k p n) (freshK S k p n) (freshF S k p n) i j := by
  have hr := sign_inRange h
  obtain ⟨-, hp, -, h3⟩ := sign_spec h
  have hn := (List.getElem?_eq_some_iff.mp hi).1
  have h4 := h3 n
  rw [if_pos hn] at h4
  have hnp := hp n hn
  by_cases hs : p.signingAlgorithm n = .ok .schnorr
  · have hE : ∀ pk, freshE S k p n pk = none := by intro pk; unfold freshE; simp only [hi, hs]
    obtain ⟨t, i', u, g1, g2, g3⟩ := spends_of_schnorr hs
    have : i' = i := by have := g1.2; rw [hi] at this; exact (Option.some.inj this).symm
    subst this
    rcases C50_schnorr h g1 ⟨t, i', u, g1, g2, g3⟩ with ⟨hm, ⟨j, hj, c1, c2, c3⟩, -⟩ | ⟨⟨leaf, -, hno⟩, hj, -⟩
    · refine ⟨j, hj, ?_, ?_, ?_, ?_⟩
      · intro pk
        rw [hE, c3]; rfl
      · rw [keyPathKey_erase] at c1
        unfold freshK
        rw [hi]
        cases hk : i'.tapKeySig with
        | some s => rw [hk] at c1; simpa using c1
        | none =>
          simp only [hk, Option.isSome_none, Bool.false_eq_true, if_false] at c1
          cases hkk : Spec.V0.keyPathKey S k (Spec.V0.eraseInput i') with
          | none =>
            rw [hkk] at c1
            rw [c1]
            cases p.sighashTaproot n p.unsignedTx none with
            | ok mt => simp [hkk]
            | error e => rfl
          | some sk =>
            rw [hkk] at c1
            obtain ⟨m, ty, ht, c1⟩ := c1
            rw [(sighashTaproot_iff hr).mpr ht, c1]
            simp [hkk]
      · intro x lh
        have c2 := c2 x lh
        rw [leafKey_erase] at c2
        unfold freshF
        rw [hi]
        cases hk : i'.tapScriptSigs.get (x, lh) with
        | some s => rw [hk] at c2; simpa using c2
        | none =>
          simp only [hk, Option.isSome_none, Bool.false_eq_true, if_false] at c2
          cases hkk : Spec.V0.leafKey S k (Spec.V0.eraseInput i') x lh with
          | none =>
            rw [hkk] at c2
            rw [c2]
            cases p.sighashTaproot n p.unsignedTx (some lh) with
            | ok mt => simp [hkk]
            | error e => rfl
          | some sk =>
            rw [hkk] at c2
            obtain ⟨m, ty, ht, c2⟩ := c2
            rw [(sighashTaproot_iff hr).mpr ht, c2]
            simp [hkk]
      · rw [c3]; rfl
    · have hno' : ∀ leaf r, p.sighashTaproot n p.unsignedTx leaf ≠ .ok r := by
        intro leaf' r hok
        cases e : p.sighashTaproot n p.unsignedTx leaf with
        | ok mt => exact hno mt.1 mt.2 ((sighashTaproot_iff hr).mp e)
        | error e' =>
          obtain ⟨r, hr⟩ := sighashTaproot_leaf leaf' leaf ⟨_, hok⟩
          rw [e] at hr; cases hr
      exact ⟨i', hj, .none hE (freshK_none hno') (freshF_none hno')⟩
  · have hno : ∀ leaf r, p.sighashTaproot n p.unsignedTx leaf ≠ .ok r := fun leaf => taproot_wrong hs
    rw [h4.1, hi]
    unfold outcome at hnp ⊢
    cases ha : p.signingAlgorithm n with
    | error e =>
      have hE : ∀ pk, freshE S k p n pk = none := by intro pk; unfold freshE; simp only [hi, ha]
      cases e with
      | panic s => rw [ha] at hnp; exact absurd rfl (hnp s)
      | err e => exact ⟨i, rfl, .none hE (freshK_none hno) (freshF_none hno)⟩
    | ok a =>
      cases a with
      | schnorr => exact absurd ha hs
      | ecdsa =>
        simp only [ha, hi] at hnp ⊢
        cases hsig : p.sighashEcdsa n p.unsignedTx with
        | error e =>
          have hE : ∀ pk, freshE S k p n pk = none := by intro pk; unfold freshE; simp only [ha, hi, hsig]
          cases e with
          | panic s => rw [hsig] at hnp; exact absurd rfl (hnp s)
          | err e =>
            refine ⟨i, ?_, .none hE (freshK_none hno) (freshF_none hno)⟩
            simp only
            split <;> rfl
        | ok mt =>
          obtain ⟨m, ty⟩ := mt
          refine ⟨_, rfl, ?_, ?_, ?_, rfl⟩
          · intro pk
            unfold freshE
            rw [ha, hi, hsig]
            exact V2.addSigs_get _ _ _
          · simp [freshK_none hno]
          · intro x lh; simp [freshF_none hno]

end Psbt.V0
