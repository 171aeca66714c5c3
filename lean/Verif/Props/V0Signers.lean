/- C91: several signers complete a PSBT v0 together. -/
import Verif.Spec.Signers
import Verif.Props.V0Complete
import Verif.Props.V0Parallel
namespace Psbt.V0
open Psbt Spec Spec.V0

variable {L : Lib} {S : SigLib L} {M : MsLib L} {out : S.Keypair → FixedBytes 32} {enough : MsCtx → Bytes → List L.pubkey.T → Prop}

/-- A PSBT each of whose inputs can be finalized becomes a transaction. -/
theorem completes {q : Psbt L} (hq : Sound q) (hun : ∀ t ∈ q.unsignedTx.input, t.scriptSig = [] ∧ t.witness = []) (mall : Bool)
    (hfin : ∀ n < q.inputs.length, ∃ j, q.inputs[n]? = some j ∧ ∀ p', Same q p' → p'.inputs[n]? = some j →
      ∃ s w, (s ≠ [] ∨ w ≠ []) ∧ Verdict M p' n s w none ∧ Result M p' n mall (.ok (V0.onlyFinal j s w))) :
    ∃ r tx, q.finalizeMut M mall = .ok (r, []) ∧ r.extract M = .ok tx ∧
      tx.version = q.unsignedTx.version ∧ tx.lockTime = q.unsignedTx.lockTime ∧ tx.output = q.unsignedTx.output ∧
      tx.input.length = q.unsignedTx.input.length ∧
      ∀ (n : Nat) t, q.unsignedTx.input[n]? = some t →
        ∃ s w, tx.input[n]? = some { t with scriptSig := s, witness := w } ∧ Verdict M q n s w none := by
  obtain ⟨rs, is, h1, h2, h3, h4⟩ := finalizeMut_spec (M := M) hq mall
  have hfin' : ∀ n < q.inputs.length, ∃ j s w, q.inputs[n]? = some j ∧ (s ≠ [] ∨ w ≠ []) ∧ Verdict M q n s w none ∧
      rs[n]? = some (.ok (V0.onlyFinal j s w)) ∧ is[n]? = some (V0.onlyFinal j s w) := by
    intro n hn
    obtain ⟨j, g1, g2⟩ := hfin n hn
    obtain ⟨r, k1, k2, k3, k4, k5⟩ := h4 n j g1
    obtain ⟨s, w, g3, g4, g5⟩ := g2 _ k4 k5
    have := result_unique (k4.sound hq) k3 g5
    subst this
    exact ⟨j, s, w, g1, g3, k4.symm.verdict g4, k1, k2⟩
  have herr : errors rs = [] := by
    refine errors_nil.mpr fun r hr => ?_
    obtain ⟨n, hn⟩ := List.getElem?_of_mem hr
    have hl := (List.getElem?_eq_some_iff.mp hn).1
    obtain ⟨j, s, w, -, -, -, g, -⟩ := hfin' n (by omega)
    cases hn.symm.trans g
    exact ⟨_, rfl⟩
  rw [herr] at h1
  have hall : AllFinal { q with inputs := is } := by
    intro j hj
    obtain ⟨n, hn⟩ := List.getElem?_of_mem hj
    have hl := (List.getElem?_eq_some_iff.mp hn).1
    obtain ⟨i, s, w, -, g0, -, -, g⟩ := hfin' n (by rw [← h3]; exact hl)
    cases hn.symm.trans g
    rcases g0 with g0 | g0
    · exact .inl (by simp [V0.onlyFinal, g0])
    · exact .inr (by simp [V0.onlyFinal, g0])
  obtain ⟨tx, htx⟩ := (C69_after_finalize_partial hq h1).mpr hall
  obtain ⟨e1, -, -, -, e2, e3, e4, e5, e6⟩ := (C69_extract_iff _ tx).mp htx
  refine ⟨_, tx, h1, htx, e2, e3, e4, e5, fun n t ht => ?_⟩
  have hl := (List.getElem?_eq_some_iff.mp ht).1
  obtain ⟨j, s, w, -, -, gv, -, g⟩ := hfin' n (by rw [hq.1]; exact hl)
  have e5' : tx.input.length = q.unsignedTx.input.length := e5
  obtain ⟨x, hx⟩ : ∃ x, tx.input[n]? = some x := ⟨_, List.getElem?_eq_getElem (by omega)⟩
  obtain ⟨k1, k2, k3, k4⟩ := e6 n t _ x ⟨ht, g⟩ hx
  obtain ⟨z1, z2⟩ := hun t (List.mem_of_getElem? ht)
  refine ⟨s, w, ?_, gv⟩
  have a1 : x.scriptSig = s := by
    rcases k3 with k3 | ⟨k3, k5⟩
    · have := congrArg (Option.getD · []) k3
      simpa [onlyFinal_getD.1] using this.symm
    · have := congrArg (Option.getD · []) k3
      rw [k5, z1]
      simpa [onlyFinal_getD.1] using this.symm
  have a2 : x.witness = w := by
    rcases k4 with k4 | ⟨k4, k5⟩
    · have := congrArg (Option.getD · []) k4
      simpa [onlyFinal_getD.2] using this.symm
    · have := congrArg (Option.getD · []) k4
      rw [k5, z2]
      simpa [onlyFinal_getD.2] using this.symm
  rw [hx]
  cases x; cases t
  simp_all

/-! ### Signing in turn -/

theorem turn_erase {ks : List (Provider S)} : ∀ {p q : Psbt L}, Spec.V0.signInTurn S p ks = .ok q → Spec.V0.erase q = Spec.V0.erase p := by
  induction ks with
  | nil => intro p q h; cases h; rfl
  | cons k ks ih =>
    intro p q h
    simp only [Spec.V0.signInTurn] at h
    cases e : p.sign S k with
    | error x => rw [e] at h; cases h
    | ok x => rw [e] at h; exact (ih h).trans (C50_frame e)

theorem turn_exists (ks : List (Provider S)) : ∀ {p : Psbt L}, Sound p → ∃ q, Spec.V0.signInTurn S p ks = .ok q := by
  induction ks with
  | nil => intro p _; exact ⟨p, rfl⟩
  | cons k ks ih =>
    intro p hp
    simp only [Spec.V0.signInTurn]
    cases e : p.sign S k with
    | error x =>
      cases x with
      | panic s => exact absurd hp.2 ((C50_panics_iff p k).mp ⟨s, e⟩)
      | err x => exact x.elim
    | ok x => exact ih ((same_of_erase (C50_frame e)).sound hp)

/-- All ECDSA signatures are made with the secret keys of their public keys, over `m`. -/
def AllValid (S : SigLib L) (m : Hash32) (ty : EcdsaTy) (i : Input L) : Prop :=
  ∀ pk sig, i.partialSigs.get pk = some sig → ∃ sk, S.pub sk = pk ∧ sig = ⟨S.signEcdsa m sk, ty⟩

theorem addSigs_valid {m : Hash32} {ty : EcdsaTy} (sks : List S.SK) : ∀ (sigs : BMap L.pubkey.T (EcdsaSig L)),
    (∀ pk sig, sigs.get pk = some sig → ∃ sk, S.pub sk = pk ∧ sig = ⟨S.signEcdsa m sk, ty⟩) →
    ∀ pk sig, (addSigs S m ty sks sigs).get pk = some sig → ∃ sk, S.pub sk = pk ∧ sig = ⟨S.signEcdsa m sk, ty⟩ := by
  induction sks with
  | nil => intro sigs h; exact h
  | cons sk sks ih =>
    intro sigs h
    refine ih _ fun pk sig hg => ?_
    by_cases e : pk = S.pub sk
    · subst e
      rw [BMap.get_insert_self] at hg
      cases hg
      exact ⟨sk, rfl, rfl⟩
    · rw [BMap.get_insert_ne _ e] at hg
      exact h pk sig hg

theorem hasInput_of_erase {p q : Psbt L} (h : Spec.V0.erase q = Spec.V0.erase p) {n : Nat} {t : TxIn} {i : Input L} (hi : HasInput p n t i) :
    ∃ j, HasInput q n t j ∧ eraseInput j = eraseInput i := by
  have h1 : q.unsignedTx = p.unsignedTx := (Psbt.mk.inj h).1
  have h2 : q.inputs.map eraseInput = p.inputs.map eraseInput := (Psbt.mk.inj h).2.2.2.2.2.1
  have h3 := congrArg (·[n]?) h2
  simp only [List.getElem?_map, hi.2, Option.map_some] at h3
  obtain ⟨j, hj, e⟩ := Option.map_eq_some_iff.mp h3
  exact ⟨j, ⟨by rw [h1]; exact hi.1, hj⟩, e⟩

theorem erase_fields {i j : Input L} (h : eraseInput j = eraseInput i) :
    j.witnessUtxo = i.witnessUtxo ∧ j.nonWitnessUtxo = i.nonWitnessUtxo ∧ j.redeemScript = i.redeemScript ∧
    j.witnessScript = i.witnessScript ∧ j.sighashType = i.sighashType ∧ j.bip32Derivation = i.bip32Derivation ∧
    j.tapInternalKey = i.tapInternalKey ∧ j.tapKeyOrigins = i.tapKeyOrigins ∧ j.tapMerkleRoot = i.tapMerkleRoot := by
  unfold eraseInput at h
  have h := Input.mk.inj h
  simp_all

theorem fundedBy_erase {i j : Input L} (h : eraseInput j = eraseInput i) {t : TxIn} {u : TxOut} (hu : FundedBy t i u) : FundedBy t j u := by
  obtain ⟨e1, e2, -⟩ := erase_fields h
  cases hu with
  | witness a => exact .witness (e1.trans a)
  | nonWitness a b c => exact .nonWitness (e1.trans a) (e2.trans b) c

theorem message_erase {i j : Input L} (h : eraseInput j = eraseInput i) {tx : Tx} {n : Nat} {u : TxOut} {ty : EcdsaTy} {m : Hash32}
    (hm : Message tx n i u ty m) : Message tx n j u ty m := by
  obtain ⟨-, -, e3, e4, -⟩ := erase_fields h
  cases hm with
  | bare a b => exact .bare (e3 ▸ a) b
  | sh a b c => exact .sh (e3 ▸ a) (e3.trans b) c
  | wpkh a b => exact .wpkh a b
  | shWpkh a b c => exact .shWpkh a (e3.trans b) c
  | wsh a b c => exact .wsh a (e4.trans b) c
  | shWsh a b c d e => exact .shWsh a (e3.trans b) c (e4.trans d) e

/-- What signers make of an input that is spent with ECDSA signatures. -/
theorem turn_ecdsa {ks : List (Provider S)} {n : Nat} {t : TxIn} {u : TxOut} {ty : EcdsaTy} {m : Hash32} {o : OutputType} :
    ∀ {p q : Psbt L} {i : Input L}, Spec.V0.signInTurn S p ks = .ok q → HasInput p n t i → FundedBy t i u → DeclaredType i ty →
    Message p.unsignedTx n i u ty m → SpendType u.scriptPubkey i.redeemScript o → o ≠ .tr → AllValid S m ty i →
    ∃ j, q.inputs[n]? = some j ∧ eraseInput j = eraseInput i ∧ AllValid S m ty j ∧
      ∀ pk, i.partialSigs.get pk ≠ none ∨ Someone S ks i pk → j.partialSigs.get pk ≠ none := by
  induction ks with
  | nil =>
    intro p q i h hi hu hd hm ho hne hv
    cases h
    refine ⟨i, hi.2, rfl, hv, fun pk h => ?_⟩
    rcases h with h | ⟨k, hk, -⟩
    · exact h
    · cases hk
  | cons k ks ih =>
    intro p q i h hi hu hd hm ho hne hv
    simp only [Spec.V0.signInTurn] at h
    cases e : p.sign S k with
    | error x => rw [e] at h; cases h
    | ok x =>
      rw [e] at h
      obtain ⟨p', r⟩ := x
      have he := C50_frame e
      have hstep : ∃ j, p'.inputs[n]? = some j ∧ AllValid S m ty j ∧ eraseInput j = eraseInput i ∧
          ∀ pk, i.partialSigs.get pk ≠ none ∨ pk ∈ (Spec.V0.keysFor S k i).map S.pub → j.partialSigs.get pk ≠ none := by
        rcases C50_ecdsa e hi ⟨t, i, u, o, hi, hu, ho, hne⟩ with ⟨h1, h2, -⟩ | ⟨-, ⟨m', ty', h1, h2, -⟩ | ⟨h1, -⟩⟩
        · refine ⟨i, h2, hv, rfl, fun pk hpk => ?_⟩
          rw [h1] at hpk
          simpa using hpk
        · obtain ⟨rfl, rfl⟩ := signs_unique h1 ⟨t, i, u, hi, hu, hd, hm⟩
          refine ⟨_, h2, addSigs_valid _ _ hv, rfl, fun pk hpk => ?_⟩
          rw [V2.addSigs_get]
          rcases hpk with hpk | hpk
          · intro h'; exact hpk (Option.or_eq_none_iff.mp h').2
          · intro h'; exact (V2.addSigs_none _ _).mp (Option.or_eq_none_iff.mp h').1 hpk
        · exact absurd ⟨t, i, u, hi, hu, hd, hm⟩ (h1 m ty)
      obtain ⟨j, hj, hv', ej, hin⟩ := hstep
      obtain ⟨e1, e2, e3, e4, e5, e6, -⟩ := erase_fields ej
      have htx : p'.unsignedTx = p.unsignedTx := (Psbt.mk.inj he).1
      obtain ⟨j', g1, g2, g3, g4⟩ := ih h ⟨by rw [htx]; exact hi.1, hj⟩ (fundedBy_erase ej hu) (by unfold Spec.V0.DeclaredType; rw [e5]; exact hd)
        (by rw [htx]; exact message_erase ej hm) (e3 ▸ ho) hne hv'
      refine ⟨j', g1, g2.trans ej, g3, fun pk hpk => g4 pk ?_⟩
      rcases hpk with hpk | ⟨k', hk', sk, hsk, rfl⟩
      · exact .inl (hin pk (.inl hpk))
      · rcases List.mem_cons.mp hk' with rfl | hk'
        · exact .inl (hin _ (.inr (List.mem_map.mpr ⟨sk, hsk, rfl⟩)))
        · refine .inr ⟨k', hk', sk, ?_, rfl⟩
          unfold Spec.V0.keysFor at hsk ⊢
          rw [e6]; exact hsk

theorem tapSigns_erase {p q : Psbt L} (h : Spec.V0.erase q = Spec.V0.erase p) {n : Nat} {leaf m ty} (hm : TapSigns p n leaf m ty) :
    TapSigns q n leaf m ty := by
  have htx : q.unsignedTx = p.unsignedTx := (Psbt.mk.inj h).1
  obtain ⟨t, i, u, h1, h2, h3, h4, h5⟩ := hm
  obtain ⟨j, g1, g2⟩ := hasInput_of_erase h h1
  obtain ⟨-, -, -, -, e5, -⟩ := erase_fields g2
  refine ⟨t, j, u, g1, fundedBy_erase g2 h2, h3, by unfold DeclaredTapType; rw [e5]; exact h4, ?_⟩
  rw [htx]
  rcases h5 with h5 | ⟨h5, us, h6, h7⟩
  · exact .inl h5
  · exact .inr ⟨h5, us, by rw [← htx]; exact (same_of_erase h).funding h6, h7⟩

/-- What signers make of the key path of a taproot input. -/
theorem turn_tap {ks : List (Provider S)} {n : Nat} {t : TxIn} {u : TxOut} {ty : TapTy} {m : Hash32} {P : S.Keypair → Prop} :
    ∀ {p q : Psbt L} {i : Input L}, Sound p → Spec.V0.signInTurn S p ks = .ok q → HasInput p n t i → FundedBy t i u → TapSigns p n none m ty →
    (∀ sig, i.tapKeySig = some sig → ∃ kp, P kp ∧ sig = ⟨S.signSchnorr m kp, ty⟩) →
    (∀ k ∈ ks, ∀ sk, keyPathKey S k i = some sk → P (S.tapTweak (S.keypair sk) i.tapMerkleRoot)) →
    ∃ j, q.inputs[n]? = some j ∧ eraseInput j = eraseInput i ∧
      (∀ sig, j.tapKeySig = some sig → ∃ kp, P kp ∧ sig = ⟨S.signSchnorr m kp, ty⟩) ∧
      (i.tapKeySig ≠ none ∨ (∃ k ∈ ks, keyPathKey S k i ≠ none) → j.tapKeySig ≠ none) := by
  induction ks with
  | nil =>
    intro p q i hp h hi hu hm hv hk
    cases h
    refine ⟨i, hi.2, rfl, hv, fun h => ?_⟩
    rcases h with h | ⟨k, hk, -⟩
    · exact h
    · cases hk
  | cons k ks ih =>
    intro p q i hp h hi hu hm hv hk
    simp only [Spec.V0.signInTurn] at h
    cases e : p.sign S k with
    | error x => rw [e] at h; cases h
    | ok x =>
      rw [e] at h
      obtain ⟨p', r⟩ := x
      have he := C50_frame e
      have htr : P2tr u.scriptPubkey := by
        obtain ⟨t', i', u', k1, k2, k3, -⟩ := hm
        obtain ⟨rfl, rfl⟩ := hasInput_unique hi k1
        cases fundedBy_unique hu k2
        exact k3
      have hstep : ∃ j, p'.inputs[n]? = some j ∧ eraseInput j = eraseInput i ∧
          (∀ sig, j.tapKeySig = some sig → ∃ kp, P kp ∧ sig = ⟨S.signSchnorr m kp, ty⟩) ∧
          (i.tapKeySig ≠ none → j.tapKeySig = i.tapKeySig) ∧
          (i.tapKeySig ≠ none ∨ keyPathKey S k i ≠ none → j.tapKeySig ≠ none) := by
        rcases C50_schnorr e hi ⟨t, i, u, hi, hu, htr⟩ with ⟨-, ⟨j, g1, g2, g3, g4⟩, -⟩ | ⟨⟨leaf, -, g⟩, -⟩
        · have ej : eraseInput j = eraseInput i := by rw [g4]; rfl
          cases hkk : keyPathKey S k i with
          | none =>
            rw [hkk] at g2
            exact ⟨j, g1, ej, by rw [g2]; exact hv, fun _ => g2, by rw [g2]; simp⟩
          | some sk =>
            rw [hkk] at g2
            obtain ⟨m', ty', g6, g7⟩ := g2
            obtain ⟨rfl, rfl⟩ := tapSigns_unique hp.2 g6 hm
            have hnone : i.tapKeySig = none := by
              unfold keyPathKey at hkk
              split at hkk
              · assumption
              · cases hkk
            refine ⟨j, g1, ej, fun sig hsig => ?_, fun h => absurd hnone h, fun _ => by rw [g7]; simp⟩
            rw [g7] at hsig
            cases hsig
            exact ⟨_, hk k (by simp) sk hkk, rfl⟩
        · obtain ⟨m', hm'⟩ := tapSigns_leaf_ok hm leaf
          exact absurd hm' (g m' ty)
      obtain ⟨j, hj, ej, hv', hkeep, hset⟩ := hstep
      obtain ⟨e1, e2, e3, e4, e5, e6, e7, e8, e9⟩ := erase_fields ej
      have htx : p'.unsignedTx = p.unsignedTx := (Psbt.mk.inj he).1
      have hkp : ∀ k' sk, keyPathKey S k' j = some sk → keyPathKey S k' i = some sk := by
        intro k' sk h'
        by_cases hn : i.tapKeySig = none
        · unfold keyPathKey at h' ⊢
          rw [e7, e8] at h'
          rw [hn]
          cases hj' : j.tapKeySig with
          | none => rw [hj'] at h'; exact h'
          | some x => rw [hj'] at h'; simp at h'
        · unfold keyPathKey at h' ⊢
          rw [e7, e8, hkeep hn] at h'
          exact h'
      obtain ⟨j', g1, g2, g3, g4⟩ := ih ((same_of_erase he).sound hp) h ⟨by rw [htx]; exact hi.1, hj⟩ (fundedBy_erase ej hu)
        (tapSigns_erase he hm) hv' (fun k' hk' sk h' => by rw [e9]; exact hk k' (by simp [hk']) sk (hkp k' sk h'))
      refine ⟨j', g1, g2.trans ej, g3, fun h => g4 ?_⟩
      by_cases hjn : j.tapKeySig = none
      · rcases h with h | ⟨k', hk', h'⟩
        · exact absurd hjn (hset (.inl h))
        · rcases List.mem_cons.mp hk' with rfl | hk'
          · exact absurd hjn (hset (.inr h'))
          · refine .inr ⟨k', hk', fun hc => h' ?_⟩
            have hin : i.tapKeySig = none := by
              by_cases hi' : i.tapKeySig = none
              · exact hi'
              · exact absurd hjn (hset (.inl hi'))
            unfold keyPathKey at hc ⊢
            rw [e7, e8, hjn] at hc
            rw [hin]; exact hc
      · exact .inl hjn

/-! ### Finalizing -/

theorem firstKey_exists {X : Type} {P : L.pubkey.T → Prop} {sigs : List (L.pubkey.T × X)} (h : ∃ x ∈ sigs, P x.1) :
    ∃ pk, FirstKey sigs P pk := by
  induction sigs with
  | nil => obtain ⟨x, hx, -⟩ := h; cases hx
  | cons a l ih =>
    by_cases ha : P a.1
    · exact ⟨a.1, [], a.2, l, rfl, ha, by simp⟩
    · obtain ⟨x, hx, hp⟩ := h
      rcases List.mem_cons.mp hx with rfl | hx
      · exact absurd hp ha
      · obtain ⟨pk, l1, s, l2, e, h1, h2⟩ := ih ⟨x, hx, hp⟩
        exact ⟨pk, a :: l1, s, l2, by rw [e]; rfl, h1, fun y hy => by
          rcases List.mem_cons.mp hy with rfl | hy
          · exact ha
          · exact h2 y hy⟩

theorem message_any_legacy {tx : Tx} {n : Nat} (h : n < tx.input.length) (code : Bytes) (ty : EcdsaTy) :
    ∃ m, legacySighash L tx n code ty = some m := by
  unfold legacySighash
  rw [List.getElem?_eq_getElem h]
  simp only
  split
  · exact ⟨_, rfl⟩
  · exact ⟨_, rfl⟩

theorem message_any_segwit {tx : Tx} {n : Nat} (h : n < tx.input.length) (code : Bytes) (v : UInt64) (ty : EcdsaTy) :
    ∃ m, segwitSighash L tx n code v ty = some m := by
  unfold segwitSighash
  rw [List.getElem?_eq_getElem h]
  exact ⟨_, rfl⟩

/-- There is a message to sign, and signatures of the keys make the input final. -/
theorem ecdsa_final (laws : KeyLaws S M out) (slaws : ScriptLaws S M enough) {ks : List (Provider S)} {p : Psbt L} {n : Nat}
    {t : TxIn} {i : Input L} {u : TxOut} {ty : EcdsaTy} (hi : HasInput p n t i) (hu : FundedBy t i u)
    (hs : EcdsaSpend S enough ks i u.scriptPubkey) {us : List TxOut} (hf : Funding p.unsignedTx.input p.inputs us) :
    ∃ o m, o ≠ OutputType.tr ∧ SpendType u.scriptPubkey i.redeemScript o ∧ Message p.unsignedTx n i u ty m ∧
      ∀ j, eraseInput j = eraseInput i → AllValid S m ty j → (∀ pk, Someone S ks i pk → j.partialSigs.get pk ≠ none) →
      ∀ p' mall, Same p p' → p'.inputs[n]? = some j →
        ∃ s w, (s ≠ [] ∨ w ≠ []) ∧ Verdict M p' n s w none ∧ Result M p' n mall (.ok (V0.onlyFinal j s w)) := by
  obtain ⟨f1, f2, f3⟩ := funding_iff.mp hf
  have hl := (List.getElem?_eq_some_iff.mp hi.1).1
  have hus : us[n]? = some u := by
    obtain ⟨t', i', g1, g2, g3⟩ := f3 n _ (List.getElem?_eq_getElem (by omega))
    obtain ⟨rfl, rfl⟩ := hasInput_unique hi ⟨g1, g2⟩
    rw [List.getElem?_eq_getElem (by omega), fundedBy_unique hu g3]
  have hpush : ∀ b, push b ≠ [] := fun b => by simp [push]
  have first : ∀ {P : L.pubkey.T → Prop} {j : Input L} {m pk}, AllValid S m ty j → P pk → j.partialSigs.get pk ≠ none →
      ∃ sk, P (S.pub sk) ∧ FirstKey j.partialSigs.l P (S.pub sk) ∧ j.partialSigs.get (S.pub sk) = some ⟨S.signEcdsa m sk, ty⟩ := by
    intro P j m pk hv hp hg
    obtain ⟨sig, hsig⟩ := Option.ne_none_iff_exists'.mp hg
    obtain ⟨pk', hpk'⟩ := firstKey_exists (P := P) (sigs := j.partialSigs.l) ⟨(pk, sig), BMap.mem_iff_get.mpr hsig, hp⟩
    have hpk'' := hpk'
    obtain ⟨l1, s', l2, e, h1, h2⟩ := hpk'
    have hg' : j.partialSigs.get pk' = some s' := BMap.mem_iff_get.mp (by rw [e]; simp)
    obtain ⟨sk, rfl, rfl⟩ := hv _ _ hg'
    exact ⟨sk, h1, hpk'', hg'⟩
  have fin : ∀ {p' : Psbt L} {j mall s w}, Same p p' → p'.inputs[n]? = some j → (s ≠ [] ∨ w ≠ []) → Scripts M p' n mall (.ok (s, w)) →
      HasInput p' n t j → FundedBy t j u →
      M.interp ⟨u.scriptPubkey, s, w, t.sequence, p.unsignedTx.lockTime, p.unsignedTx, n, us⟩ = none →
      ∃ s w, (s ≠ [] ∨ w ≠ []) ∧ Verdict M p' n s w none ∧ Result M p' n mall (.ok (V0.onlyFinal j s w)) := by
    intro p' j mall s w hsame hj hne hsc hi' hu' hint
    have hv : Verdict M p' n s w none := ⟨t, j, u, us, hi', hu', hsame.funding hf, by rw [hsame.1]; exact hint⟩
    exact ⟨s, w, hne, hv, .done hj hsc hv⟩
  cases hs with
  | @pkh pk hc hsome =>
    obtain ⟨m, hm⟩ := message_any_legacy (L := L) hl u.scriptPubkey ty
    refine ⟨_, m, by decide, pkh_bare hc _, .bare (pkh_bare hc _) hm, fun j ej hv hin p' mall hsame hj => ?_⟩
    have hi' : HasInput p' n t j := ⟨by rw [hsame.1]; exact hi.1, hj⟩
    have hu' := fundedBy_erase ej hu
    obtain ⟨sk, h1, h2, h3⟩ := first hv hc (hin pk hsome)
    exact fin hsame hj (.inl (by simp [push]))
      (.other hi' hu' (notTr_pkh hc) (.pkh ⟨_, hc⟩ h2 (.ok (laws.accepts _).1)) (laws.pkh mall _ _ ⟨S.signEcdsa m sk, ty⟩ h3)) hi' hu'
      (laws.runPkh sk m ty _ _ _ _ n us h1 f1.symm (by rw [hus]; rfl) hm)
  | @wpkh pk hc hsome =>
    have hsp : SpendType u.scriptPubkey i.redeemScript .wpkh := .wpkh ⟨_, hc.2⟩
    obtain ⟨m, hm⟩ := message_any_segwit (L := L) hl (keyCode pk) u.value ty
    refine ⟨_, m, by decide, hsp, .wpkh hc.2 hm, fun j ej hv hin p' mall hsame hj => ?_⟩
    have hi' : HasInput p' n t j := ⟨by rw [hsame.1]; exact hi.1, hj⟩
    have hu' := fundedBy_erase ej hu
    obtain ⟨sk, h1, h2, h3⟩ := first hv hc (hin pk hsome)
    have hcode : keyCode (S.pub sk) = keyCode pk := by
      have := h1.2.symm.trans hc.2
      simp only [List.cons_append, List.nil_append, List.cons.injEq, true_and] at this
      unfold keyCode; rw [this]
    exact fin hsame hj (.inr (by simp))
      (.other hi' hu' (notTr_wpkh hc) (.wpkh ⟨_, hc.2⟩ h2 (.ok ((laws.accepts _).2 h1.1).1))
        (laws.wpkh mall _ _ ⟨S.signEcdsa m sk, ty⟩ h1.1 h3)) hi' hu'
      (laws.runWpkh sk m ty u _ _ _ n us h1 f1.symm hus (hcode ▸ hm))
  | @shWpkh r pk hc hr hw hsome =>
    have hsp : SpendType u.scriptPubkey i.redeemScript .shWpkh := .shWpkh ⟨_, hc⟩ hr ⟨_, hw.2⟩
    obtain ⟨m, hm⟩ := message_any_segwit (L := L) hl (keyCode pk) u.value ty
    refine ⟨_, m, by decide, hsp, .shWpkh ⟨_, hc⟩ (hw.2 ▸ hr) hm, fun j ej hv hin p' mall hsame hj => ?_⟩
    have hi' : HasInput p' n t j := ⟨by rw [hsame.1]; exact hi.1, hj⟩
    have hu' := fundedBy_erase ej hu
    obtain ⟨-, -, e3, -⟩ := erase_fields ej
    obtain ⟨sk, h1, h2, h3⟩ := first (P := CommitsWpkh r) hv hw (hin pk hsome)
    have hcode : keyCode (S.pub sk) = keyCode pk := by
      have := h1.2.symm.trans hw.2
      simp only [List.cons_append, List.nil_append, List.cons.injEq, true_and] at this
      unfold keyCode; rw [this]
    exact fin hsame hj (.inr (by simp))
      (.other hi' hu' (notTr_sh hc) (.shWpkh (e3.trans hr) hc ⟨_, hw.2⟩ h2 (.ok ((laws.accepts _).2 h1.1).2))
        (laws.shWpkh mall _ _ ⟨S.signEcdsa m sk, ty⟩ h1.1 h3)) hi' hu'
      (h1.2 ▸ laws.runShWpkh sk m ty u r _ _ _ n us hc h1 f1.symm hus (hcode ▸ hm))
  | @wsh w keys hc hr hw hen hsome =>
    have hsp : SpendType u.scriptPubkey i.redeemScript .wsh := .wsh ⟨_, hc⟩
    obtain ⟨m, hm⟩ := message_any_segwit (L := L) hl w u.value ty
    refine ⟨_, m, by decide, hsp, .wsh ⟨_, hc⟩ hw hm, fun j ej hv hin p' mall hsame hj => ?_⟩
    have hi' : HasInput p' n t j := ⟨by rw [hsame.1]; exact hi.1, hj⟩
    have hu' := fundedBy_erase ej hu
    obtain ⟨-, -, e3, e4, -⟩ := erase_fields ej
    obtain ⟨ms, h1, h2⟩ := slaws.segwit w keys hen
    have hnt : ¬ P2tr u.scriptPubkey := by
      rw [hc]; rintro ⟨x, hx⟩; simp at hx
    obtain ⟨wit, g1, g2, g3⟩ := slaws.wsh mall w keys ms (hashMap M (derivationKeys p')) (p'.satisfier M n j) u m ty t.sequence
      p.unsignedTx.lockTime p.unsignedTx n us hen h1 hc f1.symm hus hm ⟨fun pk hpk => hin pk (hsome pk hpk), hv⟩
    exact fin hsame hj (.inr g2)
      (.other hi' hu' hnt (.wsh (e3.trans hr) (e4.trans hw) hc (.ok h1 (.ok (h2 _).1))) g1) hi' hu' g3
  | @shWsh r w keys hc hr hcw hw hen hsome =>
    have hsp : SpendType u.scriptPubkey i.redeemScript .shWsh := .shWsh ⟨_, hc⟩ hr ⟨_, hcw⟩
    obtain ⟨m, hm⟩ := message_any_segwit (L := L) hl w u.value ty
    refine ⟨_, m, by decide, hsp, .shWsh ⟨_, hc⟩ hr ⟨_, hcw⟩ hw hm, fun j ej hv hin p' mall hsame hj => ?_⟩
    have hi' : HasInput p' n t j := ⟨by rw [hsame.1]; exact hi.1, hj⟩
    have hu' := fundedBy_erase ej hu
    obtain ⟨-, -, e3, e4, -⟩ := erase_fields ej
    obtain ⟨ms, h1, h2⟩ := slaws.segwit w keys hen
    obtain ⟨wit, g1, g2, g3⟩ := slaws.shWsh mall w keys ms (hashMap M (derivationKeys p')) (p'.satisfier M n j) u r m ty t.sequence
      p.unsignedTx.lockTime p.unsignedTx n us hen h1 hc hcw f1.symm hus hm ⟨fun pk hpk => hin pk (hsome pk hpk), hv⟩
    exact fin hsame hj (.inr g2)
      (.other hi' hu' (notTr_sh hc) (.shWsh (e3.trans hr) hc (e4.trans hw) hcw (.ok h1 (.ok (h2 _).2))) g1) hi' hu' g3
  | @sh r keys hc hr hn1 hn2 hw hen hsome =>
    have hsp : SpendType u.scriptPubkey i.redeemScript .sh := .sh ⟨_, hc⟩ (fun r' h' => by rw [hr] at h'; cases h'; exact ⟨hn1, hn2⟩)
    obtain ⟨m, hm⟩ := message_any_legacy (L := L) hl r ty
    refine ⟨_, m, by decide, hsp, .sh hsp hr hm, fun j ej hv hin p' mall hsame hj => ?_⟩
    have hi' : HasInput p' n t j := ⟨by rw [hsame.1]; exact hi.1, hj⟩
    have hu' := fundedBy_erase ej hu
    obtain ⟨-, -, e3, e4, -⟩ := erase_fields ej
    obtain ⟨ms, h1, h2⟩ := slaws.legacy r keys hen
    obtain ⟨sig, g1, g2, g3⟩ := slaws.sh mall r keys ms (p'.satisfier M n j) u.scriptPubkey m ty t.sequence
      p.unsignedTx.lockTime p.unsignedTx n us hen h1 hc f1.symm (by rw [hus]; rfl) hm ⟨fun pk hpk => hin pk (hsome pk hpk), hv⟩
    exact fin hsame hj (.inl g2)
      (.other hi' hu' (notTr_sh hc) (.sh (e3.trans hr) hc hn2 hn1 (e4.trans hw) (.ok h1 (.ok h2))) g1) hi' hu' g3

/-- An input that the signers can spend can be finalized after they signed. -/
theorem canSpend_final (laws : KeyLaws S M out) (slaws : ScriptLaws S M enough) {ks : List (Provider S)} {p q : Psbt L} (hp : Sound p)
    {us : List TxOut} (hf : Funding p.unsignedTx.input p.inputs us) (hq : Spec.V0.signInTurn S p ks = .ok q) {n : Nat}
    (hk : CanSpend S enough out ks p n) (mall : Bool) :
    ∃ j, q.inputs[n]? = some j ∧ ∀ p', Same q p' → p'.inputs[n]? = some j →
      ∃ s w, (s ≠ [] ∨ w ≠ []) ∧ Verdict M p' n s w none ∧ Result M p' n mall (.ok (V0.onlyFinal j s w)) := by
  obtain ⟨f1, f2, f3⟩ := funding_iff.mp hf
  have hsame := same_of_erase (turn_erase hq)
  cases hk with
  | @ecdsa t i u ty hi hu hem hd hs =>
    obtain ⟨o, m, hne, ho, hm, hfin⟩ := ecdsa_final (ty := ty) laws slaws hi hu hs hf
    obtain ⟨j, g1, g2, g3, g4⟩ := turn_ecdsa hq hi hu hd hm ho hne (fun pk sig h => by rw [hem] at h; cases h)
    exact ⟨j, g1, fun p' hp' hj => hfin j g2 g3 (fun pk h => g4 pk (.inr h)) p' mall (hsame.trans hp') hj⟩
  | @tr t i u m ty hi hu hno hm hsome hright =>
    obtain ⟨j, g1, g2, g3, g4⟩ := turn_tap
      (P := fun kp => u.scriptPubkey = [0x51, 0x20] ++ (out kp).1) hp hq hi hu hm (fun sig h => by rw [hno] at h; cases h) hright
    obtain ⟨sig, hsig⟩ := Option.ne_none_iff_exists'.mp (g4 (.inr hsome))
    obtain ⟨kp, hc, rfl⟩ := g3 sig hsig
    refine ⟨j, g1, fun p' hp' hj => ?_⟩
    have hs' := hsame.trans hp'
    have hi' : HasInput p' n t j := ⟨by rw [hs'.1]; exact hi.1, hj⟩
    have hu' := fundedBy_erase g2 hu
    have hl := (List.getElem?_eq_some_iff.mp hi.1).1
    have hus : us[n]? = some u := by
      obtain ⟨t', i', k1, k2, k3⟩ := f3 n _ (List.getElem?_eq_getElem (by omega))
      obtain ⟨rfl, rfl⟩ := hasInput_unique hi ⟨k1, k2⟩
      rw [List.getElem?_eq_getElem (by omega), fundedBy_unique hu k3]
    have hv : Verdict M p' n [] [schnorrBytes S m kp ty] none := by
      refine ⟨t, j, u, us, hi', hu', hs'.funding hf, ?_⟩
      rw [hs'.1]
      obtain ⟨t', i', u', k1, k2, -, -, k5⟩ := hm
      obtain ⟨rfl, rfl⟩ := hasInput_unique hi k1
      cases fundedBy_unique hu k2
      rcases k5 with ⟨-, k6⟩ | ⟨-, us', k6, k7⟩
      · exact laws.runTr _ m ty u _ _ _ n us _ hc f1.symm hus (.inr rfl) k6
      · cases funding_unique hf k6
        exact laws.runTr _ m ty u _ _ _ n us _ hc f1.symm hus (.inl rfl) k7
    exact ⟨[], [schnorrBytes S m kp ty], .inr (by simp), hv,
      .done hj (.tap hi' hu' ⟨_, hc⟩ (TapResult.key (sig := ⟨S.signSchnorr m kp, ty⟩) hsig)) hv⟩

/-- C91. If, for every input of a PSBT v0, the signers together have the keys that spending it takes (P2PKH, P2WPKH, scripts in
P2WSH, P2SH or both that need nothing but signatures, and the key path of taproot), then it is complete after they
signed it one after the other: finalizing and extracting succeed, whoever has which keys. The transaction is the
unsigned one with script sigs and witnesses that the interpreter accepts. -/
theorem C91_completed (laws : KeyLaws S M out) (slaws : ScriptLaws S M enough) {ks : List (Provider S)} {p : Psbt L} (hp : Sound p)
    (hun : ∀ t ∈ p.unsignedTx.input, t.scriptSig = [] ∧ t.witness = [])
    (hk : ∀ n < p.inputs.length, CanSpend S enough out ks p n) (mall : Bool) :
    ∃ q r tx, Spec.V0.signInTurn S p ks = .ok q ∧ q.finalizeMut M mall = .ok (r, []) ∧ r.extract M = .ok tx ∧
      tx.version = p.unsignedTx.version ∧ tx.lockTime = p.unsignedTx.lockTime ∧ tx.output = p.unsignedTx.output ∧
      tx.input.length = p.unsignedTx.input.length ∧
      ∀ (n : Nat) t, p.unsignedTx.input[n]? = some t →
        ∃ s w, tx.input[n]? = some { t with scriptSig := s, witness := w } ∧ Verdict M p n s w none := by
  obtain ⟨us, hf⟩ : ∃ us, Funding p.unsignedTx.input p.inputs us := by
    rcases prevouts_cases hp with ⟨us, -, h⟩ | ⟨n, -, ⟨i, h1, h2⟩, -⟩
    · exact ⟨us, h⟩
    · obtain ⟨t, j, u, g1, g2⟩ : ∃ t j u, HasInput p n t j ∧ FundedBy t j u := by
        cases hk n (List.getElem?_eq_some_iff.mp h1).1 with
        | ecdsa a b => exact ⟨_, _, _, a, b⟩
        | tr a b => exact ⟨_, _, _, a, b⟩
      cases h1.symm.trans g1.2
      exact absurd h2 (not_unfunded g2)
  obtain ⟨f1, f2, f3⟩ := funding_iff.mp hf
  obtain ⟨q, hq⟩ := turn_exists ks hp
  have he := turn_erase hq
  have hsame := same_of_erase he
  have htx : q.unsignedTx = p.unsignedTx := hsame.1
  obtain ⟨r, tx, h1, h2, h3, h4, h5, h6, h7⟩ := completes (M := M) (hsame.sound hp) (by rw [htx]; exact hun) mall (by
    intro n hn
    exact canSpend_final laws slaws hp hf hq (hk n (by rw [← hsame.length]; exact hn)) mall)
  rw [htx] at h3 h4 h5 h6 h7
  refine ⟨q, r, tx, hq, h1, h2, h3, h4, h5, h6, fun n t ht => ?_⟩
  obtain ⟨s, w, k1, k2⟩ := h7 n t ht
  exact ⟨s, w, k1, hsame.symm.verdict k2⟩

/-- C91. The same if the signers work on copies of the PSBT at the same time, and the copies are combined one after the other,
provided there are no ECDSA signatures yet and signers that have keys for the same origin have the same key. -/
theorem C91_copies (laws : KeyLaws S M out) (slaws : ScriptLaws S M enough) {k : Provider S} {ks : List (Provider S)} {p : Psbt L}
    (hp : Sound p) (hun : ∀ t ∈ p.unsignedTx.input, t.scriptSig = [] ∧ t.witness = [])
    (hk : ∀ n < p.inputs.length, CanSpend S enough out (k :: ks) p n) (hno : ∀ i ∈ p.inputs, i.partialSigs = .empty)
    (hagree : ∀ a ∈ k :: ks, ∀ b ∈ k :: ks, AgreeOnKeys S a b) (mall : Bool) :
    ∃ a res q r tx, p.sign S k = .ok (a, res) ∧ Spec.V0.combineCopies S p a ks = some q ∧ q.finalizeMut M mall = .ok (r, []) ∧
      r.extract M = .ok tx ∧
      tx.version = p.unsignedTx.version ∧ tx.lockTime = p.unsignedTx.lockTime ∧ tx.output = p.unsignedTx.output ∧
      tx.input.length = p.unsignedTx.input.length ∧
      ∀ (n : Nat) t, p.unsignedTx.input[n]? = some t →
        ∃ s w, tx.input[n]? = some { t with scriptSig := s, witness := w } ∧ Verdict M p n s w none := by
  obtain ⟨q, r, tx, h1, h2, h3⟩ := C91_completed laws slaws hp hun hk mall
  cases e : p.sign S k with
  | error x => simp only [Spec.V0.signInTurn, e] at h1; cases h1
  | ok x =>
    refine ⟨x.1, x.2, q, r, tx, rfl, C79_copies e (fun k' _ b r' _ n i j pk s hi _ hg => ?_) (fun k1 m1 k2 m2 b r1 c r2 hb hc => ?_) h1, h2, h3⟩
    · rw [hno i (List.mem_of_getElem? hi)] at hg
      cases hg
    · exact sameLeafSigs (hagree k1 m1 k2 m2) hb hc

/-! ### The hypotheses can be met -/

section Examples
/-- A script that takes a signature of each of these keys. -/
def mScript (keys : List gL.pubkey.T) : Bytes := keys.flatMap (fun k => k.bytes) ++ [0xae]
def mEnough (ctx : MsCtx) (s : Bytes) (keys : List gL.pubkey.T) : Prop := ctx ≠ .bare ∧ s = mScript keys
/-- The signatures of keys. -/
def mSigs (sat : Satisfier gL) (keys : List gL.pubkey.T) : List Bytes :=
  (keys.filterMap sat.ecdsaSig).map fun s => s.der.bytes ++ [s.ty.1]
/-- One signature for each key, all of them made with the keys over `m`. -/
def mGood (sigs : List Bytes) (keys : List gL.pubkey.T) (m : Hash32) (ty : EcdsaTy) : Prop :=
  sigs.length = keys.length ∧ ∀ b ∈ sigs, ∃ sk, gS.pub sk ∈ keys ∧ b = ecdsaBytes gS m sk ty

/-- What an interpreter has to accept. -/
inductive MAccepted : InterpArgs → Prop
  | key {a} : Accepted gS (fun kp => Demo.rep 32 kp.2) a → MAccepted a
  | wsh (w keys sigs u m ty csv cltv tx n us) : mEnough .segwitv0 w keys → CommitsWsh gL u.scriptPubkey w → us[n]? = some u →
      segwitSighash gL tx n w u.value ty = some m → mGood sigs keys m ty →
      MAccepted ⟨u.scriptPubkey, [], sigs ++ [w], csv, cltv, tx, n, us⟩
  | shWsh (w keys sigs u r m ty csv cltv tx n us) : mEnough .segwitv0 w keys → CommitsSh gL u.scriptPubkey r → CommitsWsh gL r w →
      us[n]? = some u → segwitSighash gL tx n w u.value ty = some m → mGood sigs keys m ty →
      MAccepted ⟨u.scriptPubkey, push r, sigs ++ [w], csv, cltv, tx, n, us⟩
  | sh (r keys sigs spk m ty csv cltv tx n us) : mEnough .legacy r keys → CommitsSh gL spk r →
      us[n]?.map TxOut.scriptPubkey = some spk → legacySighash gL tx n r ty = some m → mGood sigs keys m ty →
      MAccepted ⟨spk, (sigs.map push).flatten ++ push r, [], csv, cltv, tx, n, us⟩

open Classical in
/-- The keys of a script, if there are signatures of all of them. -/
noncomputable def mKeys (sat : Satisfier gL) (s : Bytes) : Option (List gL.pubkey.T) :=
  if h : ∃ keys, s = mScript keys ∧ ∀ pk ∈ keys, sat.ecdsaSig pk ≠ none then some h.choose else none

open Classical in
/-- A library that satisfies these scripts too. -/
noncomputable def mM : MsLib gL where
  ofSecp := yM.ofSecp
  Ms := Bytes
  parse _ s := if ∃ keys, s = mScript keys then some s else none
  substitute _ s := s
  accepts _ := true
  satisfy mall d sat := match d with
    | .wsh s => (mKeys sat s).map fun keys => (mSigs sat keys ++ [s], [])
    | .shWsh s => (mKeys sat s).map fun keys => (mSigs sat keys ++ [s], push ([0x00, 0x20] ++ (gL.sha256 s).1))
    | .sh s => (mKeys sat s).map fun keys => ([], ((mSigs sat keys).map push).flatten ++ push s)
    | d => yM.satisfy mall d sat
  TapMs := Bytes
  tapParse _ := none
  tapSubstitute _ b := b
  tapSatisfy _ _ _ := none
  tapEncode b := b
  interp a := if MAccepted a then none else some .satisfaction

theorem mM_laws : KeyLaws gS mM (fun kp => Demo.rep 32 kp.2) where
  accepts _ := ⟨rfl, fun _ => ⟨rfl, rfl⟩⟩
  pkh := yM_laws.pkh
  wpkh := yM_laws.wpkh
  shWpkh := yM_laws.shWpkh
  runPkh sk m ty spk csv cltv tx n us h1 h2 h3 h4 := if_pos (.key (.pkh sk m ty spk csv cltv tx n us h1 h2 h3 h4))
  runWpkh sk m ty u csv cltv tx n us h1 h2 h3 h4 := if_pos (.key (.wpkh sk m ty u csv cltv tx n us h1 h2 h3 h4))
  runShWpkh sk m ty u r csv cltv tx n us h1 h2 h3 h4 h5 := if_pos (.key (.shWpkh sk m ty u r csv cltv tx n us h1 h2 h3 h4 h5))
  runTr kp m ty u csv cltv tx n us q h1 h2 h3 h4 h5 := if_pos (.key (.tr kp m ty u csv cltv tx n us q h1 h2 h3 h4 h5))

theorem mKeys_ok {sat : Satisfier gL} {keys : List gL.pubkey.T} {m : Hash32} {ty : EcdsaTy} (h : GoodSigs gS sat keys m ty) :
    ∃ keys', mKeys sat (mScript keys) = some keys' ∧ mScript keys = mScript keys' ∧ mGood (mSigs sat keys') keys' m ty := by
  have hex : ∃ keys', mScript keys = mScript keys' ∧ ∀ pk ∈ keys', sat.ecdsaSig pk ≠ none := ⟨keys, rfl, h.1⟩
  have hsp := hex.choose_spec
  refine ⟨hex.choose, dif_pos hex, hsp.1, ?_, ?_⟩
  · generalize hex.choose = l at hsp
    have := hsp.2
    clear hsp
    unfold mSigs
    rw [List.length_map]
    induction l with
    | nil => rfl
    | cons a l ih =>
      cases ha : sat.ecdsaSig a with
      | none => exact absurd ha (this a (by simp))
      | some x => rw [List.filterMap_cons_some ha, List.length_cons, ih (fun pk hpk => this pk (by simp [hpk])), List.length_cons]
  · intro b hb
    obtain ⟨sig, hsig, rfl⟩ := List.mem_map.mp hb
    obtain ⟨pk, hpk, hs⟩ := List.mem_filterMap.mp hsig
    obtain ⟨sk, rfl, rfl⟩ := h.2 pk sig hs
    exact ⟨sk, hpk, rfl⟩

theorem mM_scripts : ScriptLaws gS mM mEnough where
  segwit w keys h := ⟨w, if_pos ⟨keys, h.2⟩, fun _ => ⟨rfl, rfl⟩⟩
  legacy w keys h := ⟨w, if_pos ⟨keys, h.2⟩, rfl⟩
  wsh mall w keys ms map sat u m ty csv cltv tx n us h1 h2 h3 h4 h5 h6 h7 := by
    obtain ⟨-, rfl⟩ := h1
    have : ms = mScript keys := by
      have : mM.parse .segwitv0 (mScript keys) = some (mScript keys) := if_pos ⟨keys, rfl⟩
      exact Option.some.inj (h2.symm.trans this)
    subst this
    obtain ⟨keys', e1, e2, e3⟩ := mKeys_ok h7
    refine ⟨mSigs sat keys' ++ [mScript keys], ?_, by simp, if_pos (.wsh _ keys' _ u m ty csv cltv tx n us ⟨by decide, e2⟩ h3 h5 h6 e3)⟩
    show (mKeys sat (mScript keys)).map _ = _
    rw [e1]; rfl
  shWsh mall w keys ms map sat u r m ty csv cltv tx n us h1 h2 h3 h3' h4 h5 h6 h7 := by
    obtain ⟨-, rfl⟩ := h1
    have : ms = mScript keys := by
      have : mM.parse .segwitv0 (mScript keys) = some (mScript keys) := if_pos ⟨keys, rfl⟩
      exact Option.some.inj (h2.symm.trans this)
    subst this
    obtain ⟨keys', e1, e2, e3⟩ := mKeys_ok h7
    refine ⟨mSigs sat keys' ++ [mScript keys], ?_, by simp, if_pos (.shWsh _ keys' _ u r m ty csv cltv tx n us ⟨by decide, e2⟩ h3 h3' h5 h6 e3)⟩
    show (mKeys sat (mScript keys)).map _ = _
    rw [e1, h3']; rfl
  sh mall r keys ms sat spk m ty csv cltv tx n us h1 h2 h3 h4 h5 h6 h7 := by
    obtain ⟨-, rfl⟩ := h1
    have : ms = mScript keys := by
      have : mM.parse .legacy (mScript keys) = some (mScript keys) := if_pos ⟨keys, rfl⟩
      exact Option.some.inj (h2.symm.trans this)
    subst this
    obtain ⟨keys', e1, e2, e3⟩ := mKeys_ok h7
    refine ⟨((mSigs sat keys').map push).flatten ++ push (mScript keys), ?_, by simp [push],
      if_pos (.sh _ keys' _ spk m ty csv cltv tx n us ⟨by decide, e2⟩ h3 h5 h6 e3)⟩
    show (mKeys sat (mScript keys)).map _ = _
    rw [e1]; rfl

def mPub (b : UInt8) : gL.pubkey.T := Demo.val 33 (by decide) b
/-- The script of two signers, and the ways to pay to it. -/
def mBoth : Bytes := mScript [mPub 2, mPub 4]
def mWsh : Bytes := [0x00, 0x20] ++ (gL.sha256 mBoth).1
/-- An input both signers have a key for. -/
def mIn (spk : Bytes) : Input gL := { gIn spk with
  bip32Derivation := (BMap.empty.insert (Demo.val 33 (by decide) 5) gOrigin).insert (Demo.val 33 (by decide) 6) (Demo.rep 4 3, [7]) }
/-- Three inputs that take both signers, one that the second can spend, and a taproot input that the first can spend. -/
def mTwo : Psbt gL := gP [
  { mIn mWsh with witnessScript := some mBoth },
  { mIn ([0xa9, 0x14] ++ (gL.hash160 mWsh).1 ++ [0x87]) with redeemScript := some mWsh, witnessScript := some mBoth },
  { mIn ([0xa9, 0x14] ++ (gL.hash160 mBoth).1 ++ [0x87]) with redeemScript := some mBoth },
  mIn ([0x00, 0x14] ++ (gL.hash160 (mPub 4).bytes).1), yTr]

theorem mSomeone {i : Input gL} (h : i.bip32Derivation = (mIn []).bip32Derivation) (pk : gL.pubkey.T) (hpk : pk ∈ [mPub 2, mPub 4]) :
    Someone gS [gKeys, pbKeys] i pk := by
  have a1 : Spec.V0.keysFor gS gKeys i = [ySk] := by unfold Spec.V0.keysFor; rw [h]; decide +kernel
  have a2 : Spec.V0.keysFor gS pbKeys i = [(4 : UInt8)] := by unfold Spec.V0.keysFor; rw [h]; rfl
  simp only [List.mem_cons, List.not_mem_nil, or_false] at hpk
  rcases hpk with rfl | rfl
  · exact ⟨gKeys, by simp, ySk, by simp [a1], rfl⟩
  · exact ⟨pbKeys, by simp, (4 : UInt8), by rw [a2]; exact List.mem_singleton.mpr rfl, rfl⟩

theorem mTwo_inputs : ∀ n < mTwo.inputs.length, CanSpend gS mEnough (fun kp => Demo.rep 32 kp.2) [gKeys, pbKeys] mTwo n := by
  intro n hn
  have hn : n < 5 := hn
  have hall : ∀ {i : Input gL}, i.sighashType = none → Spec.V0.DeclaredType i ⟨1, by decide⟩ := fun h => .inl ⟨h, rfl⟩
  match n, hn with
  | 0, _ =>
    exact .ecdsa ⟨rfl, rfl⟩ (.witness rfl) rfl (hall rfl)
      (.wsh (w := mBoth) (keys := [mPub 2, mPub 4]) rfl rfl rfl ⟨by decide, rfl⟩ (mSomeone rfl))
  | 1, _ =>
    exact .ecdsa ⟨rfl, rfl⟩ (.witness rfl) rfl (hall rfl)
      (.shWsh (r := mWsh) (w := mBoth) (keys := [mPub 2, mPub 4]) rfl rfl rfl rfl ⟨by decide, rfl⟩ (mSomeone rfl))
  | 2, _ =>
    have hl : mBoth.length = 67 := by decide +kernel
    exact .ecdsa ⟨rfl, rfl⟩ (.witness rfl) rfl (hall rfl)
      (.sh (r := mBoth) (keys := [mPub 2, mPub 4]) rfl rfl
        (by rintro ⟨h, e⟩; have := congrArg List.length e; simp [hl, h.2] at this)
        (by rintro ⟨h, e⟩; have := congrArg List.length e; simp [hl, h.2] at this) rfl ⟨by decide, rfl⟩ (mSomeone rfl))
  | 3, _ =>
    exact .ecdsa ⟨rfl, rfl⟩ (.witness rfl) rfl (hall rfl) (.wpkh (pk := mPub 4) ⟨rfl, rfl⟩ (mSomeone rfl _ (by simp)))
  | 4, _ =>
    have hr : IndicesInRange mTwo := (zSound _ (by decide)).2
    cases h : mTwo.sighashTaproot 4 mTwo.unsignedTx none with
    | error e =>
      have : (match mTwo.sighashTaproot 4 mTwo.unsignedTx none with | .ok _ => true | .error _ => false) = true := by decide +kernel
      rw [h] at this; cases this
    | ok x =>
      refine .tr ⟨rfl, rfl⟩ (.witness rfl) rfl ((sighashTaproot_iff hr).mp h) ⟨gKeys, by simp, ?_⟩ ?_
      · have : keyPathKey gS gKeys yTr = some ySk := rfl
        rw [this]; simp
      · intro k hk sk hsk
        simp only [List.mem_cons, List.not_mem_nil, or_false] at hk
        rcases hk with rfl | rfl
        · have : keyPathKey gS gKeys yTr = some ySk := rfl
          cases this.symm.trans hsk
          rfl
        · have : keyPathKey gS pbKeys yTr = none := by decide +kernel
          rw [this] at hsk; cases hsk

theorem agree_self (k : Provider gS) : AgreeOnKeys gS k k := by
  intro o sk sk' h h'
  rw [h] at h'
  cases h'; rfl

theorem agree_symm {k k' : Provider gS} (h : AgreeOnKeys gS k k') : AgreeOnKeys gS k' k :=
  fun o sk sk' h1 h2 => (h o sk' sk h2 h1).symm

-- Two signers on copies, each of them having one of the keys of the first three inputs.
example : ∃ a res q r tx, mTwo.sign gS gKeys = .ok (a, res) ∧ Spec.V0.combineCopies gS mTwo a [pbKeys] = some q ∧
    q.finalizeMut mM false = .ok (r, []) ∧ r.extract mM = .ok tx ∧ tx.input.length = 5 := by
  obtain ⟨a, res, q, r, tx, h1, h2, h3, h4, -, -, -, h5, -⟩ := C91_copies mM_laws mM_scripts (k := gKeys) (ks := [pbKeys]) (p := mTwo)
    (zSound _ (by decide)) (by decide) mTwo_inputs (by decide +kernel) (by
      intro a ha b hb
      simp only [List.mem_cons, List.not_mem_nil, or_false] at ha hb
      rcases ha with rfl | rfl <;> rcases hb with rfl | rfl
      · exact agree_self _
      · exact pb_agree
      · exact agree_symm pb_agree
      · exact agree_self _) false
  exact ⟨a, res, q, r, tx, h1, h2, h3, h4, h5⟩
-- Neither of them alone can complete the first input.
example : Spec.V0.keysFor gS gKeys (mIn mWsh) = [ySk] ∧ Spec.V0.keysFor gS pbKeys (mIn mWsh) = [(4 : UInt8)] := by
  constructor
  · decide +kernel
  · rfl
end Examples

end Psbt.V0
