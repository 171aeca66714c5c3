/- C88: a PSBT v0 with one key per input becomes a complete transaction. -/
import Verif.Spec.Complete
import Verif.Props.V0Finalize
import Verif.Props.V0Sign
namespace Psbt.V0
open Psbt Spec Spec.V0

variable {L : Lib} {S : SigLib L} {M : MsLib L} {k : Provider S} {out : S.Keypair → FixedBytes 32}

theorem same_of_erase {p q : Psbt L} (h : Spec.V0.erase q = Spec.V0.erase p) : Same p q := by
  unfold Spec.V0.erase at h
  have h1 : q.unsignedTx = p.unsignedTx := (Psbt.mk.inj h).1
  have h2 : q.inputs.map eraseInput = p.inputs.map eraseInput := (Psbt.mk.inj h).2.2.2.2.2.1
  refine ⟨h1, ?_⟩
  have := congrArg (List.map fun i : Input L => (i.nonWitnessUtxo, i.witnessUtxo)) h2
  simpa [List.map_map, Function.comp_def, eraseInput] using this

theorem signs_unique {p : Psbt L} {n : Nat} {m m' : Hash32} {ty ty' : EcdsaTy} (h : Signs p n m ty) (h' : Signs p n m' ty') :
    m = m' ∧ ty = ty' := by
  have e := ((sighashEcdsa_iff p n p.unsignedTx m ty).mpr h).symm.trans ((sighashEcdsa_iff p n p.unsignedTx m' ty').mpr h')
  cases e; exact ⟨rfl, rfl⟩

theorem tapSigns_unique {p : Psbt L} (hr : IndicesInRange p) {n : Nat} {leaf : Option Hash32} {m m' : Hash32} {ty ty' : TapTy}
    (h : TapSigns p n leaf m ty) (h' : TapSigns p n leaf m' ty') : m = m' ∧ ty = ty' := by
  have e := ((sighashTaproot_iff hr).mpr h).symm.trans ((sighashTaproot_iff hr).mpr h')
  cases e; exact ⟨rfl, rfl⟩

theorem tapSighash_leaf_ok {tx : Tx} {n : Nat} {q : Prevouts} {leaf leaf' : Option Hash32} {ty : TapTy} {m : Hash32}
    (h : tapSighash L tx n q leaf ty = .ok m) : ∃ m', tapSighash L tx n q leaf' ty = .ok m' := by
  unfold tapSighash at h ⊢
  rw [bind_ok] at h
  obtain ⟨b, h, -⟩ := h
  unfold tapPreimage at h ⊢
  cases q with
  | one a u =>
    simp only [Bool.false_eq_true, if_false, bind_ok] at h ⊢
    obtain ⟨x, hx, y, hy, z, hz, -⟩ := h
    exact ⟨_, _, ⟨x, hx, y, hy, z, hz, rfl⟩, rfl⟩
  | all us =>
    simp only [decide_eq_true_eq] at h ⊢
    by_cases hl : us.length ≠ tx.input.length
    · rw [if_pos hl] at h; cases h
    · rw [if_neg hl] at h ⊢
      simp only [bind_ok] at h ⊢
      obtain ⟨x, hx, y, hy, z, hz, -⟩ := h
      exact ⟨_, _, ⟨x, hx, y, hy, z, hz, rfl⟩, rfl⟩

theorem tapSigns_leaf_ok {p : Psbt L} {n : Nat} {leaf : Option Hash32} {m : Hash32} {ty : TapTy} (h : TapSigns p n leaf m ty)
    (leaf' : Option Hash32) : ∃ m', TapSigns p n leaf' m' ty := by
  obtain ⟨t, i, u, h1, h2, h3, h4, ⟨h5, h6⟩ | ⟨h5, us, h6, h7⟩⟩ := h
  · obtain ⟨m', h7⟩ := tapSighash_leaf_ok (leaf' := leaf') h6
    exact ⟨m', t, i, u, h1, h2, h3, h4, .inl ⟨h5, h7⟩⟩
  · obtain ⟨m', h8⟩ := tapSighash_leaf_ok (leaf' := leaf') h7
    exact ⟨m', t, i, u, h1, h2, h3, h4, .inr ⟨h5, us, h6, h8⟩⟩

theorem no_error {p q : Psbt L} {r} (h : p.sign S k = .ok (q, r)) {n : Nat} {keys}
    (hk : (keysReported r).get n = some keys) : (errorsReported r).get n = none := by
  have := (C50_reports h n).2.1
  cases e : (errorsReported r).get n with
  | none => rfl
  | some e' => exact absurd ⟨⟨_, hk⟩, e', e⟩ this

/-- One ECDSA key, no other signatures: the input gets exactly this signature. -/
theorem signed_ecdsa {p q : Psbt L} {r} (h : p.sign S k = .ok (q, r)) {n : Nat} {t : TxIn} {i : Input L} {u : TxOut} {sk : S.SK}
    {ty : EcdsaTy} {m : Hash32} {o : OutputType} (hi : HasInput p n t i) (hu : FundedBy t i u) (he : i.partialSigs = .empty)
    (hk : keysFor S k i = [sk]) (hd : DeclaredType i ty) (hm : Message p.unsignedTx n i u ty m)
    (ho : SpendType u.scriptPubkey i.redeemScript o) (hne : o ≠ .tr) :
    (errorsReported r).get n = none ∧
    q.inputs[n]? = some { i with partialSigs := BMap.insert .empty (S.pub sk) ⟨S.signEcdsa m sk, ty⟩ } := by
  rcases C50_ecdsa h hi ⟨t, i, u, o, hi, hu, ho, hne⟩ with ⟨h1, -⟩ | ⟨-, ⟨m', ty', h1, h2, h3⟩ | ⟨h1, -⟩⟩
  · rw [hk] at h1; cases h1
  · obtain ⟨rfl, rfl⟩ := signs_unique h1 ⟨t, i, u, hi, hu, hd, hm⟩
    refine ⟨no_error h h3, ?_⟩
    rw [h2, hk, he]; rfl
  · exact absurd ⟨t, i, u, hi, hu, hd, hm⟩ (h1 m ty)

theorem single_l (pk : L.pubkey.T) (sig : EcdsaSig L) :
    (BMap.insert (.empty : BMap L.pubkey.T (EcdsaSig L)) pk sig).l = [(pk, sig)] := rfl

theorem single_firstKey {P : L.pubkey.T → Prop} {pk : L.pubkey.T} {sig : EcdsaSig L} (h : P pk) :
    FirstKey (BMap.insert (.empty : BMap L.pubkey.T (EcdsaSig L)) pk sig).l P pk :=
  ⟨[], sig, [], single_l pk sig, h, by simp⟩

theorem pkh_bare {spk : Bytes} {pk : L.pubkey.T} (h : CommitsPkh spk pk) (redeem : Option Bytes) : SpendType spk redeem .bare := by
  unfold CommitsPkh at h
  subst h
  refine .bare ?_ ?_
  · rintro ⟨x, hx⟩; simp at hx
  · rintro ⟨v, prog, hv, -, -, hx⟩
    simp only [List.cons_append, List.nil_append, List.cons.injEq] at hx
    rw [← hx.1] at hv
    revert hv; decide

theorem notTr_pkh {spk : Bytes} {pk : L.pubkey.T} (h : CommitsPkh spk pk) : ¬ P2tr spk := by
  unfold CommitsPkh at h
  subst h
  rintro ⟨x, hx⟩; simp at hx
theorem notTr_wpkh {spk : Bytes} {pk : L.pubkey.T} (h : CommitsWpkh spk pk) : ¬ P2tr spk := by
  rw [h.2]
  rintro ⟨x, hx⟩; simp at hx
theorem notTr_sh {spk r : Bytes} (h : CommitsSh L spk r) : ¬ P2tr spk := by
  unfold CommitsSh at h
  subst h
  rintro ⟨x, hx⟩; simp at hx

/-- What the two roles make of one input. -/
theorem keyInput_step (laws : KeyLaws S M out) {p q : Psbt L} {r} (hp : Sound p) (h : p.sign S k = .ok (q, r)) {us : List TxOut}
    (hf : Funding p.unsignedTx.input p.inputs us) {n : Nat} {s : Bytes} {w : List Bytes} (hk : KeyInput S k out p n s w) :
    (errorsReported r).get n = none ∧ ∃ j, q.inputs[n]? = some j ∧
      ∀ p', Same p p' → p'.inputs[n]? = some j → ∀ mall, Result M p' n mall (.ok (onlyFinal j s w)) := by
  obtain ⟨f1, f2, f3⟩ := funding_iff.mp hf
  have hus : ∀ {t i u}, HasInput p n t i → FundedBy t i u → us[n]? = some u := by
    intro t i u hi hu
    have hl := (List.getElem?_eq_some_iff.mp hi.1).1
    obtain ⟨t', i', g1, g2, g3⟩ := f3 n _ (List.getElem?_eq_getElem (by omega))
    obtain ⟨rfl, rfl⟩ := hasInput_unique hi ⟨g1, g2⟩
    rw [List.getElem?_eq_getElem (by omega), fundedBy_unique hu g3]
  have hfund : ∀ {t : TxIn} {i j : Input L} {u}, FundedBy t i u → j.witnessUtxo = i.witnessUtxo →
      j.nonWitnessUtxo = i.nonWitnessUtxo → FundedBy t j u := by
    intro t i j u hu e1 e2
    cases hu with
    | witness a => exact .witness (e1.trans a)
    | nonWitness a b c => exact .nonWitness (e1.trans a) (e2.trans b) c
  cases hk with
  | @pkh t i u sk ty m hi hu he hkk hd hc hm =>
    obtain ⟨g1, g2⟩ := signed_ecdsa h hi hu he hkk hd (.bare (pkh_bare hc _) hm) (pkh_bare hc _) (by decide)
    refine ⟨g1, _, g2, fun p' hs hj mall => ?_⟩
    have hi' : HasInput p' n t _ := ⟨hs.1 ▸ hi.1, hj⟩
    have hu' := hfund hu (j := { i with partialSigs := BMap.insert .empty (S.pub sk) ⟨S.signEcdsa m sk, ty⟩ }) rfl rfl
    refine .done hj (.other hi' hu' (notTr_pkh hc) (.pkh ⟨_, hc⟩ (single_firstKey hc) (.ok (laws.accepts _).1)) ?_)
      ⟨t, _, u, us, hi', hu', hs.funding hf, ?_⟩
    · exact laws.pkh mall _ _ ⟨S.signEcdsa m sk, ty⟩ (BMap.get_insert_self _ _ _)
    · rw [hs.1]
      exact laws.runPkh sk m ty _ _ _ _ n us hc f1.symm (by rw [hus hi hu]; rfl) hm
  | @wpkh t i u sk ty m hi hu he hkk hd hc hm =>
    have hsp : SpendType u.scriptPubkey i.redeemScript .wpkh := .wpkh ⟨_, hc.2⟩
    obtain ⟨g1, g2⟩ := signed_ecdsa h hi hu he hkk hd (.wpkh hc.2 hm) hsp (by decide)
    refine ⟨g1, _, g2, fun p' hs hj mall => ?_⟩
    have hi' : HasInput p' n t _ := ⟨hs.1 ▸ hi.1, hj⟩
    have hu' := hfund hu (j := { i with partialSigs := BMap.insert .empty (S.pub sk) ⟨S.signEcdsa m sk, ty⟩ }) rfl rfl
    refine .done hj (.other hi' hu' (notTr_wpkh hc) (.wpkh ⟨_, hc.2⟩ (single_firstKey hc) (.ok ((laws.accepts _).2 hc.1).1)) ?_)
      ⟨t, _, u, us, hi', hu', hs.funding hf, ?_⟩
    · exact laws.wpkh mall _ _ ⟨S.signEcdsa m sk, ty⟩ hc.1 (BMap.get_insert_self _ _ _)
    · rw [hs.1]
      exact laws.runWpkh sk m ty u _ _ _ n us hc f1.symm (hus hi hu) hm
  | @shWpkh t i u r sk ty m hi hu he hkk hd hc hr hw hm =>
    have hsp : SpendType u.scriptPubkey i.redeemScript .shWpkh := .shWpkh ⟨_, hc⟩ hr ⟨_, hw.2⟩
    obtain ⟨g1, g2⟩ := signed_ecdsa h hi hu he hkk hd (.shWpkh ⟨_, hc⟩ (hw.2 ▸ hr) hm) hsp (by decide)
    refine ⟨g1, _, g2, fun p' hs hj mall => ?_⟩
    have hi' : HasInput p' n t _ := ⟨hs.1 ▸ hi.1, hj⟩
    have hu' := hfund hu (j := { i with partialSigs := BMap.insert .empty (S.pub sk) ⟨S.signEcdsa m sk, ty⟩ }) rfl rfl
    refine .done hj (.other hi' hu' (notTr_sh hc)
      (.shWpkh hr hc ⟨_, hw.2⟩ (single_firstKey hw) (.ok ((laws.accepts _).2 hw.1).2)) ?_)
      ⟨t, _, u, us, hi', hu', hs.funding hf, ?_⟩
    · rw [hw.2]
      exact laws.shWpkh mall _ _ ⟨S.signEcdsa m sk, ty⟩ hw.1 (BMap.get_insert_self _ _ _)
    · rw [hs.1]
      exact laws.runShWpkh sk m ty u r _ _ _ n us hc hw f1.symm (hus hi hu) hm
  | @tr t i u sk ty m hi hu hkk hm hc =>
    have htr : P2tr u.scriptPubkey := ⟨_, hc⟩
    rcases C50_schnorr h hi ⟨t, i, u, hi, hu, htr⟩ with ⟨-, ⟨j, g1, g2, g3, g4⟩, g5⟩ | ⟨⟨leaf, -, g⟩, -⟩
    · rw [hkk] at g2
      obtain ⟨m', ty', g6, g7⟩ := g2
      obtain ⟨rfl, rfl⟩ := tapSigns_unique hp.2 g6 hm
      refine ⟨no_error h g5, j, g1, fun p' hs hj mall => ?_⟩
      have hi' : HasInput p' n t j := ⟨hs.1 ▸ hi.1, hj⟩
      have hu' : FundedBy t j u := hfund hu (by rw [g4]) (by rw [g4])
      refine .done hj (.tap hi' hu' htr (TapResult.key (sig := ⟨S.signSchnorr m' (S.tapTweak (S.keypair sk) i.tapMerkleRoot), ty'⟩) g7)) ⟨t, _, u, us, hi', hu', hs.funding hf, ?_⟩
      rw [hs.1]
      obtain ⟨t', i', u', k1, k2, -, -, k5⟩ := hm
      obtain ⟨rfl, rfl⟩ := hasInput_unique hi k1
      cases fundedBy_unique hu k2
      rcases k5 with ⟨-, k6⟩ | ⟨-, us', k6, k7⟩
      · exact laws.runTr _ m' ty' u _ _ _ n us _ hc f1.symm (hus hi hu) (.inr rfl) k6
      · cases funding_unique hf k6
        exact laws.runTr _ m' ty' u _ _ _ n us _ hc f1.symm (hus hi hu) (.inl rfl) k7
    · obtain ⟨m', hm'⟩ := tapSigns_leaf_ok hm leaf
      exact absurd hm' (g m' ty)

/-- C88. If every input of a PSBT v0 spends an output to one key (P2PKH, P2WPKH, P2WPKH inside P2SH, or the key path of
taproot) which the provider has, then signing, finalizing and extracting all succeed. The transaction is the unsigned one,
with the signatures and keys these spends need in the script sigs and witnesses. -/
theorem C88_completed (laws : KeyLaws S M out) {p : Psbt L} (hp : Sound p)
    (hun : ∀ t ∈ p.unsignedTx.input, t.scriptSig = [] ∧ t.witness = [])
    (hk : ∀ n < p.inputs.length, ∃ s w, KeyInput S k out p n s w) (mall : Bool) :
    ∃ q used r tx, p.sign S k = .ok (q, .ok used) ∧ q.finalizeMut M mall = .ok (r, []) ∧ r.extract M = .ok tx ∧
      tx.version = p.unsignedTx.version ∧ tx.lockTime = p.unsignedTx.lockTime ∧ tx.output = p.unsignedTx.output ∧
      tx.input.length = p.unsignedTx.input.length ∧
      ∀ (n : Nat) t s w, p.unsignedTx.input[n]? = some t → KeyInput S k out p n s w →
        tx.input[n]? = some { t with scriptSig := s, witness := w } := by
  obtain ⟨us, hf⟩ : ∃ us, Funding p.unsignedTx.input p.inputs us := by
    rcases prevouts_cases hp with ⟨us, -, h⟩ | ⟨n, -, ⟨i, h1, h2⟩, -⟩
    · exact ⟨us, h⟩
    · obtain ⟨s, w, h⟩ := hk n (List.getElem?_eq_some_iff.mp h1).1
      obtain ⟨t, j, u, g1, g2⟩ : ∃ t j u, HasInput p n t j ∧ FundedBy t j u := by
        cases h with
        | pkh a b => exact ⟨_, _, _, a, b⟩
        | wpkh a b => exact ⟨_, _, _, a, b⟩
        | shWpkh a b => exact ⟨_, _, _, a, b⟩
        | tr a b => exact ⟨_, _, _, a, b⟩
      cases h1.symm.trans g1.2
      exact absurd h2 (not_unfunded g2)
  cases hsign : p.sign S k with
  | error e =>
    cases e with
    | panic s => exact absurd hp.2 ((C50_panics_iff p k).mp ⟨s, hsign⟩)
    | err e => exact e.elim
  | ok qr =>
  obtain ⟨q, res⟩ := qr
  have hsame := same_of_erase (C50_frame hsign)
  have hq := hsame.sound hp
  obtain ⟨used, rfl⟩ : ∃ used, res = .ok used := by
    refine (C50_reports hsign 0).2.2.mpr fun n => ?_
    by_cases hn : n < p.inputs.length
    · obtain ⟨s, w, h⟩ := hk n hn
      exact (keyInput_step laws hp hsign hf h).1
    · cases e : (errorsReported res).get n with
      | none => rfl
      | some e' => exact absurd ((C50_reports hsign n).1.mpr (.inr ⟨e', e⟩)) hn
  obtain ⟨rs, is, h1, h2, h3, h4⟩ := finalizeMut_spec (M := M) hq mall
  have hfin : ∀ n s w, KeyInput S k out p n s w → ∃ j, q.inputs[n]? = some j ∧ rs[n]? = some (.ok (V0.onlyFinal j s w)) ∧
      is[n]? = some (V0.onlyFinal j s w) := by
    intro n s w h
    obtain ⟨-, j, g1, g2⟩ := keyInput_step laws hp hsign hf h
    obtain ⟨r, k1, k2, k3, k4, k5⟩ := h4 n j g1
    have hs' := hsame.trans k4
    have := result_unique (hs'.sound hp) k3 (g2 _ hs' k5 mall)
    subst this
    exact ⟨j, g1, k1, k2⟩
  have herr : errors rs = [] := by
    refine errors_nil.mpr fun r hr => ?_
    obtain ⟨n, hn⟩ := List.getElem?_of_mem hr
    have hl := (List.getElem?_eq_some_iff.mp hn).1
    obtain ⟨s, w, h⟩ := hk n (by rw [← hsame.length]; omega)
    obtain ⟨j, -, g, -⟩ := hfin n s w h
    cases hn.symm.trans g
    exact ⟨_, rfl⟩
  rw [herr] at h1
  have hall : AllFinal { q with inputs := is } := by
    intro j hj
    obtain ⟨n, hn⟩ := List.getElem?_of_mem hj
    have hl := (List.getElem?_eq_some_iff.mp hn).1
    obtain ⟨s, w, h⟩ := hk n (by rw [← hsame.length, ← h3]; exact hl)
    obtain ⟨i, -, -, g⟩ := hfin n s w h
    cases hn.symm.trans g
    cases h <;> simp [V0.onlyFinal, push]
  obtain ⟨tx, htx⟩ := (C69_after_finalize_partial hq h1).mpr hall
  obtain ⟨e1, -, -, -, e2, e3, e4, e5, e6⟩ := (C69_extract_iff _ tx).mp htx
  refine ⟨q, used, _, tx, rfl, h1, htx, e2.trans (by rw [← hsame.1]), e3.trans (by rw [← hsame.1]), e4.trans (by rw [← hsame.1]),
    e5.trans (by rw [← hsame.1]), fun n t s w ht h => ?_⟩
  obtain ⟨j, -, -, g⟩ := hfin n s w h
  have hl := (List.getElem?_eq_some_iff.mp ht).1
  have e5' : tx.input.length = p.unsignedTx.input.length := e5.trans (by rw [← hsame.1])
  obtain ⟨x, hx⟩ : ∃ x, tx.input[n]? = some x := ⟨_, List.getElem?_eq_getElem (by omega)⟩
  obtain ⟨k1, k2, k3, k4⟩ := e6 n t _ x ⟨by rw [← ht, ← hsame.1], g⟩ hx
  obtain ⟨z1, z2⟩ := hun t (List.mem_of_getElem? ht)
  have a1 : x.scriptSig = s := by
    rcases k3 with k3 | ⟨k3, k5⟩
    · have := congrArg (Option.getD · []) k3
      simpa [onlyFinal_getD.1] using this.symm
    · have := congrArg (Option.getD · []) k3
      rw [k5, z1]
      simpa [onlyFinal_getD.1] using this.symm
  have a2 : x.witness = w := by
    rcases k4 with k4 | ⟨k4, k5⟩
    · have := congrArg (Option.getD · []) k4
      simpa [onlyFinal_getD.2] using this.symm
    · have := congrArg (Option.getD · []) k4
      rw [k5, z2]
      simpa [onlyFinal_getD.2] using this.symm
  rw [hx]
  cases x; cases t
  simp_all

/-! ### The hypotheses can be met -/

/-- What an interpreter has to accept by the laws. -/
inductive Accepted (S : SigLib L) (out : S.Keypair → FixedBytes 32) : InterpArgs → Prop
  | pkh (sk m ty spk csv cltv tx n us) : CommitsPkh spk (S.pub sk) → us.length = tx.input.length →
      us[n]?.map TxOut.scriptPubkey = some spk → legacySighash L tx n spk ty = some m →
      Accepted S out ⟨spk, push (ecdsaBytes S m sk ty) ++ push (S.pub sk).bytes, [], csv, cltv, tx, n, us⟩
  | wpkh (sk m ty u csv cltv tx n us) : CommitsWpkh u.scriptPubkey (S.pub sk) → us.length = tx.input.length →
      us[n]? = some u → segwitSighash L tx n (keyCode (S.pub sk)) u.value ty = some m →
      Accepted S out ⟨u.scriptPubkey, [], [ecdsaBytes S m sk ty, (S.pub sk).bytes], csv, cltv, tx, n, us⟩
  | shWpkh (sk m ty u r csv cltv tx n us) : CommitsSh L u.scriptPubkey r → CommitsWpkh r (S.pub sk) →
      us.length = tx.input.length → us[n]? = some u → segwitSighash L tx n (keyCode (S.pub sk)) u.value ty = some m →
      Accepted S out ⟨u.scriptPubkey, push r, [ecdsaBytes S m sk ty, (S.pub sk).bytes], csv, cltv, tx, n, us⟩
  | tr (kp m ty u csv cltv tx n us q) : u.scriptPubkey = [0x51, 0x20] ++ (out kp).1 → us.length = tx.input.length →
      us[n]? = some u → (q = .all us ∨ q = .one n u) → tapSighash L tx n q none ty = .ok m →
      Accepted S out ⟨u.scriptPubkey, [], [schnorrBytes S m kp ty], csv, cltv, tx, n, us⟩

open Classical in
/-- A library that satisfies descriptors of keys only, and whose interpreter accepts nothing but what it has to. -/
noncomputable def yM : MsLib gL where
  ofSecp x := ⟨x.bytes, x.ok⟩
  Ms := Bytes
  parse _ _ := none
  substitute _ b := b
  accepts _ := true
  satisfy _ d sat := match d with
    | .pkh pk => (sat.ecdsaSig pk).map fun s => ([], push (s.der.bytes ++ [s.ty.1]) ++ push pk.bytes)
    | .wpkh pk => (sat.ecdsaSig pk).map fun s => ([s.der.bytes ++ [s.ty.1], pk.bytes], [])
    | .shWpkh pk => (sat.ecdsaSig pk).map fun s =>
        ([s.der.bytes ++ [s.ty.1], pk.bytes], push ([0x00, 0x14] ++ (gL.hash160 pk.bytes).1))
    | _ => none
  TapMs := Bytes
  tapParse _ := none
  tapSubstitute _ b := b
  tapSatisfy _ _ _ := none
  tapEncode b := b
  interp a := if Accepted gS (fun kp => Demo.rep 32 kp.2) a then none else some .satisfaction

theorem yM_laws : KeyLaws gS yM (fun kp => Demo.rep 32 kp.2) where
  accepts _ := ⟨rfl, fun _ => ⟨rfl, rfl⟩⟩
  pkh _ _ _ _ h := by simp only [yM, h]; rfl
  wpkh _ _ _ _ _ h := by simp only [yM, h]; rfl
  shWpkh _ _ _ _ _ h := by simp only [yM, h]; rfl
  runPkh sk m ty spk csv cltv tx n us h1 h2 h3 h4 := if_pos (.pkh sk m ty spk csv cltv tx n us h1 h2 h3 h4)
  runWpkh sk m ty u csv cltv tx n us h1 h2 h3 h4 := if_pos (.wpkh sk m ty u csv cltv tx n us h1 h2 h3 h4)
  runShWpkh sk m ty u r csv cltv tx n us h1 h2 h3 h4 h5 := if_pos (.shWpkh sk m ty u r csv cltv tx n us h1 h2 h3 h4 h5)
  runTr kp m ty u csv cltv tx n us q h1 h2 h3 h4 h5 := if_pos (.tr kp m ty u csv cltv tx n us q h1 h2 h3 h4 h5)

instance : DecidableEq gS.SK := inferInstanceAs (DecidableEq UInt8)
def ySk : gS.SK := (2 : UInt8)
/-- The public key of the key the provider has, and the hash of it. -/
def yKey : gL.pubkey.T := Demo.val 33 (by decide) 2
def yHash : Bytes := (gL.hash160 yKey.bytes).1
def ySh : Bytes := [0x00, 0x14] ++ yHash
def yTr : Input gL :=
  { gIn ([0x51, 0x20] ++ (Demo.rep 32 2).1) with
    tapInternalKey := some (gX 1), tapKeyOrigins := BMap.empty.insert (gX 1) ([], gOrigin) }
/-- One input of each kind; the second one is signed with ALL and ANYONECANPAY. -/
def yP : Psbt gL := gP
  [gEcdsa (gIn ([0x76, 0xa9, 0x14] ++ yHash ++ [0x88, 0xac])), { gEcdsa (gIn ySh) with sighashType := some 0x81 },
    { gEcdsa (gIn ([0xa9, 0x14] ++ (gL.hash160 ySh).1 ++ [0x87])) with redeemScript := some ySh }, yTr]

theorem yP_inputs : ∀ n < yP.inputs.length, ∃ s w, KeyInput gS gKeys (fun kp => Demo.rep 32 kp.2) yP n s w := by
  intro n hn
  have hn : n < 4 := hn
  have e : ∀ {α : Type} {o : Option α}, o.isSome = true → ∃ a, o = some a := fun h => Option.isSome_iff_exists.mp h
  have hc : CommitsPkh ([0x76, 0xa9, 0x14] ++ yHash ++ [0x88, 0xac]) (gS.pub ySk) := by unfold CommitsPkh; decide +kernel
  have hw : CommitsWpkh ySh (gS.pub ySk) := by unfold CommitsWpkh; decide +kernel
  have hs : CommitsSh gL ([0xa9, 0x14] ++ (gL.hash160 ySh).1 ++ [0x87]) ySh := rfl
  match n, hn with
  | 0, _ =>
    obtain ⟨m, hm⟩ := e (o := legacySighash gL yP.unsignedTx 0 ([0x76, 0xa9, 0x14] ++ yHash ++ [0x88, 0xac]) ⟨1, by decide⟩)
      (by decide +kernel)
    have hk : (keysFor gS gKeys (gEcdsa (gIn ([0x76, 0xa9, 0x14] ++ yHash ++ [0x88, 0xac])))) = [ySk] := by decide +kernel
    exact ⟨_, _, .pkh (u := ⟨1000, [0x76, 0xa9, 0x14] ++ yHash ++ [0x88, 0xac]⟩) (ty := ⟨1, by decide⟩) (sk := ySk)
      ⟨rfl, rfl⟩ (.witness rfl) rfl hk (.inl ⟨rfl, rfl⟩) hc hm⟩
  | 1, _ =>
    obtain ⟨m, hm⟩ := e (o := segwitSighash gL yP.unsignedTx 1 (keyCode yKey) 1000 ⟨0x81, by decide⟩) (by decide +kernel)
    have hk : (keysFor gS gKeys { gEcdsa (gIn ySh) with sighashType := some 0x81 }) = [ySk] := by decide +kernel
    exact ⟨_, _, .wpkh (u := ⟨1000, ySh⟩) (ty := ⟨0x81, by decide⟩) (sk := ySk) ⟨rfl, rfl⟩ (.witness rfl) rfl hk
      (.inr (by decide +kernel)) hw hm⟩
  | 2, _ =>
    obtain ⟨m, hm⟩ := e (o := segwitSighash gL yP.unsignedTx 2 (keyCode yKey) 1000 ⟨1, by decide⟩) (by decide +kernel)
    have hk : (keysFor gS gKeys { gEcdsa (gIn ([0xa9, 0x14] ++ (gL.hash160 ySh).1 ++ [0x87])) with redeemScript := some ySh }) = [ySk] := by decide +kernel
    exact ⟨_, _, .shWpkh (u := ⟨1000, [0xa9, 0x14] ++ (gL.hash160 ySh).1 ++ [0x87]⟩) (r := ySh) (ty := ⟨1, by decide⟩)
      (sk := ySk) ⟨rfl, rfl⟩ (.witness rfl) rfl hk (.inl ⟨rfl, rfl⟩) hs rfl hw hm⟩
  | 3, _ =>
    have hr : IndicesInRange yP := (zSound _ (by decide)).2
    cases h : yP.sighashTaproot 3 yP.unsignedTx none with
    | error e =>
      have : (match yP.sighashTaproot 3 yP.unsignedTx none with | .ok _ => true | .error _ => false) = true := by decide +kernel
      rw [h] at this; cases this
    | ok x => exact ⟨_, _, .tr (sk := ySk) ⟨rfl, rfl⟩ (.witness rfl) rfl ((sighashTaproot_iff hr).mp h) rfl⟩

example : ∃ q used r tx, yP.sign gS gKeys = .ok (q, .ok used) ∧ q.finalizeMut yM false = .ok (r, []) ∧ r.extract yM = .ok tx ∧
    tx.input.length = 4 := by
  obtain ⟨q, used, r, tx, h1, h2, h3, -, -, -, h4, -⟩ := C88_completed yM_laws (p := yP) (zSound _ (by decide)) (by decide)
    yP_inputs false
  exact ⟨q, used, r, tx, h1, h2, h3, h4⟩

end Psbt.V0
