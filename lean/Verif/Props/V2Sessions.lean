/- C124: several signers complete a PSBT v2 together. -/
import Verif.Spec.V2Sessions
import Verif.Props.V2Complete
import Verif.Props.Sessions
namespace Psbt.V2
open Psbt Psbt.Spec

variable {L : Lib} {S : SigLib L} {M : MsLib L} {out : S.Keypair → FixedBytes 32} {enough : MsCtx → Bytes → List L.pubkey.T → Prop}

/-- All signatures are made with the secret keys of their public keys, over `m`. -/
def AllValid (S : SigLib L) (m : Hash32) (ty : EcdsaTy) (i : Input L) : Prop :=
  ∀ pk sig, i.partialSigs.get pk = some sig → ∃ sk, S.pub sk = pk ∧ sig = ⟨S.signEcdsa m sk, ty⟩

/-- There is a message to sign, and signatures of the keys satisfy the input. -/
theorem witnessSpend_final (laws : KeyLaws S M out) (slaws : ScriptLaws S M enough) {ks : List (Provider S)} {tx : Tx} {n : Nat}
    {i : Input L} {u : TxOut} (ty : EcdsaTy) (hl : n < tx.input.length) (hw : i.witnessUtxo = some u)
    (hs : WitnessSpend S enough ks i u.scriptPubkey) :
    ∃ m code, Psbt.Spec.Message tx n i u ty m ∧ segwitSighash L tx n code u.value ty = some m ∧
      ((∃ pk : L.pubkey.T, code = keyCode pk) ∨ i.witnessScript = some code) ∧
      ∀ j, { j with partialSigs := BMap.empty } = { i with partialSigs := BMap.empty } → AllValid S m ty j →
        (∀ pk, SomeSigner S ks i pk → j.partialSigs.get pk ≠ none) → ∀ (q : Psbt L) us, us.length = tx.input.length → us[n]? = some u →
        ∃ s w, Scripts M q j (.ok (s, w)) ∧ w ≠ [] ∧ M.interp ⟨u.scriptPubkey, s, w, 0xFFFFFFFF, 0, tx, n, us⟩ = none := by
  have fields : ∀ {j : Input L}, { j with partialSigs := BMap.empty } = { i with partialSigs := BMap.empty } →
      FundedBy j u ∧ j.redeemScript = i.redeemScript ∧ j.witnessScript = i.witnessScript := by
    intro j hj
    have h := Input.mk.inj hj
    exact ⟨.witness (by rw [← hw]; simp_all), by simp_all, by simp_all⟩
  have first : ∀ {P : L.pubkey.T → Prop} {j : Input L} {m pk}, AllValid S m ty j → P pk → j.partialSigs.get pk ≠ none →
      ∃ sk, P (S.pub sk) ∧ FirstKey j.partialSigs.l P (S.pub sk) ∧ j.partialSigs.get (S.pub sk) = some ⟨S.signEcdsa m sk, ty⟩ := by
    intro P j m pk hv hp hg
    obtain ⟨sig, hsig⟩ := Option.ne_none_iff_exists'.mp hg
    obtain ⟨pk', hpk'⟩ := V0.firstKey_exists (P := P) (sigs := j.partialSigs.l) ⟨(pk, sig), BMap.mem_iff_get.mpr hsig, hp⟩
    have hpk'' := hpk'
    obtain ⟨l1, s', l2, e, h1, h2⟩ := hpk'
    have hg' : j.partialSigs.get pk' = some s' := BMap.mem_iff_get.mp (by rw [e]; simp)
    obtain ⟨sk, rfl, rfl⟩ := hv _ _ hg'
    exact ⟨sk, h1, hpk'', hg'⟩
  cases hs with
  | @wpkh pk hc hsome =>
    obtain ⟨m, hm⟩ := V0.message_any_segwit (L := L) hl (keyCode pk) u.value ty
    refine ⟨m, _, .wpkh hc.2 hm, hm, .inl ⟨pk, rfl⟩, fun j ej hv hin q us hul hus => ?_⟩
    obtain ⟨hu', e3, e4⟩ := fields ej
    obtain ⟨sk, h1, h2, h3⟩ := first hv hc (hin pk hsome)
    have hcode : keyCode (S.pub sk) = keyCode pk := by
      have := h1.2.symm.trans hc.2
      simp only [List.cons_append, List.nil_append, List.cons.injEq, true_and] at this
      unfold keyCode; rw [this]
    exact ⟨_, _, .other hu' (V0.notTr_wpkh hc) (.wpkh ⟨_, hc.2⟩ h2 (.ok ((laws.accepts _).2 h1.1).1))
      (laws.wpkh true _ _ ⟨S.signEcdsa m sk, ty⟩ h1.1 h3), by simp, laws.runWpkh sk m ty u _ _ _ n us h1 hul hus (hcode ▸ hm)⟩
  | @shWpkh r pk hc hr hw hsome =>
    obtain ⟨m, hm⟩ := V0.message_any_segwit (L := L) hl (keyCode pk) u.value ty
    refine ⟨m, _, .shWpkh ⟨_, hc⟩ (hw.2 ▸ hr) hm, hm, .inl ⟨pk, rfl⟩, fun j ej hv hin q us hul hus => ?_⟩
    obtain ⟨hu', e3, e4⟩ := fields ej
    obtain ⟨sk, h1, h2, h3⟩ := first (P := CommitsWpkh r) hv hw (hin pk hsome)
    have hcode : keyCode (S.pub sk) = keyCode pk := by
      have := h1.2.symm.trans hw.2
      simp only [List.cons_append, List.nil_append, List.cons.injEq, true_and] at this
      unfold keyCode; rw [this]
    exact ⟨_, _, .other hu' (V0.notTr_sh hc) (.shWpkh (e3.trans hr) hc ⟨_, hw.2⟩ h2 (.ok ((laws.accepts _).2 h1.1).2))
      (laws.shWpkh true _ _ ⟨S.signEcdsa m sk, ty⟩ h1.1 h3), by simp, h1.2 ▸ laws.runShWpkh sk m ty u r _ _ _ n us hc h1 hul hus (hcode ▸ hm)⟩
  | @wsh w keys hc hr hw hen hsome =>
    obtain ⟨m, hm⟩ := V0.message_any_segwit (L := L) hl w u.value ty
    refine ⟨m, w, .wsh ⟨_, hc⟩ hw hm, hm, .inr hw, fun j ej hv hin q us hul hus => ?_⟩
    obtain ⟨hu', e3, e4⟩ := fields ej
    obtain ⟨ms, h1, h2⟩ := slaws.segwit w keys hen
    have hnt : ¬ P2tr u.scriptPubkey := by
      rw [hc]; rintro ⟨x, hx⟩; simp at hx
    obtain ⟨wit, g1, g2, g3⟩ := slaws.wsh true w keys ms (hashMap M (derivationKeys q)) (j.satisfier M) u m ty 0xFFFFFFFF
      0 tx n us hen h1 hc hul hus hm ⟨fun pk hpk => hin pk (hsome pk hpk), hv⟩
    exact ⟨_, _, .other hu' hnt (.wsh (e3.trans hr) (e4.trans hw) hc (.ok h1 (.ok (h2 _).1))) g1, g2, g3⟩
  | @shWsh r w keys hc hr hcw hw hen hsome =>
    obtain ⟨m, hm⟩ := V0.message_any_segwit (L := L) hl w u.value ty
    refine ⟨m, w, .shWsh ⟨_, hc⟩ hr ⟨_, hcw⟩ hw hm, hm, .inr hw, fun j ej hv hin q us hul hus => ?_⟩
    obtain ⟨hu', e3, e4⟩ := fields ej
    obtain ⟨ms, h1, h2⟩ := slaws.segwit w keys hen
    obtain ⟨wit, g1, g2, g3⟩ := slaws.shWsh true w keys ms (hashMap M (derivationKeys q)) (j.satisfier M) u r m ty 0xFFFFFFFF
      0 tx n us hen h1 hc hcw hul hus hm ⟨fun pk hpk => hin pk (hsome pk hpk), hv⟩
    exact ⟨_, _, .other hu' (V0.notTr_sh hc) (.shWsh (e3.trans hr) hc (e4.trans hw) hcw (.ok h1 (.ok (h2 _).2))) g1, g2, g3⟩

theorem canSpend_signs (laws : KeyLaws S M out) (slaws : ScriptLaws S M enough) {ks : List (Provider S)} {p : Psbt L} {tx : Tx}
    (htx : p.unsignedTx = .ok tx) {n : Nat} {i : Input L} {u : TxOut} {ty : EcdsaTy} (hi : Psbt.Spec.HasInput p n i) (hw : i.witnessUtxo = some u)
    (hd : Psbt.Spec.DeclaredType i ty) (hs : WitnessSpend S enough ks i u.scriptPubkey) :
    ∃ m code, Psbt.Spec.Signs tx p n i m ty ∧ segwitSighash L tx n code u.value ty = some m ∧
      ((∃ pk : L.pubkey.T, code = keyCode pk) ∨ i.witnessScript = some code) := by
  have hl := signer_unsignedTx_len htx
  have hn := (List.getElem?_eq_some_iff.mp hi.1).1
  obtain ⟨m, code, h1, h2, h3, -⟩ := witnessSpend_final laws slaws (tx := tx) (n := n) ty (by omega) hw hs
  exact ⟨m, code, ⟨hi, u, .witness hw, hd, h1⟩, h2, h3⟩

/-- The input at `n` has a message to sign in `tx`, and with the signatures of the signers over it, it can be made final. -/
def Ready (S : SigLib L) (M : MsLib L) (ks : List (Provider S)) (p : Psbt L) (tx : Tx) (n : Nat) : Prop :=
  ∃ i u ty m, Psbt.Spec.HasInput p n i ∧ i.witnessUtxo = some u ∧ i.partialSigs = .empty ∧ Psbt.Spec.DeclaredType i ty ∧
    Psbt.Spec.Message tx n i u ty m ∧
    ∀ j, { j with partialSigs := BMap.empty } = { i with partialSigs := BMap.empty } → AllValid S m ty j →
      (∀ pk, SomeSigner S ks i pk → j.partialSigs.get pk ≠ none) → ∀ (q : Psbt L) us, us.length = tx.input.length → us[n]? = some u →
      ∃ s w, Scripts M q j (.ok (s, w)) ∧ w ≠ [] ∧ M.interp ⟨u.scriptPubkey, s, w, 0xFFFFFFFF, 0, tx, n, us⟩ = none

theorem canSpend_ready (laws : KeyLaws S M out) (slaws : ScriptLaws S M enough) {ks : List (Provider S)} {p : Psbt L} {tx : Tx}
    (htx : p.unsignedTx = .ok tx) {n : Nat} (hk : Psbt.Spec.CanSpend S enough ks p n) : Ready S M ks p tx n := by
  have hl := signer_unsignedTx_len htx
  obtain ⟨i, u, ty, g1, g2, g3, g4, g5⟩ := hk
  have hn := (List.getElem?_eq_some_iff.mp g1.1).1
  obtain ⟨m, code, k1, -, -, k2⟩ := witnessSpend_final laws slaws (tx := tx) (n := n) ty (by omega) g2 g5
  exact ⟨i, u, ty, m, g1, g2, g3, g4, k1, k2⟩

/-- Whoever signs first succeeds. -/
theorem canSpend_sign {ks : List (Provider S)} {p : Psbt L} {tx : Tx}
    (htx : p.unsignedTx = .ok tx) (hk : ∀ n < p.inputs.length, Ready S M ks p tx n) (k : Provider S) :
    ∃ b used, Signer.sign S p k = .ok (b, used) ∧ p.sign S tx k = .ok (b, .ok used) := by
  have sig : ∀ n i, Psbt.Spec.HasInput p n i → ∃ m ty, p.sighashEcdsa n tx = .ok (m, ty) := by
    intro n i hi
    obtain ⟨j, u, ty, m, h1, h2, -, h3, h4, -⟩ := hk n (List.getElem?_eq_some_iff.mp hi.1).1
    exact ⟨m, ty, signs_iff.mpr ⟨j, h1, u, .witness h2, h3, h4⟩⟩
  cases hs : p.sign S tx k with
  | error e =>
    cases e with
    | err e => exact e.elim
    | panic why =>
      obtain ⟨n, i, e, h1, h2, h3⟩ := (C35_panics_iff (signer_unsignedTx_len htx)).mp ⟨why, hs⟩
      obtain ⟨m, ty, g⟩ := sig n i h1.1
      rw [h3] at g; cases g
  | ok x =>
    obtain ⟨q, res⟩ := x
    obtain ⟨used, errs, h1, -, h3⟩ := C35_reports hs
    have hres : res = .ok used := by
      rcases h1 with ⟨h1, -⟩ | ⟨-, h1⟩
      · exact h1
      · exfalso
        obtain ⟨⟨n, e⟩, hne⟩ := List.exists_mem_of_ne_nil _ h1
        obtain ⟨i, g1, g2, g3⟩ := (h3 n e).mp (BMap.mem_iff_get.mp hne)
        obtain ⟨m, ty, g⟩ := sig n i g1.1
        rw [g3] at g; cases g
    subst hres
    exact ⟨q, used, signer_sign_iff.mpr ⟨tx, htx, hs⟩, rfl⟩

/-- The PSBT at the end of a session of such signers. -/
theorem session_signed (hd : Spec.Deterministic S) {s : Session (Provider S)}
    {p : Psbt L} {tx : Tx} (htx : p.unsignedTx = .ok tx) (hk : ∀ n < p.inputs.length, Ready S M s.signers p tx n) :
    ∃ q, afterSession S p s = some q ∧ Psbt.Spec.erase q = Psbt.Spec.erase p ∧
      ∀ n i u ty m, p.inputs[n]? = some i → i.witnessUtxo = some u → i.partialSigs = .empty → Psbt.Spec.Signs tx p n i m ty →
        ∃ j, q.inputs[n]? = some j ∧ { j with partialSigs := BMap.empty } = { i with partialSigs := BMap.empty } ∧ AllValid S m ty j ∧
          ∀ pk, SomeSigner S s.signers i pk → j.partialSigs.get pk ≠ none := by
  have empty : ∀ i ∈ p.inputs, i.partialSigs = .empty := by
    intro i hi
    obtain ⟨n, hn⟩ := List.getElem?_of_mem hi
    obtain ⟨j, u, ty, m, h1, -, h2, -⟩ := hk n (List.getElem?_eq_some_iff.mp hn).1
    cases hn.symm.trans h1.1; exact h2
  obtain ⟨q, h1, h2, h3⟩ := C121_v2 hd (p := p) (s := s) fun k _ => by
    obtain ⟨b, used, h, -⟩ := canSpend_sign htx hk k
    refine ⟨b, used, h, fun n i j pk g hi _ hg => ?_⟩
    rw [empty i (List.mem_of_getElem? hi)] at hg; cases hg
  refine ⟨q, h1, h2, fun n i u ty m hi hw he hm => ?_⟩
  have e := getElem?_of_erase h2 n
  rw [hi] at e
  obtain ⟨j, hj, ej⟩ := Option.map_eq_some_iff.mp e
  have one : ∀ k b used, Signer.sign S p k = .ok (b, used) →
      b.inputs[n]? = some { i with partialSigs := Psbt.Spec.addSigs S m ty (Psbt.Spec.keysFor S k i) .empty } := by
    intro k b used h
    obtain ⟨tx', g1, g2⟩ := signer_sign_iff.mp h
    cases htx.symm.trans g1
    rw [(C33_signatures g2 hi).1 m ty hm, he]
  refine ⟨j, hj, ej, fun pk sig hg => ?_, fun pk hpk => ?_⟩
  · rcases (h3 n pk sig).mp ⟨j, hj, hg⟩ with ⟨i', g1, g2⟩ | ⟨k, -, b, used, g1, i', g2, g3⟩
    · rw [empty i' (List.mem_of_getElem? g1)] at g2; cases g2
    · cases (one k b used g1).symm.trans g2
      exact V0.addSigs_valid _ _ (by intro pk sig h; cases h) pk sig g3
  · obtain ⟨k, hk1, sk, hsk, rfl⟩ := hpk
    obtain ⟨b, used, hb, -⟩ := canSpend_sign htx hk k
    have hget : (Psbt.Spec.addSigs S m ty (Psbt.Spec.keysFor S k i) .empty).get (S.pub sk) ≠ none :=
      fun h => (addSigs_none _ _).mp h (List.mem_map.mpr ⟨sk, hsk, rfl⟩)
    obtain ⟨sig, hsig⟩ := Option.ne_none_iff_exists'.mp hget
    obtain ⟨j', g1, g2⟩ := (h3 n (S.pub sk) sig).mpr (.inr ⟨k, hk1, b, used, hb, _, one k b used hb, hsig⟩)
    cases hj.symm.trans g1
    rw [g2]; simp

/-- A session whose inputs are ready ends with a PSBT that can be finalized and extracted. -/
theorem ready_steps (hd : Spec.Deterministic S) (debug : Bool)
    {s : Session (Provider S)} {p : Psbt L} {tx : Tx} (htx : p.unsignedTx = .ok tx) (hp : Plain p)
    (hk : ∀ n < p.inputs.length, Ready S M s.signers p tx n) :
    ∃ q r t us, afterSession S p s = some q ∧ Finalizer.new q = .ok q ∧ Finalizer.finalize M debug q = .ok r ∧ Extractor.new r = .ok r ∧
      Extractor.extractUnchecked r = .ok t ∧
      Spec.stripped t = { tx with input := tx.input.map fun x => { x with sequence := 0xFFFFFFFF } } ∧
      Psbt.Spec.Funding p.inputs us ∧
      ∀ n u, us[n]? = some u → ∃ x, t.input[n]? = some x ∧
        M.interp ⟨u.scriptPubkey, x.scriptSig, x.witness, 0xFFFFFFFF, 0, tx, n, us⟩ = none := by
  obtain ⟨q, h1, h2, h3⟩ := session_signed hd htx hk
  have hlen : q.inputs.length = p.inputs.length := by
    have := congrArg (fun p : Psbt L => p.inputs.length) h2
    simpa [Psbt.Spec.erase] using this
  have hct : checkedTx q = tx := by
    rw [← checkedTx_erase q, h2, checkedTx_erase]; exact (checkedTx_plain htx).mp hp
  have htl : tx.input.length = p.inputs.length := by rw [← hct]; simp [checkedTx, hlen]
  -- what each input is
  have hin : ∀ (n : Nat) (j : Input L), q.inputs[n]? = some j → ∃ i u ty m, p.inputs[n]? = some i ∧ i.witnessUtxo = some u ∧ j.witnessUtxo = some u ∧
      Psbt.Spec.DeclaredType j ty ∧ AllValid S m ty j ∧
      ∀ us, us.length = tx.input.length → us[n]? = some u → ∃ s w, Scripts M q j (.ok (s, w)) ∧ w ≠ [] ∧
        M.interp ⟨u.scriptPubkey, s, w, 0xFFFFFFFF, 0, tx, n, us⟩ = none := by
    intro n j hj
    have hn := (List.getElem?_eq_some_iff.mp hj).1
    obtain ⟨i, u, ty, m, g1, g2, g3, g4, k1, k2⟩ := hk n (by omega)
    obtain ⟨j', l1, l2, l3, l4⟩ := h3 n i u ty m g1.1 g2 g3 ⟨g1, u, .witness g2, g4, k1⟩
    cases hj.symm.trans l1
    have hmk := Input.mk.inj l2
    refine ⟨i, u, ty, m, g1.1, g2, by rw [← g2]; simp_all, ?_, l3, fun us hul hus => k2 j l2 l3 l4 q us hul hus⟩
    have : j.sighashType = i.sighashType := by simp_all
    unfold Psbt.Spec.DeclaredType; rw [this]; exact g4
  have hwit : ∀ j ∈ q.inputs, ∃ u, j.witnessUtxo = some u := by
    intro j hj
    obtain ⟨n, hn⟩ := List.getElem?_of_mem hj
    obtain ⟨i, u, ty, m, -, -, g, -⟩ := hin n j hn
    exact ⟨u, g⟩
  have hfund : ∀ j ∈ q.inputs, ∃ u, Psbt.Spec.FundedBy j u := fun j hj => (hwit j hj).imp fun u h => .witness h
  obtain ⟨us, hus⟩ := funding_total hfund
  have hmap := funding_iff.mpr hus
  have hul : us.length = tx.input.length := by
    have := congrArg List.length hmap
    simp only [List.length_map] at this; omega
  have husn : ∀ (n : Nat) (i : Input L) (u : TxOut), q.inputs[n]? = some i → i.witnessUtxo = some u → us[n]? = some u := by
    intro n i u hi hu
    have := congrArg (fun l => l[n]?) hmap
    simp only [List.getElem?_map, hi, Option.map_some] at this
    cases hun : us[n]? with
    | none => rw [hun] at this; cases this
    | some u' =>
      rw [hun, Option.map_some, Option.some.injEq, fundingUtxo_ok.mpr (.witness hu)] at this
      cases this; rfl
  have hfin : ∀ (n : Nat) (j : Input L), q.inputs[n]? = some j → ∃ u s w, j.witnessUtxo = some u ∧ us[n]? = some u ∧
      InputResult M q j (.ok (onlyFinal j (some s) (some w))) ∧
      M.interp ⟨u.scriptPubkey, s, w, 0xFFFFFFFF, 0, tx, n, us⟩ = none := by
    intro n j hj
    obtain ⟨i, u, ty, m, -, -, g1, -, -, g2⟩ := hin n j hj
    obtain ⟨s, w, k1, k2, k3⟩ := g2 us hul (husn n j u hj g1)
    exact ⟨u, s, w, g1, husn n j u hj g1, .segwit k1 (by rw [g1]; simp) k2, k3⟩
  obtain ⟨js, hjs⟩ := forms_exists (M := M) (p := q) (is := q.inputs) fun j hj => by
    obtain ⟨n, hn⟩ := List.getElem?_of_mem hj
    obtain ⟨u, s, w, -, -, g, -⟩ := hfin n j hn
    exact ⟨_, g⟩
  obtain ⟨hjl, hjr⟩ := forms_iff.mp hjs
  obtain ⟨t0, hlt, -⟩ := unsignedTx_ok.mp htx
  have hnew : Finalizer.new q = .ok q := by
    refine (C41_new_iff q q).mpr ⟨rfl, hfund, fun hc => ?_, fun j hj => ?_⟩
    · have := (C17_error_iff q .conflict).mpr hc
      rw [← determineLockTime_erase q, h2, determineLockTime_erase, hlt] at this; cases this
    · obtain ⟨n, hn⟩ := List.getElem?_of_mem hj
      obtain ⟨i, u, ty, m, -, -, -, g1, g2, -⟩ := hin n j hn
      refine ⟨ty, g1, fun pk sig hg => ?_⟩
      obtain ⟨sk, -, rfl⟩ := g2 pk sig hg
      rfl
  have hjn : ∀ (n : Nat) (f : Input L), js[n]? = some f → ∃ u s w j, q.inputs[n]? = some j ∧ j.witnessUtxo = some u ∧ us[n]? = some u ∧
      f = onlyFinal j (some s) (some w) ∧ M.interp ⟨u.scriptPubkey, s, w, 0xFFFFFFFF, 0, tx, n, us⟩ = none := by
    intro n f hf
    have hl := (List.getElem?_eq_some_iff.mp hf).1
    obtain ⟨j, hj⟩ : ∃ j, q.inputs[n]? = some j := ⟨_, List.getElem?_eq_getElem (by omega)⟩
    obtain ⟨u, s, w, g1, g2, g3, g4⟩ := hfin n j hj
    cases inputResult_unique (hjr n j f hj hf) g3
    exact ⟨u, s, w, j, hj, g1, g2, rfl, g4⟩
  have hf : Finalizer.finalize M debug q = .ok ⟨q.global, js, q.outputs⟩ := by
    refine (C41_finalize_iff hfund debug _).mpr ⟨rfl, rfl, hjl, hjr, fun j hj => ?_, us, hus, fun n f hf => ?_⟩
    · obtain ⟨u, hu⟩ := hwit j hj
      rw [hu]; simp
    · obtain ⟨u, s, w, j, hj, g1, g2, rfl, g4⟩ := hjn n f hf
      exact ⟨u, s, w, .witness g1, rfl, rfl, by rw [hct]; exact g4⟩
  obtain ⟨e1, t, e2, e3, -, -⟩ := C63_checked_and_extracted hfund hf
  have husp : Psbt.Spec.Funding p.inputs us := by
    refine funding_iff.mp ?_
    rw [← hmap]
    refine List.ext_getElem? fun n => ?_
    simp only [List.getElem?_map]
    cases hj : q.inputs[n]? with
    | none =>
      have := List.getElem?_eq_none_iff.mp hj
      rw [List.getElem?_eq_none_iff.mpr (by omega)]
    | some j =>
      obtain ⟨i, u, ty, m, g1, g2, g3, -⟩ := hin n j hj
      rw [g1, Option.map_some, Option.map_some, fundingUtxo_ok.mpr (.witness g2), fundingUtxo_ok.mpr (.witness g3)]
  refine ⟨q, _, t, us, h1, hnew, hf, e1, e2, by rw [e3, hct], husp, fun n u hu => ?_⟩
  have hul' := (List.getElem?_eq_some_iff.mp hu).1
  obtain ⟨f, hfn⟩ : ∃ f, js[n]? = some f := ⟨_, List.getElem?_eq_getElem (by omega)⟩
  obtain ⟨u', s', w, j, hj, g1, g2, rfl, g4⟩ := hjn n f hfn
  cases hu.symm.trans g2
  obtain ⟨t', e2', -, -, ⟨e4, e5⟩, -⟩ := C31_extraction e1
  cases e2.symm.trans e2'
  obtain ⟨x, hx⟩ : ∃ x, t.input[n]? = some x :=
    ⟨_, List.getElem?_eq_getElem (by rw [e4]; exact (List.getElem?_eq_some_iff.mp hfn).1)⟩
  refine ⟨x, hx, ?_⟩
  obtain ⟨-, k1, k2, -⟩ := e5 n _ x hfn hx
  rw [← show s' = x.scriptSig from Option.some.inj k1, ← show w = x.witness from Option.some.inj k2]
  exact g4

/-- C124. What holds: if no input states a sequence number but zero and the lock time is the fallback lock time, and the signers
of a session together have the keys that spending each input takes (P2WPKH, or a script in P2WSH that needs nothing but
signatures, also inside P2SH), then the session, however arranged, ends with a PSBT that can be finalized and extracted. What
comes out spends each input with a script sig and a witness that the interpreter accepts in the unsigned transaction. -/
theorem C124_steps_partial (hd : Spec.Deterministic S) (laws : KeyLaws S M out) (slaws : ScriptLaws S M enough) (debug : Bool)
    {s : Session (Provider S)} {p : Psbt L} {tx : Tx} (htx : p.unsignedTx = .ok tx) (hp : Plain p)
    (hk : ∀ n < p.inputs.length, Psbt.Spec.CanSpend S enough s.signers p n) :
    ∃ q r t us, afterSession S p s = some q ∧ Finalizer.new q = .ok q ∧ Finalizer.finalize M debug q = .ok r ∧ Extractor.new r = .ok r ∧
      Extractor.extractUnchecked r = .ok t ∧
      Spec.stripped t = { tx with input := tx.input.map fun x => { x with sequence := 0xFFFFFFFF } } ∧
      Psbt.Spec.Funding p.inputs us ∧
      ∀ n u, us[n]? = some u → ∃ x, t.input[n]? = some x ∧
        M.interp ⟨u.scriptPubkey, x.scriptSig, x.witness, 0xFFFFFFFF, 0, tx, n, us⟩ = none :=
  ready_steps hd debug htx hp fun n hn => canSpend_ready laws slaws htx (hk n hn)

/-- C124 fails all the same: every signature the signers made is over a message that is not the message of any input of the
transaction that is extracted, for any script, amount and sighash type, short of a collision of the hash function. -/
theorem C124_extracted_counterexample (hd : Spec.Deterministic S) (laws : KeyLaws S M out) (slaws : ScriptLaws S M enough)
    {s : Session (Provider S)} {p q r : Psbt L} {tx t : Tx} {debug : Bool} (htx : p.unsignedTx = .ok tx) (hp : Plain p)
    (hk : ∀ n < p.inputs.length, Psbt.Spec.CanSpend S enough s.signers p n) (hq : afterSession S p s = some q)
    (hf : Finalizer.finalize M debug q = .ok r) (ht : Extractor.extractUnchecked r = .ok t) (hs : t.Small) (hs' : tx.Small)
    (hw : ∀ i ∈ p.inputs, ∀ w, i.witnessScript = some w → w.length < 2 ^ 64) {n : Nat} {pk : L.pubkey.T} {g : EcdsaSig L}
    (hg : HasSig q n pk g) :
    ∃ sk m code v, S.pub sk = pk ∧ g.der = S.signEcdsa m sk ∧ segwitSighash L tx n code v g.ty = some m ∧
      ∀ n' code' v' ty', code'.length < 2 ^ 64 → segwitSighash L t n' code' v' ty' = some m →
        Collides L.sha256d (segwitHashed L t n' code' v' ty') (segwitHashed L tx n code v g.ty) ∨
        HitsZero L.sha256d (segwitHashed L t n' code' v' ty' ++ segwitHashed L tx n code v g.ty) := by
  obtain ⟨q', h1, h2, h3⟩ := session_signed (M := M) hd htx fun n hn => canSpend_ready laws slaws htx (hk n hn)
  cases hq.symm.trans h1
  obtain ⟨q', r', t', us, k1, hnew, -⟩ := C124_steps_partial hd laws slaws debug htx hp hk
  cases hq.symm.trans k1
  have hct : checkedTx q = tx := by
    rw [← checkedTx_erase q, h2, checkedTx_erase]; exact (checkedTx_plain htx).mp hp
  obtain ⟨j, hj, hg⟩ := hg
  have hlen : q.inputs.length = p.inputs.length := by
    have := congrArg (fun p : Psbt L => p.inputs.length) h2
    simpa [Psbt.Spec.erase] using this
  have hn := (List.getElem?_eq_some_iff.mp hj).1
  obtain ⟨i, u, ty, g1, g2, g3, g4, g5⟩ := hk n (by omega)
  obtain ⟨m, code, l1, l2, l3⟩ := canSpend_signs laws slaws htx g1 g2 g4 g5
  obtain ⟨j', b1, -, b2, -⟩ := h3 n i u ty m g1.1 g2 g3 l1
  cases hj.symm.trans b1
  obtain ⟨sk, rfl, rfl⟩ := b2 pk g hg
  have hcl : code.length < 2 ^ 64 := by
    rcases l3 with ⟨pk, rfl⟩ | h
    · exact keyCode_len pk
    · exact hw i (List.mem_of_getElem? g1.1) _ h
  refine ⟨sk, m, code, u.value, rfl, rfl, l2, fun n' code' v' ty' hc' hm' => ?_⟩
  rw [← hct] at l2 hs' ⊢
  exact C85_segwit_counterexample hnew hf ht hs hs' hc' hcl hm' l2

section Examples
open V0 (gL gS gKeys pbKeys mM mEnough mPub mBoth mWsh ySk)

/-- An input both signers have a key for. -/
def vIn (spk : Bytes) : Input gL := { Input.new gL ⟨Demo.rep 32 7, 0⟩ with
  witnessUtxo := some ⟨1000, spk⟩
  bip32Derivations := (BMap.empty.insert (Demo.val 33 (by decide) 5) V0.gOrigin).insert (Demo.val 33 (by decide) 6) (Demo.rep 4 3, [7]) }
/-- Two inputs that take both signers, and one that the second can spend. -/
def vTwo : Psbt gL :=
  ⟨{ Global.new gL with inputCount := 3, outputCount := 1, fallbackLockTime := some 9 },
    [{ vIn mWsh with witnessScript := some mBoth, sequence := some 0 },
     { vIn ([0xa9, 0x14] ++ (gL.hash160 mWsh).1 ++ [0x87]) with redeemScript := some mWsh, witnessScript := some mBoth },
     vIn ([0x00, 0x14] ++ (gL.hash160 (mPub 4).bytes).1)],
    [Output.new gL ⟨500, [0x51]⟩]⟩
def vTx : Tx := match vTwo.unsignedTx with | .ok t => t | .error _ => ⟨0, 0, [], []⟩
/-- The signers work on copies, which are combined into the original. -/
def vS : Session (Provider gS) := .combine .original (.combine (.sign .original gKeys) (.sign .original pbKeys))

theorem vSomeone {i : Input gL} (h : i.bip32Derivations = (vIn []).bip32Derivations) (pk : gL.pubkey.T) (hpk : pk ∈ [mPub 2, mPub 4]) :
    SomeSigner gS vS.signers i pk := by
  have a1 : Psbt.Spec.keysFor gS gKeys i = [ySk] := by unfold Psbt.Spec.keysFor; rw [h]; decide +kernel
  have a2 : Psbt.Spec.keysFor gS pbKeys i = [(4 : UInt8)] := by unfold Psbt.Spec.keysFor; rw [h]; rfl
  simp only [List.mem_cons, List.not_mem_nil, or_false] at hpk
  rcases hpk with rfl | rfl
  · exact ⟨gKeys, by simp [vS, Session.signers], ySk, by simp [a1], rfl⟩
  · exact ⟨pbKeys, by simp [vS, Session.signers], (4 : UInt8), by rw [a2]; exact List.mem_singleton.mpr rfl, rfl⟩

theorem vTwo_inputs : ∀ n < vTwo.inputs.length, Psbt.Spec.CanSpend gS mEnough vS.signers vTwo n := by
  intro n hn
  have hn : n < 3 := hn
  have hc : vTwo.global.inputCount.toNat = 3 := by decide +kernel
  match n, hn with
  | 0, _ =>
    exact ⟨_, _, ⟨1, by decide⟩, ⟨rfl, by rw [hc]; decide⟩, rfl, rfl, .inl ⟨rfl, rfl⟩,
      .wsh (w := mBoth) (keys := [mPub 2, mPub 4]) rfl rfl rfl ⟨by decide, rfl⟩ (vSomeone rfl)⟩
  | 1, _ =>
    exact ⟨_, _, ⟨1, by decide⟩, ⟨rfl, by rw [hc]; decide⟩, rfl, rfl, .inl ⟨rfl, rfl⟩,
      .shWsh (r := mWsh) (w := mBoth) (keys := [mPub 2, mPub 4]) rfl rfl rfl rfl ⟨by decide, rfl⟩ (vSomeone rfl)⟩
  | 2, _ =>
    exact ⟨_, _, ⟨1, by decide⟩, ⟨rfl, by rw [hc]; decide⟩, rfl, rfl, .inl ⟨rfl, rfl⟩,
      .wpkh (pk := mPub 4) ⟨rfl, rfl⟩ (vSomeone rfl _ (by simp))⟩

theorem vTwo_plain : Plain vTwo :=
  ⟨by intro i hi; simp [vTwo] at hi; rcases hi with rfl | rfl | rfl <;> first | exact .inl rfl | exact .inr rfl,
   .fallback (by intro i hi; simp [vTwo] at hi; rcases hi with rfl | rfl | rfl <;> rintro (h | h) <;> exact h rfl)⟩

-- C124: a transaction comes out …
example : ∃ q r t, afterSession gS vTwo vS = some q ∧ Finalizer.finalize mM true q = .ok r ∧ Extractor.extractUnchecked r = .ok t ∧
    t.input.map TxIn.sequence = [0xFFFFFFFF, 0xFFFFFFFF, 0xFFFFFFFF] ∧
    q.inputs.map (fun i => i.partialSigs.l.length) = [2, 2, 2] := by
  obtain ⟨q, r, t, us, h1, -, h2, -, h3, h4, -⟩ := C124_steps_partial V0.pb_deterministic V0.mM_laws V0.mM_scripts true (s := vS) (p := vTwo) (tx := vTx)
    (by decide +kernel) vTwo_plain vTwo_inputs
  refine ⟨q, r, t, h1, h2, h3, ?_, ?_⟩
  · have := congrArg (fun t => t.input.map TxIn.sequence) h4
    simp only [Spec.stripped, List.map_map] at this
    exact this
  · have : (afterSession gS vTwo vS).map (fun q => q.inputs.map fun i => i.partialSigs.l.length) = some [2, 2, 2] := by decide +kernel
    rw [h1] at this; exact Option.some.inj this
-- … and `C124_extracted_counterexample` applies to it.
example : vTx.Small ∧ ∀ i ∈ vTwo.inputs, ∀ w, i.witnessScript = some w → w.length < 2 ^ 64 := by
  have hl : mBoth.length < 2 ^ 64 := by decide +kernel
  refine ⟨by unfold Tx.Small TxIn.Small; decide +kernel, ?_⟩
  intro i hi w hw
  simp [vTwo] at hi
  rcases hi with rfl | rfl | rfl <;> cases hw <;> exact hl
end Examples

end Psbt.V2
