/- C92: whether a PSBT v2 with one key per input becomes a complete transaction. -/
import Verif.Spec.V2Complete
import Verif.Props.V2Interp
import Verif.Props.V2Satisfy
import Verif.Props.V0Complete
namespace Psbt.V2
open Psbt Psbt.Spec

variable {L : Lib} {S : SigLib L} {M : MsLib L} {k : Provider S} {out : S.Keypair → FixedBytes 32}

theorem oneKey_signs {p : Psbt L} {tx : Tx} {n : Nat} {u : TxOut} {sk : S.SK} {m : Hash32} {ty : EcdsaTy} {s : Bytes}
    (h : OneKeyInput S k p tx n u sk m ty s) : ∃ i, Psbt.Spec.HasInput p n i ∧ i.witnessUtxo = some u ∧ i.partialSigs = .empty ∧
      Psbt.Spec.keysFor S k i = [sk] ∧ Psbt.Spec.DeclaredType i ty ∧ Psbt.Spec.Signs tx p n i m ty ∧
      segwitSighash L tx n (keyCode (S.pub sk)) u.value ty = some m ∧
      (s = [] ∧ CommitsWpkh u.scriptPubkey (S.pub sk) ∨
        ∃ r, s = push r ∧ i.redeemScript = some r ∧ CommitsSh L u.scriptPubkey r ∧ CommitsWpkh r (S.pub sk)) := by
  cases h with
  | @wpkh i h1 h2 h3 h4 h5 h6 h7 =>
    exact ⟨i, h1, h2, h3, h4, h5, ⟨h1, u, .witness h2, h5, .wpkh h6.2 h7⟩, h7, .inl ⟨rfl, h6⟩⟩
  | @shWpkh i r h1 h2 h3 h4 h5 h6 h7 h8 h9 =>
    exact ⟨i, h1, h2, h3, h4, h5, ⟨h1, u, .witness h2, h5, .shWpkh ⟨_, h6⟩ (h8.2 ▸ h7) h9⟩, h9, .inr ⟨r, rfl, h7, h6, h8⟩⟩

/-- Signing such inputs succeeds, and each gets its one signature. -/
theorem oneKey_signed {p : Psbt L} {tx : Tx} (htx : p.unsignedTx = .ok tx)
    (hk : ∀ n < p.inputs.length, ∃ u sk m ty s, OneKeyInput S k p tx n u sk m ty s) :
    ∃ q used, Signer.sign S p k = .ok (q, used) ∧ Psbt.Spec.erase q = Psbt.Spec.erase p ∧ q.inputs.length = p.inputs.length ∧
      ∀ n u sk m ty s, OneKeyInput S k p tx n u sk m ty s → ∃ i, p.inputs[n]? = some i ∧
        q.inputs[n]? = some { i with partialSigs := BMap.insert .empty (S.pub sk) ⟨S.signEcdsa m sk, ty⟩ } := by
  cases hs : p.sign S tx k with
  | error e =>
    cases e with
    | err e => exact e.elim
    | panic why =>
      obtain ⟨n, i, e, h1, h2, -⟩ := (C35_panics_iff (signer_unsignedTx_len htx)).mp ⟨why, hs⟩
      obtain ⟨u, sk, m, ty, s, h⟩ := hk n (List.getElem?_eq_some_iff.mp h1.1.1).1
      obtain ⟨j, g1, -, -, g2, -⟩ := oneKey_signs h
      cases h1.1.1.symm.trans g1.1
      rw [h2] at g2; cases g2
  | ok x =>
    obtain ⟨q, res⟩ := x
    obtain ⟨used, errs, h1, -, h3⟩ := C35_reports hs
    have hres : res = .ok used := by
      rcases h1 with ⟨h1, -⟩ | ⟨-, h1⟩
      · exact h1
      · exfalso
        obtain ⟨⟨n, e⟩, hne⟩ := List.exists_mem_of_ne_nil _ h1
        obtain ⟨i, g1, g2, g3⟩ := (h3 n e).mp (BMap.mem_iff_get.mp hne)
        obtain ⟨u, sk, m, ty, s, h⟩ := hk n (List.getElem?_eq_some_iff.mp g1.1.1).1
        obtain ⟨j, -, -, -, -, -, g4, -⟩ := oneKey_signs h
        rw [signs_iff.mpr ⟨j, g4⟩] at g3
        cases g3
    subst hres
    have her := C33_frame hs
    refine ⟨q, used, signer_sign_iff.mpr ⟨tx, htx, hs⟩, her, ?_, fun n u sk m ty s h => ?_⟩
    · have := congrArg (fun p : Psbt L => p.inputs.length) her
      simpa [Psbt.Spec.erase] using this
    · obtain ⟨i, g1, -, g2, g3, -, g4, -⟩ := oneKey_signs h
      refine ⟨i, g1.1, ?_⟩
      rw [(C33_signatures hs g1.1).1 m ty g4, g2, g3]
      rfl

theorem checkedTx_erase (p : Psbt L) : checkedTx (Psbt.Spec.erase p) = checkedTx p := by
  simp [checkedTx, Psbt.Spec.erase, List.map_map, Function.comp_def]

theorem getElem?_of_erase {p q : Psbt L} (h : Psbt.Spec.erase q = Psbt.Spec.erase p) (n : Nat) :
    q.inputs[n]?.map (fun i => { i with partialSigs := .empty }) = p.inputs[n]?.map (fun i => { i with partialSigs := .empty }) := by
  have := congrArg (fun p : Psbt L => p.inputs[n]?) h
  simpa [Psbt.Spec.erase] using this

theorem single_firstKey {P : L.pubkey.T → Prop} {pk : L.pubkey.T} {sig : EcdsaSig L} (h : P pk) :
    FirstKey (BMap.insert (.empty : BMap L.pubkey.T (EcdsaSig L)) pk sig).l P pk :=
  ⟨[], sig, [], rfl, h, by simp⟩

/-- A signed input is finalized with the key and its signature. -/
theorem oneKey_final (laws : KeyLaws S M out) {p q : Psbt L} {tx : Tx} {n : Nat} {u : TxOut} {sk : S.SK} {m : Hash32} {ty : EcdsaTy}
    {s : Bytes} (h : OneKeyInput S k p tx n u sk m ty s) {i : Input L} (hi : p.inputs[n]? = some i) {j : Input L}
    (hj : j = { i with partialSigs := BMap.insert .empty (S.pub sk) ⟨S.signEcdsa m sk, ty⟩ }) :
    InputResult M q j (.ok (onlyFinal j (some s) (some (oneKeyWitness S sk m ty)))) := by
  obtain ⟨i', h1, h2, -, -, -, -, -, h3⟩ := oneKey_signs h
  cases hi.symm.trans h1.1
  have hw : j.witnessUtxo = some u := by rw [hj]; exact h2
  have hsig : (j.satisfier M).ecdsaSig (S.pub sk) = some ⟨S.signEcdsa m sk, ty⟩ := by
    rw [hj]; exact BMap.get_insert_self _ _ _
  refine .segwit ?_ (by rw [hw]; simp) (by simp [oneKeyWitness])
  rcases h3 with ⟨rfl, hc⟩ | ⟨r, rfl, hr, hs, hc⟩
  · refine .other (.witness hw) ?_ (.wpkh ⟨_, hc.2⟩ (by rw [hj]; exact single_firstKey hc) (.ok ((laws.accepts _).2 hc.1).1))
      (laws.wpkh true _ _ _ hc.1 hsig)
    rw [hc.2]; rintro ⟨x, hx⟩; simp at hx
  · refine .other (.witness hw) ?_ (.shWpkh (by rw [hj]; exact hr) hs ⟨_, hc.2⟩ (by rw [hj]; exact single_firstKey hc)
      (.ok ((laws.accepts _).2 hc.1).2)) ?_
    · unfold CommitsSh at hs
      rw [hs]; rintro ⟨x, hx⟩; simp at hx
    · rw [laws.shWpkh true _ _ _ hc.1 hsig, ← hc.2]; rfl

/-- Everything up to the interpreter. -/
theorem oneKey_ready (laws : KeyLaws S M out) {p : Psbt L} {tx : Tx} (htx : p.unsignedTx = .ok tx)
    (hk : ∀ n < p.inputs.length, ∃ u sk m ty s, OneKeyInput S k p tx n u sk m ty s) :
    ∃ q used js us, Signer.new p = .ok p ∧ Signer.sign S p k = .ok (q, used) ∧ Finalizer.new q = .ok q ∧
      checkedTx q = checkedTx p ∧ q.global.fallbackLockTime = p.global.fallbackLockTime ∧ q.inputs.length = p.inputs.length ∧
      (∀ i ∈ q.inputs, i.witnessUtxo ≠ none) ∧ Forms M q q.inputs js ∧ Psbt.Spec.Funding q.inputs us ∧
      ∀ n u sk m ty s, OneKeyInput S k p tx n u sk m ty s → us[n]? = some u ∧ ∃ j, q.inputs[n]? = some j ∧
        js[n]? = some (onlyFinal j (some s) (some (oneKeyWitness S sk m ty))) := by
  obtain ⟨q, used, h1, h2, h3, h4⟩ := oneKey_signed htx hk
  obtain ⟨t, hlt, -⟩ := unsignedTx_ok.mp htx
  have hltq : q.determineLockTime = .ok t := by rw [← determineLockTime_erase q, h2, determineLockTime_erase, hlt]
  have hin : ∀ j ∈ q.inputs, ∃ n u sk m ty s i, OneKeyInput S k p tx n u sk m ty s ∧ p.inputs[n]? = some i ∧ q.inputs[n]? = some j ∧
      j = { i with partialSigs := BMap.insert .empty (S.pub sk) ⟨S.signEcdsa m sk, ty⟩ } := by
    intro j hj
    obtain ⟨n, hn⟩ := List.getElem?_of_mem hj
    obtain ⟨u, sk, m, ty, s, h⟩ := hk n (by rw [← h3]; exact (List.getElem?_eq_some_iff.mp hn).1)
    obtain ⟨i, g1, g2⟩ := h4 n u sk m ty s h
    exact ⟨n, u, sk, m, ty, s, i, h, g1, hn, Option.some.inj (hn.symm.trans g2)⟩
  have hwit : ∀ j ∈ q.inputs, ∃ u, j.witnessUtxo = some u := by
    intro j hj
    obtain ⟨n, u, sk, m, ty, s, i, h, g1, -, g2⟩ := hin j hj
    obtain ⟨i', k1, k2, -⟩ := oneKey_signs h
    cases g1.symm.trans k1.1
    exact ⟨u, by rw [g2]; exact k2⟩
  have hfund : ∀ j ∈ q.inputs, ∃ u, Psbt.Spec.FundedBy j u := fun j hj => (hwit j hj).imp fun u h => .witness h
  obtain ⟨us, hus⟩ := funding_total hfund
  obtain ⟨js, hjs⟩ := forms_exists (M := M) (p := q) (is := q.inputs) fun j hj => by
    obtain ⟨n, u, sk, m, ty, s, i, h, g1, -, g2⟩ := hin j hj
    exact ⟨_, oneKey_final laws h g1 g2⟩
  obtain ⟨hjl, hjr⟩ := forms_iff.mp hjs
  refine ⟨q, used, js, us, ?_, h1, ?_, ?_, ?_, h3, ?_, hjs, hus, fun n u sk m ty s h => ?_⟩
  · unfold Signer.new; rw [hlt]; rfl
  · refine (C41_new_iff q q).mpr ⟨rfl, hfund, fun hc => ?_, fun j hj => ?_⟩
    · have := (C17_error_iff q .conflict).mpr hc
      rw [hltq] at this; cases this
    · obtain ⟨n, u, sk, m, ty, s, i, h, g1, -, g2⟩ := hin j hj
      obtain ⟨i', k1, -, -, -, k2, -⟩ := oneKey_signs h
      cases g1.symm.trans k1.1
      refine ⟨ty, by rw [g2]; exact k2, fun pk sig hg => ?_⟩
      rw [g2] at hg
      by_cases hpk : pk = S.pub sk
      · subst hpk
        rw [BMap.get_insert_self] at hg; cases hg; rfl
      · rw [BMap.get_insert_ne _ hpk] at hg; cases hg
  · rw [← checkedTx_erase q, h2, checkedTx_erase]
  · have := congrArg (fun p : Psbt L => p.global.fallbackLockTime) h2
    exact this
  · intro j hj
    obtain ⟨u, hu⟩ := hwit j hj
    rw [hu]; simp
  · obtain ⟨i, g1, g2⟩ := h4 n u sk m ty s h
    obtain ⟨i', k1, k2, -⟩ := oneKey_signs h
    cases g1.symm.trans k1.1
    have hl := (List.getElem?_eq_some_iff.mp g2).1
    refine ⟨?_, _, g2, ?_⟩
    · have hmap := funding_iff.mpr hus
      have := congrArg (fun l => l[n]?) hmap
      simp only [List.getElem?_map, g2, Option.map_some] at this
      cases hun : us[n]? with
      | none => rw [hun] at this; cases this
      | some u' =>
        rw [hun, Option.map_some, Option.some.injEq] at this
        have e : Input.fundingUtxo { i with partialSigs := BMap.insert .empty (S.pub sk) ⟨S.signEcdsa m sk, ty⟩ } = .ok u := by
          unfold Input.fundingUtxo; simp only [k2]
        rw [e] at this; cases this; rfl
    · obtain ⟨j', hj'⟩ : ∃ j', js[n]? = some j' := ⟨_, List.getElem?_eq_getElem (by omega)⟩
      have := inputResult_unique (hjr n _ j' g2 hj') (oneKey_final laws h g1 rfl)
      rw [hj']; cases this; rfl

theorem checkedTx_plain {p : Psbt L} {tx : Tx} (htx : p.unsignedTx = .ok tx) : Plain p ↔ checkedTx p = tx := by
  obtain ⟨t, hlt, rfl⟩ := unsignedTx_ok.mp htx
  have hl : LockTime p (p.global.fallbackLockTime.getD 0) ↔ p.global.fallbackLockTime.getD 0 = t := by
    rw [← C17_lock_time_iff, hlt, Except.ok.injEq]
    exact eq_comm
  unfold Plain checkedTx
  rw [hl, Tx.mk.injEq]
  constructor
  · rintro ⟨h1, h2⟩
    refine ⟨rfl, h2, List.map_congr_left fun i hi => ?_, rfl⟩
    rcases h1 i hi with h | h <;> simp [Input.unsignedTxIn, Input.outPoint, h]
  · rintro ⟨-, h2, h3, -⟩
    refine ⟨fun i hi => ?_, h2⟩
    have := congrArg TxIn.sequence (List.map_inj_left.mp h3 i hi)
    simp only [Input.unsignedTxIn] at this
    cases hs : i.sequence with
    | none => exact .inl rfl
    | some x => rw [hs] at this; exact .inr (by rw [← show (0 : UInt32) = x from this])

/-- C92. What holds: if no input states a sequence number but zero and the lock time is the fallback lock time, every input with
one key at hand (P2WPKH, also inside P2SH) goes all the way, from the signer to the extractor, and what comes out spends each
input with the signature over the message of this input and the key. -/
theorem C92_steps_partial (laws : KeyLaws S M out) (debug : Bool) {p : Psbt L} {tx : Tx} (htx : p.unsignedTx = .ok tx) (hp : Plain p)
    (hk : ∀ n < p.inputs.length, ∃ u sk m ty s, OneKeyInput S k p tx n u sk m ty s) :
    ∃ q used r t, Signer.new p = .ok p ∧ Signer.sign S p k = .ok (q, used) ∧ Finalizer.new q = .ok q ∧
      Finalizer.finalize M debug q = .ok r ∧ Extractor.new r = .ok r ∧ Extractor.extractUnchecked r = .ok t ∧
      Spec.stripped t = { tx with input := tx.input.map fun x => { x with sequence := 0xFFFFFFFF } } ∧
      ∀ n u sk m ty s, OneKeyInput S k p tx n u sk m ty s → ∃ x, t.input[n]? = some x ∧ x.scriptSig = s ∧
        x.witness = oneKeyWitness S sk m ty := by
  obtain ⟨q, used, js, us, h1, h2, h3, h4, -, hlen, h5, h6, h7, h8⟩ := oneKey_ready laws htx hk
  obtain ⟨-, hfund, -⟩ := (C41_new_iff q q).mp h3
  obtain ⟨hjl, hjr⟩ := forms_iff.mp h6
  have hct : checkedTx q = tx := h4.trans ((checkedTx_plain htx).mp hp)
  have hul : us.length = tx.input.length := by
    have := congrArg List.length (funding_iff.mpr h7)
    rw [← hct]
    simpa [checkedTx] using this.symm
  have hf : Finalizer.finalize M debug q = .ok ⟨q.global, js, q.outputs⟩ := by
    refine (C41_finalize_iff hfund debug _).mpr ⟨rfl, rfl, hjl, hjr, h5, us, h7, fun n j hj => ?_⟩
    obtain ⟨u, sk, m, ty, s, h⟩ := hk n (by rw [← hlen, ← hjl]; exact (List.getElem?_eq_some_iff.mp hj).1)
    obtain ⟨hu, i, hi, hji⟩ := h8 n u sk m ty s h
    cases hj.symm.trans hji
  
    have hfu : FundedBy i u := by
      have := congrArg (fun l => l[n]?) (funding_iff.mpr h7)
      simp only [List.getElem?_map, hi, hu, Option.map_some, Option.some.injEq] at this
      exact fundingUtxo_ok.mp this
    refine ⟨u, s, _, ?_, rfl, rfl, ?_⟩
    · cases hfu with
      | witness g => exact .witness g
      | nonWitness g1 g2 g3 => exact .nonWitness g1 g2 g3
    · rw [hct]
      obtain ⟨-, -, -, -, -, -, -, hm, ⟨rfl, hc⟩ | ⟨r, rfl, -, hs, hc⟩⟩ := oneKey_signs h
      · exact laws.runWpkh sk m ty u _ _ tx n us hc hul hu hm
      · exact laws.runShWpkh sk m ty u r _ _ tx n us hs hc hul hu hm
  obtain ⟨e1, t, e2, e3, -, -⟩ := C63_checked_and_extracted hfund hf
  refine ⟨q, used, _, t, h1, h2, h3, hf, e1, e2, by rw [e3, hct], fun n u sk m ty s h => ?_⟩
  obtain ⟨hu, i, hi, hji⟩ := h8 n u sk m ty s h
  obtain ⟨t', e2', -, -, ⟨e4, e5⟩, -⟩ := C31_extraction e1
  cases e2.symm.trans e2'
  obtain ⟨x, hx⟩ : ∃ x, t.input[n]? = some x :=
    ⟨_, List.getElem?_eq_getElem (by rw [e4]; exact (List.getElem?_eq_some_iff.mp hji).1)⟩
  refine ⟨x, hx, ?_⟩
  obtain ⟨-, g1, g2, -⟩ := e5 n _ x hji hx
  exact ⟨(Option.some.inj g1).symm, (Option.some.inj g2).symm⟩

theorem keyCode_len (pk : L.pubkey.T) : (keyCode pk).length < 2 ^ 64 := by
  have := (L.hash160 pk.bytes).2
  simp [keyCode, this]

/-- C92 fails all the same: in the transaction that is extracted, no input's message is the one that was signed for it, short of
a collision of the hash function. (The signatures are over sequence number 0, the transaction has 0xFFFFFFFF.) So an interpreter
that only accepts a signature over the message of the transaction it is given refuses each input. -/
theorem C92_extracted_counterexample (laws : KeyLaws S M out) (strict : Strict S M) {p q r : Psbt L} {tx t : Tx} {used} {debug : Bool}
    (htx : p.unsignedTx = .ok tx) (hp : Plain p) (hk : ∀ n < p.inputs.length, ∃ u sk m ty s, OneKeyInput S k p tx n u sk m ty s) (hsig : Signer.sign S p k = .ok (q, used))
    (hf : Finalizer.finalize M debug q = .ok r) (ht : Extractor.extractUnchecked r = .ok t) (hs : t.Small) (hs' : tx.Small)
    {n : Nat} {u : TxOut} {sk : S.SK} {m : Hash32} {ty : EcdsaTy} {s : Bytes} (h : OneKeyInput S k p tx n u sk m ty s) :
    ((∀ csv cltv us, us[n]? = some u → M.interp ⟨u.scriptPubkey, s, oneKeyWitness S sk m ty, csv, cltv, t, n, us⟩ ≠ none) ∧
      segwitSighash L t n (keyCode (S.pub sk)) u.value ty ≠ some m) ∨
    Collides L.sha256d (segwitHashed L t n (keyCode (S.pub sk)) u.value ty) (segwitHashed L tx n (keyCode (S.pub sk)) u.value ty) ∨
    HitsZero L.sha256d (segwitHashed L t n (keyCode (S.pub sk)) u.value ty ++ segwitHashed L tx n (keyCode (S.pub sk)) u.value ty) := by
  obtain ⟨q', used', js, us, h1, h2, h3, h4, -⟩ := oneKey_ready laws htx hk
  cases hsig.symm.trans h2
  have hct : checkedTx q = tx := h4.trans ((checkedTx_plain htx).mp hp)
  obtain ⟨_, _, _, _, _, _, _, hm, hshape⟩ := oneKey_signs h
  rw [← hct] at hm hs' ⊢
  by_cases hmt : segwitSighash L t n (keyCode (S.pub sk)) u.value ty = some m
  · exact .inr (C85_segwit_counterexample h3 hf ht hs hs' (keyCode_len _) (keyCode_len _) hmt hm)
  · refine .inl ⟨fun csv cltv us hu hi => hmt ?_, hmt⟩
    rcases hshape with ⟨rfl, hc⟩ | ⟨r, rfl, -, hr, hc⟩
    · exact strict.wpkh sk m ty u csv cltv t n us hc hu hi
    · exact strict.shWpkh sk m ty u r csv cltv t n us hr hc hu hi

/-- And if an input states another sequence number, or the lock time is not the fallback lock time, signing still succeeds but
such an interpreter makes the finalizer refuse its own crate's signatures, short of a collision: it is run in a transaction
without these numbers. -/
theorem C92_refused_counterexample (laws : KeyLaws S M out) (strict : Strict S M) (debug : Bool) {p : Psbt L} {tx : Tx} (htx : p.unsignedTx = .ok tx) (hp : ¬ Plain p)
    (hk : ∀ n < p.inputs.length, ∃ u sk m ty s, OneKeyInput S k p tx n u sk m ty s) (hs : tx.Small) :
    ∃ q used, Signer.new p = .ok p ∧ Signer.sign S p k = .ok (q, used) ∧ Finalizer.new q = .ok q ∧
      ((∃ n why, Finalizer.finalize M debug q = .error (.err (.interpreterCheck (.input n why)))) ∨
       ∃ n u sk m ty s, OneKeyInput S k p tx n u sk m ty s ∧
        (Collides L.sha256d (segwitHashed L (checkedTx p) n (keyCode (S.pub sk)) u.value ty)
          (segwitHashed L tx n (keyCode (S.pub sk)) u.value ty) ∨
         HitsZero L.sha256d (segwitHashed L (checkedTx p) n (keyCode (S.pub sk)) u.value ty ++
          segwitHashed L tx n (keyCode (S.pub sk)) u.value ty))) := by
  obtain ⟨q, used, js, us, h1, h2, h3, h4, -, hlen, h5, h6, h7, h8⟩ := oneKey_ready laws htx hk
  refine ⟨q, used, h1, h2, h3, ?_⟩
  obtain ⟨-, hfund, -⟩ := (C41_new_iff q q).mp h3
  obtain ⟨t, hlt, htx'⟩ := unsignedTx_ok.mp htx
  have hs' : (checkedTx p).Small := by
    subst htx'
    obtain ⟨a1, a2, a3, a4⟩ := hs
    refine ⟨by simpa [checkedTx] using a1, by simpa [checkedTx] using a2, ?_, a4⟩
    intro x hx
    obtain ⟨i, hi, rfl⟩ := List.mem_map.mp hx
    have := a3 _ (List.mem_map_of_mem (f := Input.unsignedTxIn) hi)
    exact this
  cases hf : Finalizer.finalize M debug q with
  | error e =>
    cases e with
    | err e =>
      cases e with
      | finalizeInput n e =>
        obtain ⟨⟨i, hi, hr⟩, -⟩ := (C41_failing_input_iff hfund debug n e).mp hf
        obtain ⟨hjl, hjr⟩ := forms_iff.mp h6
        obtain ⟨j, hj⟩ : ∃ j, js[n]? = some j := ⟨_, List.getElem?_eq_getElem (by rw [hjl]; exact (List.getElem?_eq_some_iff.mp hi).1)⟩
        cases inputResult_unique hr (hjr n i j hi hj)
      | interpreterCheck e =>
        obtain ⟨-, -, n, -, why, rfl, -⟩ := (C41_refused_input_iff hfund debug e).mp hf
        exact .inl ⟨n, why, rfl⟩
    | panic why =>
      obtain ⟨-, -, n, i, -, -, -, hi, hw, -⟩ := (C41_panic_iff hfund debug).mp ⟨why, hf⟩
      exact absurd hw (h5 i (List.mem_of_getElem? hi))
  | ok r =>
    right
    obtain ⟨-, -, hl, hr, -, us', hus, hc⟩ := (C41_finalize_iff hfund debug r).mp hf
    have hall : ∀ n u sk m ty s, OneKeyInput S k p tx n u sk m ty s →
        segwitSighash L (checkedTx p) n (keyCode (S.pub sk)) u.value ty = some m := by
      intro n u sk m ty s h
      obtain ⟨hu, i, hi, hji⟩ := h8 n u sk m ty s h
      have hmap := (funding_iff.mpr h7).symm.trans (funding_iff.mpr hus)
      cases (List.map_inj_right (fun _ _ => Except.ok.inj)).mp hmap
      obtain ⟨j, hj⟩ : ∃ j, r.inputs[n]? = some j := ⟨_, List.getElem?_eq_getElem (by rw [hl]; exact (List.getElem?_eq_some_iff.mp hi).1)⟩
      cases inputResult_unique (hr n i j hi hj) ((forms_iff.mp h6).2 n i _ hi hji)
      obtain ⟨u', s', w', g1, g2, g3, g4⟩ := hc n _ hj
      cases g2; cases g3
      have hu' : us[n]? = some u' := by
        have := congrArg (fun l => l[n]?) (funding_iff.mpr h7)
        have e : i.fundingUtxo = .ok u' := fundingUtxo_ok.mpr (by
          cases g1 with
          | witness g => exact .witness g
          | nonWitness a b c => exact .nonWitness a b c)
        simp only [List.getElem?_map, hi, hu, Option.map_some, Option.some.injEq] at this
        cases e.symm.trans this
        exact hu
      cases hu.symm.trans hu'
      rw [h4] at g4
      obtain ⟨-, -, -, -, -, -, -, -, ⟨rfl, hcm⟩ | ⟨rd, rfl, -, hsh, hcm⟩⟩ := oneKey_signs h
      · exact strict.wpkh sk m ty u _ _ _ n us hcm hu g4
      · exact strict.shWpkh sk m ty u rd _ _ _ n us hsh hcm hu g4
    apply Classical.byContradiction
    intro hno
    refine hp ((checkedTx_plain htx).mpr ?_)
    have hcom : ∀ n < p.inputs.length, (checkedTx p).lockTime = tx.lockTime ∧ ∃ a b, (checkedTx p).input[n]? = some a ∧ tx.input[n]? = some b ∧ a.sequence = b.sequence := by
      intro n hn
      obtain ⟨u, sk, m, ty, s, h⟩ := hk n hn
      have hm := oneKey_signs h
      obtain ⟨-, -, -, -, -, -, -, hm, -⟩ := hm
      rcases C37_segwit_commits hs' hs (keyCode_len _) (keyCode_len _) (hall n u sk m ty s h) hm with g | g | ⟨-, -, g1, -, -, ⟨a, b, g2, g3, -, g4⟩, -⟩
      · exact absurd ⟨n, u, sk, m, ty, s, h, .inl g⟩ hno
      · exact absurd ⟨n, u, sk, m, ty, s, h, .inr g⟩ hno
      · exact ⟨g1, a, b, g2, g3, g4⟩
    have hlk : (checkedTx p).lockTime = tx.lockTime := by
      cases hin : p.inputs with
      | cons i is => exact (hcom 0 (by rw [hin]; simp)).1
      | nil =>
        have : p.determineLockTime = .ok (p.global.fallbackLockTime.getD 0) :=
          (C17_lock_time_iff p _).mpr (.fallback (by rw [hin]; simp))
        rw [hlt] at this; cases this
        rw [htx']; rfl
    rw [htx'] at hlk hcom ⊢
    refine (Tx.mk.injEq ..).mpr ⟨rfl, hlk, List.map_congr_left fun i hi => ?_, rfl⟩
    obtain ⟨n, hn⟩ := List.getElem?_of_mem hi
    obtain ⟨-, a, b, g1, g2, g3⟩ := hcom n (List.getElem?_eq_some_iff.mp hn).1
    simp only [checkedTx, List.getElem?_map, hn, Option.map_some, Option.some.injEq] at g1 g2
    subst g1 g2
    simp only [Input.unsignedTxIn, Input.outPoint, ← show (0 : UInt32) = i.sequence.getD 0 from g3]

section Examples
/-- A library whose ECDSA signatures say which message was signed. -/
abbrev zL : Lib := { Demo.mixLib with derSig := Demo.fixed 33 (by decide) }
abbrev zS : SigLib zL where
  SK := UInt8
  pub b := Demo.val 33 (by decide) b
  signEcdsa m sk := ⟨m.1 ++ [sk], by
    have := m.2
    simp [zL, Demo.fixed, this]⟩
  Keypair := Bool × UInt8
  keypair b := (false, b)
  tapTweak kp _ := (true, kp.2)
  signSchnorr m kp := Demo.pad 64 (m.1 ++ [if kp.1 then 1 else 0, kp.2])
  xonly := (Demo.sigLib false).xonly
  ofSecp x := ⟨x.bytes, x.ok⟩
  Xpriv := UInt8 × UInt8
  fingerprint x := Demo.rep 4 x.2
  parentFingerprint x := Demo.rep 4 x.1
  derive x path := if path.length < 256 then some (x.2, x.2 + UInt8.ofNat path.length) else none
  toPriv x := x.2

def zOut (kp : zS.Keypair) : FixedBytes 32 := Demo.rep 32 kp.2

open Classical in
/-- Its descriptors of keys, and an interpreter that accepts nothing but what it has to. -/
noncomputable def zM : MsLib zL where
  ofSecp x := ⟨x.bytes, x.ok⟩
  Ms := Bytes
  parse _ _ := none
  substitute _ b := b
  accepts _ := true
  satisfy _ d sat := match d with
    | .pkh pk => (sat.ecdsaSig pk).map fun s => ([], push (s.der.bytes ++ [s.ty.1]) ++ push pk.bytes)
    | .wpkh pk => (sat.ecdsaSig pk).map fun s => ([s.der.bytes ++ [s.ty.1], pk.bytes], [])
    | .shWpkh pk => (sat.ecdsaSig pk).map fun s =>
        ([s.der.bytes ++ [s.ty.1], pk.bytes], push ([0x00, 0x14] ++ (zL.hash160 pk.bytes).1))
    | _ => none
  TapMs := Bytes
  tapParse _ := none
  tapSubstitute _ b := b
  tapSatisfy _ _ _ := none
  tapEncode b := b
  interp a := if V0.Accepted zS zOut a then none else some .satisfaction

theorem zM_laws : KeyLaws zS zM zOut where
  accepts _ := ⟨rfl, fun _ => ⟨rfl, rfl⟩⟩
  pkh _ _ _ _ h := by simp only [zM, h]; rfl
  wpkh _ _ _ _ _ h := by simp only [zM, h]; rfl
  shWpkh _ _ _ _ _ h := by simp only [zM, h]; rfl
  runPkh sk m ty spk csv cltv tx n us h1 h2 h3 h4 := if_pos (.pkh sk m ty spk csv cltv tx n us h1 h2 h3 h4)
  runWpkh sk m ty u csv cltv tx n us h1 h2 h3 h4 := if_pos (.wpkh sk m ty u csv cltv tx n us h1 h2 h3 h4)
  runShWpkh sk m ty u r csv cltv tx n us h1 h2 h3 h4 h5 := if_pos (.shWpkh sk m ty u r csv cltv tx n us h1 h2 h3 h4 h5)
  runTr kp m ty u csv cltv tx n us q h1 h2 h3 h4 h5 := if_pos (.tr kp m ty u csv cltv tx n us q h1 h2 h3 h4 h5)

theorem zM_accepts {a} (h : zM.interp a = none) : V0.Accepted zS zOut a := by
  unfold zM at h
  simp only at h
  split at h
  · assumption
  · cases h

/-- A witness of this library tells the message. -/
theorem zWitness_inj {sk sk' : zS.SK} {m m' : Hash32} {ty ty' : EcdsaTy} (h : oneKeyWitness zS sk m ty = oneKeyWitness zS sk' m' ty') :
    sk = sk' ∧ m = m' ∧ ty = ty' := by
  simp only [oneKeyWitness, List.cons.injEq, and_true] at h
  obtain ⟨h1, h2⟩ := h
  have hsk : sk = sk' := by
    have : List.replicate 33 sk = List.replicate 33 sk' := h2
    exact (List.replicate_inj.mp this).2.resolve_left (by decide)
  subst hsk
  have h1 : (m.1 ++ [sk]) ++ [ty.1] = (m'.1 ++ [sk]) ++ [ty'.1] := h1
  have h3 := List.append_inj' h1 rfl
  have h4 := List.append_inj' h3.1 rfl
  exact ⟨rfl, Subtype.ext h4.1, Subtype.ext (by simpa using h3.2)⟩

theorem zM_message {a : InterpArgs} {sk : zS.SK} {m : Hash32} {ty : EcdsaTy} {u : TxOut} (h : zM.interp a = none)
    (hw : a.witness = oneKeyWitness zS sk m ty) (hu : a.utxos[a.index]? = some u) :
    segwitSighash zL a.tx a.index (keyCode (zS.pub sk)) u.value ty = some m := by
  cases zM_accepts h with
  | pkh => simp [oneKeyWitness] at hw
  | wpkh sk' m' ty' u' csv' cltv' tx' n' us' g1 g2 g3 g4 =>
    cases hu.symm.trans g3
    obtain ⟨rfl, rfl, rfl⟩ := zWitness_inj (show oneKeyWitness zS sk' m' ty' = _ from hw)
    exact g4
  | shWpkh sk' m' ty' u' r csv' cltv' tx' n' us' g0 g1 g2 g3 g4 =>
    cases hu.symm.trans g3
    obtain ⟨rfl, rfl, rfl⟩ := zWitness_inj (show oneKeyWitness zS sk' m' ty' = _ from hw)
    exact g4
  | tr => simp [oneKeyWitness] at hw

theorem zM_strict : Strict zS zM where
  wpkh _ _ _ _ _ _ _ _ _ _ hu h := zM_message h rfl hu
  shWpkh _ _ _ _ _ _ _ _ _ _ _ _ hu h := zM_message h rfl hu

def zOrigin : BMap zL.secpPk.T KeySource := BMap.empty.insert (Demo.val 33 (by decide) 5) (Demo.rep 4 1, [7])
def zKeys : Provider zS := getKeyXpriv zS (0, 1)
def zSk : zS.SK := (2 : UInt8)
def zSh : Bytes := [0x00, 0x14] ++ (zL.hash160 (zS.pub zSk).bytes).1
def zIn (spk : Bytes) : Input zL := { Input.new zL ⟨Demo.rep 32 7, 0⟩ with witnessUtxo := some ⟨1000, spk⟩, bip32Derivations := zOrigin }
/-- A P2WPKH input, and one inside P2SH that is signed with ALL and ANYONECANPAY. -/
def zP (seq : Option UInt32) : Psbt zL :=
  ⟨{ Global.new zL with inputCount := 2, outputCount := 1, fallbackLockTime := some 9 },
    [{ zIn zSh with sequence := seq }, { zIn ([0xa9, 0x14] ++ (zL.hash160 zSh).1 ++ [0x87]) with redeemScript := some zSh, sighashType := some 0x81 }],
    [Output.new zL ⟨500, [0x51]⟩]⟩
def zTx (seq : Option UInt32) : Tx := match (zP seq).unsignedTx with | .ok t => t | .error _ => ⟨0, 0, [], []⟩

theorem zP_inputs (seq : Option UInt32) (h : seq = none ∨ seq = some 5) :
    ∀ n < (zP seq).inputs.length, ∃ u sk m ty s, OneKeyInput zS zKeys (zP seq) (zTx seq) n u sk m ty s := by
  intro n hn
  have hn : n < 2 := hn
  have e : ∀ {α : Type} {o : Option α}, o.isSome = true → ∃ a, o = some a := fun h => Option.isSome_iff_exists.mp h
  have hw : CommitsWpkh zSh (zS.pub zSk) := by unfold CommitsWpkh; decide +kernel
  have hs : CommitsSh zL ([0xa9, 0x14] ++ (zL.hash160 zSh).1 ++ [0x87]) zSh := rfl
  match n, hn with
  | 0, _ =>
    obtain ⟨m, hm⟩ := e (o := segwitSighash zL (zTx seq) 0 (keyCode (zS.pub zSk)) 1000 ⟨1, by decide⟩)
      (by rcases h with rfl | rfl <;> decide +kernel)
    have hk : Psbt.Spec.keysFor zS zKeys { zIn zSh with sequence := seq } = [zSk] := by rcases h with rfl | rfl <;> decide +kernel
    exact ⟨⟨1000, zSh⟩, zSk, m, ⟨1, by decide⟩, _, .wpkh ⟨rfl, (by rcases h with rfl | rfl <;> decide +kernel)⟩ rfl rfl hk (.inl ⟨rfl, rfl⟩) hw hm⟩
  | 1, _ =>
    obtain ⟨m, hm⟩ := e (o := segwitSighash zL (zTx seq) 1 (keyCode (zS.pub zSk)) 1000 ⟨0x81, by decide⟩)
      (by rcases h with rfl | rfl <;> decide +kernel)
    have hk : Psbt.Spec.keysFor zS zKeys { zIn ([0xa9, 0x14] ++ (zL.hash160 zSh).1 ++ [0x87]) with redeemScript := some zSh, sighashType := some 0x81 } = [zSk] := by decide +kernel
    exact ⟨⟨1000, [0xa9, 0x14] ++ (zL.hash160 zSh).1 ++ [0x87]⟩, zSk, m, ⟨0x81, by decide⟩, _,
      .shWpkh ⟨rfl, by rcases h with rfl | rfl <;> decide +kernel⟩ rfl rfl hk (.inr (by decide +kernel)) hs rfl hw hm⟩

theorem zP_plain : Plain (zP none) :=
  ⟨by intro i hi; simp [zP] at hi; rcases hi with rfl | rfl <;> exact .inl rfl,
   .fallback (by intro i hi; simp [zP] at hi; rcases hi with rfl | rfl <;> rintro (h | h) <;> exact h rfl)⟩

-- C92: with no sequence numbers stated a transaction comes out …
example : ∃ q used r t, Signer.sign zS (zP none) zKeys = .ok (q, used) ∧ Finalizer.finalize zM true q = .ok r ∧
    Extractor.extractUnchecked r = .ok t ∧ t.lockTime = 9 ∧ t.input.map TxIn.sequence = [0xFFFFFFFF, 0xFFFFFFFF] := by
  obtain ⟨q, used, r, t, -, h1, -, h2, -, h3, h4, -⟩ := C92_steps_partial zM_laws true (p := zP none) (tx := zTx none)
    (by decide +kernel) zP_plain (zP_inputs none (.inl rfl))
  refine ⟨q, used, r, t, h1, h2, h3, congrArg Tx.lockTime h4, ?_⟩
  have := congrArg (fun t => t.input.map TxIn.sequence) h4
  simp only [Spec.stripped, List.map_map] at this
  exact this
-- … and it is small, so that `C92_extracted_counterexample` applies; with sequence number 5 `C92_refused_counterexample` does.
example : ¬ Plain (zP (some 5)) ∧ (zTx (some 5)).Small ∧ (zP (some 5)).unsignedTx = .ok (zTx (some 5)) := by
  refine ⟨fun h => ?_, ?_, by decide +kernel⟩
  · rcases h.1 _ (List.mem_cons_self ..) with h | h <;> simp at h
  · unfold Tx.Small TxIn.Small; decide +kernel
example : ∃ q used, Signer.sign zS (zP (some 5)) zKeys = .ok (q, used) ∧ Finalizer.new q = .ok q := by
  obtain ⟨q, used, -, h1, h2, -⟩ := C92_refused_counterexample zM_laws zM_strict true (p := zP (some 5)) (tx := zTx (some 5))
    (by decide +kernel) (fun h => by rcases h.1 _ (List.mem_cons_self ..) with h | h <;> simp at h) (zP_inputs _ (.inr rfl))
    (by unfold Tx.Small TxIn.Small; decide +kernel)
  exact ⟨q, used, h1, h2⟩
end Examples

end Psbt.V2
