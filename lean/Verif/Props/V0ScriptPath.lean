/- C114: several signers spend taproot outputs by their scripts. -/
import Verif.Spec.ScriptPath
import Verif.Props.V0Shared
import Verif.Props.TapSpend
namespace Psbt.V0
open Psbt Psbt.Spec Psbt.Spec.V0

variable {L : Lib} {U : UpdLib L} {S : SigLib L} {M : MsLib L} {out : S.Keypair → FixedBytes 32}
  {enough' : MsCtx → Bytes → List L.pubkey.T → Prop} {enough : Bytes → List L.xonly.T → Prop}
  {proves : Bytes → Bytes → Bytes → LeafVersion → Prop}

/-- All signatures for leaves are made with the secret keys of their public keys, over the messages of the leaves in `p`. -/
def LeavesValid (S : SigLib L) (p : Psbt L) (n : Nat) (ty : TapTy) (i : Input L) : Prop :=
  ∀ x lh sig, i.tapScriptSigs.get (x, lh) = some sig →
    ∃ sk m, S.xonly (S.pub sk) = x ∧ TapSigns p n (some lh) m ty ∧ sig = ⟨S.signSchnorr m (S.keypair sk), ty⟩

/-- What signers make of the leaves of a taproot input. -/
theorem turn_leaf {ks : List (Provider S)} {n : Nat} {t : TxIn} {u : TxOut} {ty : TapTy} {m : Hash32} :
    ∀ {p q : Psbt L} {i : Input L}, Sound p → Spec.V0.signInTurn S p ks = .ok q → HasInput p n t i → FundedBy t i u → TapSigns p n none m ty →
    LeavesValid S p n ty i → (∀ k ∈ ks, ∀ x lh sk, leafKey S k i x lh = some sk → S.xonly (S.pub sk) = x) →
    ∃ j, q.inputs[n]? = some j ∧ eraseInput j = eraseInput i ∧ LeavesValid S p n ty j ∧
      ∀ x lh, i.tapScriptSigs.get (x, lh) ≠ none ∨ LeafSigner S ks i x lh → j.tapScriptSigs.get (x, lh) ≠ none := by
  induction ks with
  | nil =>
    intro p q i hp h hi hu hm hv hk
    cases h
    refine ⟨i, hi.2, rfl, hv, fun x lh h => ?_⟩
    rcases h with h | ⟨k, hk, -⟩
    · exact h
    · cases hk
  | cons k ks ih =>
    intro p q i hp h hi hu hm hv hk
    simp only [Spec.V0.signInTurn] at h
    cases e : p.sign S k with
    | error x => rw [e] at h; cases h
    | ok x =>
      rw [e] at h
      obtain ⟨p', r⟩ := x
      have he := C50_frame e
      have htr : P2tr u.scriptPubkey := by
        obtain ⟨t', i', u', k1, k2, k3, -⟩ := hm
        obtain ⟨rfl, rfl⟩ := hasInput_unique hi k1
        cases fundedBy_unique hu k2
        exact k3
      have hstep : ∃ j, p'.inputs[n]? = some j ∧ eraseInput j = eraseInput i ∧ LeavesValid S p n ty j ∧
          (∀ x lh, i.tapScriptSigs.get (x, lh) ≠ none → j.tapScriptSigs.get (x, lh) = i.tapScriptSigs.get (x, lh)) ∧
          (∀ x lh, leafKey S k i x lh ≠ none → j.tapScriptSigs.get (x, lh) ≠ none) := by
        rcases C50_schnorr e hi ⟨t, i, u, hi, hu, htr⟩ with ⟨-, ⟨j, g1, g2, g3, g4⟩, -⟩ | ⟨⟨leaf, -, g⟩, -⟩
        · refine ⟨j, g1, by rw [g4]; rfl, fun x lh sig hsig => ?_, fun x lh hn => ?_, fun x lh hn => ?_⟩
          · have := g3 x lh
            cases hl : leafKey S k i x lh with
            | none => rw [hl] at this; exact hv x lh sig (this ▸ hsig)
            | some sk =>
              rw [hl] at this
              obtain ⟨m', ty', g5, g6⟩ := this
              obtain ⟨m'', g7⟩ := tapSigns_leaf_ok hm (some lh)
              obtain ⟨rfl, rfl⟩ := tapSigns_unique hp.2 g5 g7
              cases hsig.symm.trans g6
              exact ⟨sk, m', hk k (by simp) x lh sk hl, g5, rfl⟩
          · have := g3 x lh
            have hl : leafKey S k i x lh = none := by
              unfold leafKey
              split
              · contradiction
              · rfl
            rw [hl] at this
            exact this
          · have := g3 x lh
            cases hl : leafKey S k i x lh with
            | none => exact absurd hl hn
            | some sk =>
              rw [hl] at this
              obtain ⟨m', ty', -, g6⟩ := this
              rw [g6]; simp
        · obtain ⟨m', hm'⟩ := tapSigns_leaf_ok hm leaf
          exact absurd hm' (g m' ty)
      obtain ⟨j, hj, ej, hv', hkeep, hset⟩ := hstep
      obtain ⟨e1, e2, e3, e4, e5, e6, e7, e8, e9⟩ := erase_fields ej
      have htx : p'.unsignedTx = p.unsignedTx := (Psbt.mk.inj he).1
      have hback : ∀ {x lh}, j.tapScriptSigs.get (x, lh) = none → i.tapScriptSigs.get (x, lh) = none := by
        intro x lh h'
        by_cases hn : i.tapScriptSigs.get (x, lh) = none
        · exact hn
        · rw [hkeep x lh hn] at h'; exact h'
      have hlk : ∀ k' x lh, j.tapScriptSigs.get (x, lh) = none → leafKey S k' j x lh = leafKey S k' i x lh := by
        intro k' x lh h'
        unfold leafKey
        rw [h', hback h', e8]
      obtain ⟨j', g1, g2, g3, g4⟩ := ih ((same_of_erase he).sound hp) h ⟨by rw [htx]; exact hi.1, hj⟩ (fundedBy_erase ej hu)
        (tapSigns_erase he hm) (fun x lh sig hs => by
          obtain ⟨sk, m', a1, a2, a3⟩ := hv' x lh sig hs
          exact ⟨sk, m', a1, tapSigns_erase he a2, a3⟩)
        (fun k' hk' x lh sk h' => by
          have hn : j.tapScriptSigs.get (x, lh) = none := by
            unfold leafKey at h'
            split at h'
            · assumption
            · cases h'
          exact hk k' (by simp [hk']) x lh sk (by rw [← hlk k' x lh hn]; exact h'))
      refine ⟨j', g1, g2.trans ej, fun x lh sig hs => ?_, fun x lh h => g4 x lh ?_⟩
      · obtain ⟨sk, m', a1, a2, a3⟩ := g3 x lh sig hs
        exact ⟨sk, m', a1, tapSigns_erase he.symm a2, a3⟩
      · by_cases hn : j.tapScriptSigs.get (x, lh) = none
        · rcases h with h | ⟨k', hk', h'⟩
          · exact absurd (hback hn) h
          · rcases List.mem_cons.mp hk' with rfl | hk'
            · exact absurd hn (hset x lh h')
            · exact .inr ⟨k', hk', by rw [hlk k' x lh hn]; exact h'⟩
        · exact .inl hn

/-- A taproot input that the signers can spend by a script can be finalized after they signed. -/
theorem leafSpend_final (laws : KeyLaws S M out) (llaws : LeafLaws S M enough proves) {ks : List (Provider S)} {p q : Psbt L} (hp : Sound p)
    {us : List TxOut} (hf : Funding p.unsignedTx.input p.inputs us) (hq : Spec.V0.signInTurn S p ks = .ok q) {n : Nat} {t : TxIn} {i : Input L}
    {u : TxOut} (hk : LeafSpend S out enough proves ks p n t i u) (mall : Bool) :
    ∃ j, q.inputs[n]? = some j ∧ ∀ p', Same q p' → p'.inputs[n]? = some j →
      ∃ s w, (s ≠ [] ∨ w ≠ []) ∧ Verdict M p' n s w none ∧ Result M p' n mall (.ok (V0.onlyFinal j s w)) := by
  obtain ⟨hi, hu, ⟨hno, hno'⟩, ⟨m, ty, hm⟩, hscr, hone, hlk, hpk⟩ := hk
  obtain ⟨f1, f2, f3⟩ := funding_iff.mp hf
  have hsame := same_of_erase (turn_erase hq)
  obtain ⟨j, g1, g2, g3, -⟩ := turn_tap
    (P := fun kp => u.scriptPubkey = [0x51, 0x20] ++ (out kp).1) hp hq hi hu hm (fun sig h => by rw [hno] at h; cases h) hpk
  obtain ⟨j', g1', -, g5, g6⟩ := turn_leaf hp hq hi hu hm (fun x lh sig h => by rw [hno'] at h; cases h) hlk
  cases g1.symm.trans g1'
  refine ⟨j, g1, fun p' hp' hj => ?_⟩
  have hs' := hsame.trans hp'
  have hi' : HasInput p' n t j := ⟨by rw [hs'.1]; exact hi.1, hj⟩
  have hu' := fundedBy_erase g2 hu
  have hl := (List.getElem?_eq_some_iff.mp hi.1).1
  have hus : us[n]? = some u := by
    obtain ⟨t', i', k1, k2, k3⟩ := f3 n _ (List.getElem?_eq_getElem (by omega))
    obtain ⟨rfl, rfl⟩ := hasInput_unique hi ⟨k1, k2⟩
    rw [List.getElem?_eq_getElem (by omega), fundedBy_unique hu k3]
  have htr : P2tr u.scriptPubkey := by
    obtain ⟨t', i', u', k1, k2, k3, -⟩ := hm
    obtain ⟨rfl, rfl⟩ := hasInput_unique hi k1
    cases fundedBy_unique hu k2
    exact k3
  have hmsg : ∀ {leaf m}, TapSigns p n leaf m ty → ∃ q, (q = .all us ∨ q = .one n u) ∧ tapSighash L p.unsignedTx n q leaf ty = .ok m := by
    intro leaf m hm
    obtain ⟨t', i', u', k1, k2, -, -, k5⟩ := hm
    obtain ⟨rfl, rfl⟩ := hasInput_unique hi k1
    cases fundedBy_unique hu k2
    rcases k5 with ⟨-, k6⟩ | ⟨-, us', k6, k7⟩
    · exact ⟨_, .inr rfl, k6⟩
    · cases funding_unique hf k6
      exact ⟨_, .inl rfl, k7⟩
  have fin : ∀ w, w ≠ [] → M.interp ⟨u.scriptPubkey, [], w, t.sequence, p.unsignedTx.lockTime, p.unsignedTx, n, us⟩ = none →
      TapResult M mall (tapHashMap (originKeys p')) (p'.satisfier M n j) (.ok w) →
      ∃ s w, (s ≠ [] ∨ w ≠ []) ∧ Verdict M p' n s w none ∧ Result M p' n mall (.ok (V0.onlyFinal j s w)) := by
    intro w hw hint hres
    have hv : Verdict M p' n [] w none := ⟨t, j, u, us, hi', hu', hs'.funding hf, by rw [hs'.1]; exact hint⟩
    exact ⟨[], w, .inr hw, hv, .done hj (.tap hi' hu' htr hres) hv⟩
  have hscripts : j.tapScripts = i.tapScripts := by
    have := congrArg Input.tapScripts g2
    exact this
  cases hks : j.tapKeySig with
  | some sig =>
    obtain ⟨kp, hc, rfl⟩ := g3 sig hks
    obtain ⟨q', hq1, hq2⟩ := hmsg hm
    exact fin [schnorrBytes S m kp ty] (by simp) (laws.runTr _ m ty u _ _ _ n us _ hc f1.symm hus hq1 hq2)
      (TapResult.key (sig := ⟨S.signSchnorr m kp, ty⟩) hks)
  | none =>
    obtain ⟨r, -, hr⟩ := V2.tapTotal (M := M) (mall := mall) (keys := originKeys p') (sat := p'.satisfier M n j) htr
    have hr0 := hr
    cases hr with
    | key h => rw [show (p'.satisfier M n j).tapKeySpendSig = j.tapKeySig from rfl, hks] at h; cases h
    | @leaf l1 l2 cb s ver w h1 h2 h3 h4 h5 =>
      obtain ⟨hver, ms, stack, a1, a2, rfl⟩ := h3
      obtain rfl : ver = ⟨0xc0, by decide⟩ := Subtype.ext hver
      have hget : i.tapScripts.get cb = some (s, ⟨0xc0, by decide⟩) := by
        rw [← hscripts]
        refine BMap.mem_iff_get.mp ?_
        show (cb, s, _) ∈ j.tapScripts.l
        rw [show j.tapScripts.l = l1 ++ (cb, s, ⟨0xc0, by decide⟩) :: l2 from h2]
        simp
      obtain ⟨b1, keys, b2⟩ := hscr cb s hget
      obtain ⟨ms', b3, b4⟩ := llaws.parse s keys b2
      cases b3.symm.trans a1
      obtain ⟨m', hm'⟩ := tapSigns_leaf_ok hm (some (leafHash L s))
      obtain ⟨q', hq1, hq2⟩ := hmsg hm'
      rw [b4] at hr0
      refine fin _ (by simp) (llaws.run mall s keys ms _ _ stack cb.bytes u m' ty _ _ _ n us q' b2 a1 a2 b1 f1.symm hus hq1 hq2 ?_) hr0
      intro x sig hsig
      obtain ⟨sk, m'', c1, c2, c3⟩ := g5 x _ sig hsig
      obtain ⟨rfl, -⟩ := tapSigns_unique hp.2 c2 hm'
      exact ⟨sk, c1, c3⟩
    | none h1 h2 =>
      exfalso
      obtain ⟨cb, s, keys, c1, c2, c3⟩ := hone
      obtain ⟨ms, b3, b4⟩ := llaws.parse s keys c2
      obtain ⟨stack, hst⟩ := Option.ne_none_iff_exists'.mp
        (llaws.satisfy mall s keys ms (tapHashMap (originKeys p')) (p'.satisfier M n j) c2 b3 fun x hx => g6 x _ (.inr (c3 x hx)))
      refine h2 cb s ⟨0xc0, by decide⟩ _ ?_ ⟨rfl, ms, stack, b3, hst, rfl⟩
      show (cb, s, _) ∈ j.tapScripts.l
      rw [hscripts]
      exact BMap.mem_iff_get.mpr c1

/-- C114. If, for every input of a PSBT v0, the signers together have the keys that spending it takes, where taproot inputs may be
spent by a script that needs nothing but signatures, then it is complete after they signed it one after the other: finalizing
and extracting succeed, whoever has which keys. The transaction is the unsigned one with script sigs and witnesses that the
interpreter accepts. -/
theorem C114_completed (laws : KeyLaws S M out) (slaws : ScriptLaws S M enough') (llaws : LeafLaws S M enough proves)
    {ks : List (Provider S)} {p : Psbt L} (hp : Sound p) (hun : ∀ t ∈ p.unsignedTx.input, t.scriptSig = [] ∧ t.witness = [])
    (hk : ∀ n < p.inputs.length, CanSpendAny S out enough proves enough' ks p n) (mall : Bool) :
    ∃ q r tx, Spec.V0.signInTurn S p ks = .ok q ∧ q.finalizeMut M mall = .ok (r, []) ∧ r.extract M = .ok tx ∧
      tx.version = p.unsignedTx.version ∧ tx.lockTime = p.unsignedTx.lockTime ∧ tx.output = p.unsignedTx.output ∧
      tx.input.length = p.unsignedTx.input.length ∧
      ∀ (n : Nat) t, p.unsignedTx.input[n]? = some t →
        ∃ s w, tx.input[n]? = some { t with scriptSig := s, witness := w } ∧ Verdict M p n s w none := by
  obtain ⟨us, hf⟩ : ∃ us, Funding p.unsignedTx.input p.inputs us := by
    rcases prevouts_cases hp with ⟨us, -, h⟩ | ⟨n, -, ⟨i, h1, h2⟩, -⟩
    · exact ⟨us, h⟩
    · obtain ⟨t, j, u, g1, g2⟩ : ∃ t j u, HasInput p n t j ∧ FundedBy t j u := by
        cases hk n (List.getElem?_eq_some_iff.mp h1).1 with
        | known h =>
          cases h with
          | ecdsa a b => exact ⟨_, _, _, a, b⟩
          | tr a b => exact ⟨_, _, _, a, b⟩
        | leaf h => exact ⟨_, _, _, h.input, h.funded⟩
      cases h1.symm.trans g1.2
      exact absurd h2 (not_unfunded g2)
  obtain ⟨q, hq⟩ := turn_exists ks hp
  have hsame := same_of_erase (turn_erase hq)
  have htx : q.unsignedTx = p.unsignedTx := hsame.1
  obtain ⟨r, tx, h1, h2, h3, h4, h5, h6, h7⟩ := completes (M := M) (hsame.sound hp) (by rw [htx]; exact hun) mall (by
    intro n hn
    cases hk n (by rw [← hsame.length]; exact hn) with
    | known h => exact canSpend_final laws slaws hp hf hq h mall
    | leaf h => exact leafSpend_final laws llaws hp hf hq h mall)
  rw [htx] at h3 h4 h5 h6 h7
  refine ⟨q, r, tx, hq, h1, h2, h3, h4, h5, h6, fun n t ht => ?_⟩
  obtain ⟨s, w, k1, k2⟩ := h7 n t ht
  exact ⟨s, w, k1, hsame.symm.verdict k2⟩

/-- C114. The same if the signers work on copies of the PSBT at the same time, and the copies are combined one after the other,
provided there are no ECDSA signatures yet and signers that have keys for the same origin have the same key. -/
theorem C114_copies (laws : KeyLaws S M out) (slaws : ScriptLaws S M enough') (llaws : LeafLaws S M enough proves)
    {k : Provider S} {ks : List (Provider S)} {p : Psbt L} (hp : Sound p)
    (hun : ∀ t ∈ p.unsignedTx.input, t.scriptSig = [] ∧ t.witness = [])
    (hk : ∀ n < p.inputs.length, CanSpendAny S out enough proves enough' (k :: ks) p n) (hno : ∀ i ∈ p.inputs, i.partialSigs = .empty)
    (hagree : ∀ a ∈ k :: ks, ∀ b ∈ k :: ks, AgreeOnKeys S a b) (mall : Bool) :
    ∃ a res q r tx, p.sign S k = .ok (a, res) ∧ Spec.V0.combineCopies S p a ks = some q ∧ q.finalizeMut M mall = .ok (r, []) ∧
      r.extract M = .ok tx ∧
      tx.version = p.unsignedTx.version ∧ tx.lockTime = p.unsignedTx.lockTime ∧ tx.output = p.unsignedTx.output ∧
      tx.input.length = p.unsignedTx.input.length ∧
      ∀ (n : Nat) t, p.unsignedTx.input[n]? = some t →
        ∃ s w, tx.input[n]? = some { t with scriptSig := s, witness := w } ∧ Verdict M p n s w none := by
  obtain ⟨q, r, tx, h1, h2, h3⟩ := C114_completed laws slaws llaws hp hun hk mall
  cases e : p.sign S k with
  | error x => simp only [Spec.V0.signInTurn, e] at h1; cases h1
  | ok x =>
    refine ⟨x.1, x.2, q, r, tx, rfl, C79_copies e (fun k' _ b r' _ n i j pk s hi _ hg => ?_) (fun k1 m1 k2 m2 b r1 c r2 hb hc => ?_) h1, h2, h3⟩
    · rw [hno i (List.mem_of_getElem? hi)] at hg
      cases hg
    · exact sameLeafSigs (hagree k1 m1 k2 m2) hb hc

/-! ### From descriptors -/

theorem leaves_right {ls : List (UInt8 × Mini U.Shape U.Key)} {xs} (h : LeavesAre U ls xs) {y} (hy : y ∈ xs) :
    ∃ l ∈ ls, MiniIs U l.2 y.2 := by
  induction h with
  | nil => cases hy
  | @cons d m x ls xs h1 h2 ih =>
    rcases List.mem_cons.mp hy with rfl | hy
    · exact ⟨(d, m), by simp, h1⟩
    · obtain ⟨l, g1, g2⟩ := ih hy
      exact ⟨l, by simp [g1], g2⟩

theorem leaves_left {ls : List (UInt8 × Mini U.Shape U.Key)} {xs} (h : LeavesAre U ls xs) {l} (hl : l ∈ ls) :
    ∃ y ∈ xs, MiniIs U l.2 y.2 := by
  induction h with
  | nil => cases hl
  | @cons d m x ls xs h1 h2 ih =>
    rcases List.mem_cons.mp hl with rfl | hl
    · exact ⟨(d, x), by simp, h1⟩
    · obtain ⟨l, g1, g2⟩ := ih hl
      exact ⟨l, by simp [g1], g2⟩

theorem keyIs_unique {k : U.Key} {pk pk' : L.pubkey.T} {s s' : KeySource} (h : KeyIs U k pk s) (h' : KeyIs U k pk' s') : pk = pk' ∧ s = s' := by
  have h1 := h.1.symm.trans h'.1
  cases h1
  exact ⟨rfl, Prod.ext (h.2.2.symm.trans h'.2.2) (Option.some.inj (h.2.1.symm.trans h'.2.1))⟩

theorem firstOrigin_unique {x : L.xonly.T} {l : List U.Key} {s s' : KeySource} (h : FirstOrigin U l x s) (h' : FirstOrigin U l x s') : s = s' := by
  induction l with
  | nil => obtain ⟨a, k, b, pk, e, -⟩ := h; simp at e
  | cons y l ih =>
    obtain ⟨a, k, b, pk, e, h1, h2, h3⟩ := h
    obtain ⟨a', k', b', pk', e', h1', h2', h3'⟩ := h'
    cases a with
    | nil =>
      obtain ⟨rfl, rfl⟩ := List.cons.inj e
      cases a' with
      | nil => obtain ⟨rfl, -⟩ := List.cons.inj e'; exact (keyIs_unique h1 h1').2
      | cons z a' => obtain ⟨rfl, -⟩ := List.cons.inj e'; exact absurd h2 (h3' _ (by simp) pk h1.1)
    | cons z a =>
      obtain ⟨rfl, el⟩ := List.cons.inj e
      cases a' with
      | nil => obtain ⟨rfl, -⟩ := List.cons.inj e'; exact absurd h2' (h3 _ (by simp) pk' h1'.1)
      | cons z' a' =>
        obtain ⟨-, el'⟩ := List.cons.inj e'
        exact ih ⟨a, k, b, pk, el, h1, h2, fun j hj => h3 j (by simp [hj])⟩ ⟨a', k', b', pk', el', h1', h2', fun j hj => h3' j (by simp [hj])⟩

theorem firstOrigin_tail {x : L.xonly.T} {y : U.Key} {pk : L.pubkey.T} {l : List U.Key} {s : KeySource} (hy : U.derive y = .ok pk) (hx : U.xonly pk ≠ x)
    (h : FirstOrigin U (y :: l) x s) : FirstOrigin U l x s := by
  obtain ⟨a, k, b, pk', e, h1, h2, h3⟩ := h
  cases a with
  | nil => cases e; cases hy.symm.trans h1.1; exact absurd h2 hx
  | cons z a => cases e; exact ⟨a, k, b, pk', rfl, h1, h2, fun j hj => h3 j (by simp [hj])⟩

/-- What updating with a taproot descriptor makes of an input with UTXO fields only can be spent by a leaf. -/
theorem leafSpend_of_coin (tw : TweakLaw U S out) (xl : XonlyLaw S U) {ks : List (Provider S)} {p : Psbt L} {n : Nat} {t : TxIn} {i j : Input L}
    {c : Coin U} {ik : U.Key} {ls} {us : List TxOut} (hd : c.descr = .tr ik ls) (hl : SharedLeaf S enough U ks ik ls)
    (hcf : ∀ xs (T : Tree), LeavesAre U ls xs → T.height ≤ 128 → treeOf U xs = T.list 0 → CollisionFree L (T.hashed L))
    (hs : ScriptOf U c.descr c.out.scriptPubkey) (hj : HasInput p n t j)
    (hi : i = { Input.default L with nonWitnessUtxo := c.nonWitnessUtxo, witnessUtxo := c.witnessUtxo })
    (hfu : Spec.V0.FundedBy t j c.out) (hf : Funding p.unsignedTx.input p.inputs us) (hu : InputUpdated U c.descr i j) :
    LeafSpend S out enough (ProvesLeaf U) ks p n t j c.out := by
  have hrest := hu.rest
  have e2 : j.sighashType = none := by have := congrArg Input.sighashType hrest; rw [hi] at this; exact this
  have e3 : j.tapKeySig = none := by have := congrArg Input.tapKeySig hrest; rw [hi] at this; exact this
  have e4 : j.tapScriptSigs = .empty := by have := congrArg Input.tapScriptSigs hrest; rw [hi] at this; exact this
  generalize c.descr = d at hs hu hd
  subst hd
  obtain ⟨pk, xs, r, hx, hpk, hr, hspk⟩ : ∃ pk xs r, LeavesAre U ls xs ∧ U.derive ik = .ok pk ∧ MerkleRoot L (treeOf U xs) r ∧
      c.out.scriptPubkey = [0x51, 0x20] ++ (U.outputKey (U.xonly pk) r).bytes := by
    generalize c.out.scriptPubkey = spk at hs
    cases hs with
    | tr hx h3 hr => exact ⟨_, _, _, hx, h3, hr, rfl⟩
  obtain ⟨htr, hroot⟩ := hu.tr _ _ rfl
  obtain ⟨hroot, hscr⟩ := hroot _ _ hpk hx
  have hroot := hroot.unique hr
  obtain ⟨-, -, -, pk', src, k1, k2, k3⟩ := htr
  cases hpk.symm.trans k1.1
  have k2 : j.tapInternalKey = some (U.xonly pk) := k2
  have k3 : ∀ x, OriginAfter U .empty ls (U.xonly pk) src x (j.tapKeyOrigins.get x) := by
    intro x; have := k3 x; rw [hi] at this; exact this
  rw [hi] at hscr
  obtain ⟨g1, g2, -⟩ := funding_iff.mp hf
  obtain ⟨m, hm⟩ := message_tap (L := L) (n := n) g1.symm
  have origin : ∀ {x lhs s}, j.tapKeyOrigins.get x = some (lhs, s) → FirstOrigin U (ik :: V0.leafKeys ls) x s ∧ SetOf lhs (InLeaf U ls x) := by
    intro x lhs s h
    have := k3 x
    rw [h] at this
    generalize ho : some (lhs, s) = o at this
    cases this with
    | internal a b => cases ho; exact ⟨⟨[], ik, _, pk, rfl, k1, a.symm, by simp⟩, b⟩
    | known a b => cases b
    | fresh a b c d =>
      cases ho
      obtain ⟨l1, k, l2, pk', e, h1, h2, h3⟩ := c
      refine ⟨⟨ik :: l1, k, l2, pk', by rw [e]; rfl, h1, h2, fun j hj q hq => ?_⟩, d⟩
      rcases List.mem_cons.mp hj with rfl | hj
      · cases hq.symm.trans hpk; exact fun h => a h.symm
      · exact h3 j hj q hq
    | absent => cases ho
  have found : ∀ {x s}, FirstOrigin U (ik :: V0.leafKeys ls) x s → ∃ lhs, j.tapKeyOrigins.get x = some (lhs, s) := by
    intro x s h
    have := k3 x
    generalize ho : j.tapKeyOrigins.get x = o at this
    cases o with
    | some v => obtain ⟨lhs, s'⟩ := v; rw [firstOrigin_unique h (origin ho).1]; exact ⟨lhs, rfl⟩
    | none =>
      cases this with
      | absent a b c => exact absurd (firstOrigin_tail hpk (fun h => a h.symm) h) (c s)
  have right : ∀ {x lhs s}, j.tapKeyOrigins.get x = some (lhs, s) → ∀ prov ∈ ks, ∀ sk, answer (prov (.bip32 s)) = some sk →
      U.xonly (S.pub sk) = x := by
    intro x lhs s h prov hp sk hsk
    obtain ⟨a, k, b, pk', e, h1, h2, -⟩ := (origin h).1
    rw [hl.right k (by rw [e]; simp) pk' s h1 prov hp sk hsk]
    exact h2
  refine ⟨hj, hfu, ⟨e3, e4⟩, ⟨m, ⟨0, by decide⟩, t, j, c.out, hj, hfu, ⟨⟨_, xonly_len _⟩, hspk⟩, .inl ⟨e2, rfl⟩, .inr ⟨.inl rfl, us, hf, hm⟩⟩, ?_, ?_, ?_, ?_⟩
  · intro cb s hcb
    have hb : ∃ w, LastBlock U (U.xonly pk) xs cb w := by
      by_cases hb : ∃ w, LastBlock U (U.xonly pk) xs cb w
      · exact hb
      · have := (hscr cb).2 (fun w hw => hb ⟨w, hw⟩)
        rw [hcb] at this; cases this
    obtain ⟨w, hw⟩ := hb
    cases ((hscr cb).1 w hw).symm.trans hcb
    obtain ⟨h1, y, hy, e⟩ := lastBlock_proves hr hw
    refine ⟨hspk ▸ h1, ?_⟩
    obtain ⟨l, h2, h3⟩ := leaves_right hx hy
    obtain ⟨x, keys, h4, h5⟩ := hl.leaves l h2
    cases h3.unique h4
    exact ⟨keys, by rw [show s = _ from e]; exact h5⟩
  · obtain ⟨l, h1, x, keys, h2, h3, h4⟩ := hl.one
    obtain ⟨y, hy, h5⟩ := leaves_left hx h1
    cases h2.unique h5
    obtain ⟨cb, h6⟩ := leaf_block (x := U.xonly pk) hr hy (fun T => hcf xs T hx)
    refine ⟨cb, _, keys, (hscr cb).1 _ h6, h3, fun z hz => ?_⟩
    obtain ⟨⟨q, hq, hqz⟩, prov, hp, sk, s, h7, h8⟩ := h4 z hz
    obtain ⟨lhs, h9⟩ := found h7
    refine ⟨prov, hp, ?_⟩
    unfold leafKey
    rw [e4, h9]
    have : leafHash L (U.tapEncode y.2) ∈ lhs := ((origin h9).2.mem _).mpr ⟨l, h1, y.2, h2, rfl, q, hq, hqz⟩
    simp [BMap.get_empty, this, h8]
  · intro prov hp x lh sk h
    unfold leafKey at h
    split at h
    · rename_i lhs s _ ho
      split at h
      · rw [← xl]; exact right ho prov hp sk h
      · cases h
    · cases h
  · intro prov hp sk h
    unfold keyPathKey at h
    rw [e3, k2] at h
    simp only at h
    split at h
    · rename_i s ho
      have := right ho prov hp sk h
      rw [hspk, ← this, tw, hroot]
    · cases h

/-- C114. Take a transaction without signatures, and for each of its inputs an output to spend, of a descriptor whose keys the
signers have between them: the descriptors of C97, and `tr` with leaves that need nothing but signatures, of which the signers can
sign at least one. Create a PSBT v0, set the UTXO fields, update each input with its descriptor, have the signers sign one after
the other, finalize and extract: all of it succeeds, and the result is the transaction with script sigs and witnesses that the
interpreter accepts. -/
theorem C114_from_descriptors (laws : KeyLaws S M out) (slaws : ScriptLaws S M enough') (llaws : LeafLaws S M enough (ProvesLeaf U))
    (tw : TweakLaw U S out) (xl : XonlyLaw S U) {ks : List (Provider S)} {tx : Tx} {p0 : Psbt L}
    (h0 : Psbt.fromUnsignedTx L tx = .ok p0) {cs : List (Coin U)} (hn : cs.length = tx.input.length)
    (hc : ∀ (n : Nat) c, cs[n]? = some c → SharedAny S enough U enough' ks tx n c) (mall : Bool) :
    ∃ p q r tx', UpdatesAll U (fund p0 cs) 0 cs p ∧ Spec.V0.signInTurn S p ks = .ok q ∧
      q.finalizeMut M mall = .ok (r, []) ∧ r.extract M = .ok tx' ∧
      tx'.version = tx.version ∧ tx'.lockTime = tx.lockTime ∧ tx'.output = tx.output ∧ tx'.input.length = tx.input.length ∧
      ∀ (n : Nat) t, tx.input[n]? = some t →
        ∃ s w, tx'.input[n]? = some { t with scriptSig := s, witness := w } ∧ Verdict M p n s w none := by
  obtain ⟨p, hup, hp2, hlen, hsound, hf, hun, hin⟩ := setup h0 hn fun n c h => by
    cases hc n c h with
    | known h => exact ⟨h.script, h.definite, h.utxo⟩
    | leaf h1 h2 h3 h4 h5 h6 => exact ⟨h4, h5, by rw [h1]; exact h6⟩
  obtain ⟨q, r, tx', h1, h2, h3, h4⟩ := C114_completed laws slaws llaws (ks := ks) hsound (by rw [hp2]; exact hun) (fun n h => by
    obtain ⟨c, h⟩ : ∃ c, cs[n]? = some c := ⟨_, List.getElem?_eq_getElem (by omega)⟩
    obtain ⟨t, j, hj, hfu, hu⟩ := hin n c h
    cases hc n c h with
    | known h => exact .known (canSpend_of_coin tw (by rw [hp2]; exact h) hj rfl hfu hf hu)
    | leaf h1 h2 h3 h4 h5 h6 => exact .leaf (leafSpend_of_coin tw xl h1 h2 h3 h4 hj rfl hfu hf hu)) mall
  rw [hp2] at h4
  exact ⟨p, q, r, tx', hup, h1, h2, h3, h4⟩

/-- C114. The same if the signers work on copies of the PSBT at the same time, and the copies are combined, provided that signers
that have keys for the same origin have the same key. -/
theorem C114_copies_from_descriptors (laws : KeyLaws S M out) (slaws : ScriptLaws S M enough') (llaws : LeafLaws S M enough (ProvesLeaf U))
    (tw : TweakLaw U S out) (xl : XonlyLaw S U) {k : Provider S} {ks : List (Provider S)} {tx : Tx} {p0 : Psbt L}
    (h0 : Psbt.fromUnsignedTx L tx = .ok p0) {cs : List (Coin U)} (hn : cs.length = tx.input.length)
    (hc : ∀ (n : Nat) c, cs[n]? = some c → SharedAny S enough U enough' (k :: ks) tx n c)
    (hagree : ∀ a ∈ k :: ks, ∀ b ∈ k :: ks, AgreeOnKeys S a b) (mall : Bool) :
    ∃ p a res q r tx', UpdatesAll U (fund p0 cs) 0 cs p ∧ p.sign S k = .ok (a, res) ∧ Spec.V0.combineCopies S p a ks = some q ∧
      q.finalizeMut M mall = .ok (r, []) ∧ r.extract M = .ok tx' ∧
      tx'.version = tx.version ∧ tx'.lockTime = tx.lockTime ∧ tx'.output = tx.output ∧ tx'.input.length = tx.input.length ∧
      ∀ (n : Nat) t, tx.input[n]? = some t →
        ∃ s w, tx'.input[n]? = some { t with scriptSig := s, witness := w } ∧ Verdict M p n s w none := by
  obtain ⟨p, hup, hp2, hlen, hsound, hf, hun, hin⟩ := setup h0 hn fun n c h => by
    cases hc n c h with
    | known h => exact ⟨h.script, h.definite, h.utxo⟩
    | leaf h1 h2 h3 h4 h5 h6 => exact ⟨h4, h5, by rw [h1]; exact h6⟩
  have hcs : ∀ n, n < p.inputs.length → ∃ c, cs[n]? = some c := fun n h => ⟨_, List.getElem?_eq_getElem (by omega)⟩
  obtain ⟨a, res, q, r, tx', h1, h2, h3, h4, h5⟩ := C114_copies laws slaws llaws (k := k) (ks := ks) hsound (by rw [hp2]; exact hun) (fun n h => by
    obtain ⟨c, h⟩ := hcs n h
    obtain ⟨t, j, hj, hfu, hu⟩ := hin n c h
    cases hc n c h with
    | known h => exact .known (canSpend_of_coin tw (by rw [hp2]; exact h) hj rfl hfu hf hu)
    | leaf h1 h2 h3 h4 h5 h6 => exact .leaf (leafSpend_of_coin tw xl h1 h2 h3 h4 hj rfl hfu hf hu)) (fun i hi => by
    obtain ⟨n, hi⟩ := List.getElem?_of_mem hi
    obtain ⟨c, h⟩ := hcs n (List.getElem?_eq_some_iff.mp hi).1
    obtain ⟨t, j, hj, hfu, hu⟩ := hin n c h
    cases hi.symm.trans hj.2
    exact congrArg Input.partialSigs hu.rest) hagree mall
  rw [hp2] at h5
  exact ⟨p, a, res, q, r, tx', hup, h1, h2, h3, h4, h5⟩

/-! ### The hypotheses can be met -/

section Examples
/-- Signing with the keys of `sLib`; the output keys of taproot depend on the root. -/
def lS : SigLib Demo.mixLib where
  SK := UInt8
  pub b := Demo.val 33 (by decide) b
  signEcdsa m b := (Demo.sigLib false).signEcdsa m b
  Keypair := UInt8
  keypair b := b
  tapTweak b r := match r with | none => b | some h => b + h.1.headD 0
  signSchnorr m b := ⟨m.1 ++ List.replicate 32 b, by simp [m.2]⟩
  xonly pk := sLib.xonly pk
  ofSecp x := x
  Xpriv := UInt8
  fingerprint b := Demo.rep 4 b
  parentFingerprint b := Demo.rep 4 b
  derive b _ := some b
  toPriv b := b
def lOut (b : UInt8) : FixedBytes 32 := Demo.rep 32 b

/-- The leaf scripts of `sLib` ask for a signature of each of their keys. -/
def lEnough (s : Bytes) (keys : List Demo.mixLib.xonly.T) : Prop :=
  ∃ (sh : UInt8) (ks : Bytes), s = 0xee :: sh :: ks ∧ keys = ks.map (Demo.val 32 (by decide))

/-- The signatures of the keys with these first bytes. -/
def lStack (sat : Satisfier Demo.mixLib) (h : Hash32) : Bytes → Option (List Bytes)
  | [] => some []
  | b :: bs => match sat.tapLeafScriptSig (Demo.val 32 (by decide) b) h, lStack sat h bs with
    | some x, some r => some ((x.sig.1 ++ if x.ty.1 = 0 then [] else [x.ty.1]) :: r)
    | _, _ => none

/-- What an interpreter has to accept by the laws. -/
inductive LAccepted : InterpArgs → Prop
  | key {a} : Accepted lS lOut a → LAccepted a
  | leaf (sks : List lS.SK) (sh m ty cb) (u : TxOut) (csv cltv tx n us q) :
      ProvesLeaf sLib u.scriptPubkey cb (0xee :: sh :: sks) ⟨0xc0, by decide⟩ → us.length = tx.input.length → us[n]? = some u →
      (q = .all us ∨ q = .one n u) → tapSighash Demo.mixLib tx n q (some (leafHash Demo.mixLib (0xee :: sh :: sks))) ty = .ok m →
      LAccepted ⟨u.scriptPubkey, [], sks.map (fun sk => schnorrBytes lS m (lS.keypair sk) ty) ++ [0xee :: sh :: sks, cb], csv, cltv, tx, n, us⟩

open Classical in
/-- A library that satisfies descriptors of keys and leaf scripts, and whose interpreter accepts nothing but what it has to. -/
noncomputable def lM : MsLib Demo.mixLib where
  ofSecp x := ⟨x.bytes, x.ok⟩
  Ms := Bytes
  parse _ _ := none
  substitute _ b := b
  accepts _ := true
  satisfy _ d sat := match d with
    | .pkh pk => (sat.ecdsaSig pk).map fun s => ([], push (s.der.bytes ++ [s.ty.1]) ++ push pk.bytes)
    | .wpkh pk => (sat.ecdsaSig pk).map fun s => ([s.der.bytes ++ [s.ty.1], pk.bytes], [])
    | .shWpkh pk => (sat.ecdsaSig pk).map fun s =>
        ([s.der.bytes ++ [s.ty.1], pk.bytes], push ([0x00, 0x14] ++ (Demo.mixLib.hash160 pk.bytes).1))
    | _ => none
  TapMs := Bytes
  tapParse b := if ∃ keys, lEnough b keys then some b else none
  tapSubstitute _ b := b
  tapSatisfy _ b sat := match b with
    | _ :: _ :: ks => lStack sat (leafHash Demo.mixLib b) ks
    | _ => none
  tapEncode b := b
  interp a := if LAccepted a then none else some .satisfaction

theorem lM_laws : KeyLaws lS lM lOut where
  accepts _ := ⟨rfl, fun _ => ⟨rfl, rfl⟩⟩
  pkh _ _ _ _ h := by simp only [lM, h]; rfl
  wpkh _ _ _ _ _ h := by simp only [lM, h]; rfl
  shWpkh _ _ _ _ _ h := by simp only [lM, h]; rfl
  runPkh sk m ty spk csv cltv tx n us h1 h2 h3 h4 := if_pos (.key (.pkh sk m ty spk csv cltv tx n us h1 h2 h3 h4))
  runWpkh sk m ty u csv cltv tx n us h1 h2 h3 h4 := if_pos (.key (.wpkh sk m ty u csv cltv tx n us h1 h2 h3 h4))
  runShWpkh sk m ty u r csv cltv tx n us h1 h2 h3 h4 h5 := if_pos (.key (.shWpkh sk m ty u r csv cltv tx n us h1 h2 h3 h4 h5))
  runTr kp m ty u csv cltv tx n us q h1 h2 h3 h4 h5 := if_pos (.key (.tr kp m ty u csv cltv tx n us q h1 h2 h3 h4 h5))

/-- No scripts but those of leaves. -/
def lNone (_ : MsCtx) (_ : Bytes) (_ : List Demo.mixLib.pubkey.T) : Prop := False
theorem lM_scripts : ScriptLaws lS lM lNone := by
  constructor <;> intros <;> rename_i h <;> first | exact h.elim | (exfalso; assumption)

theorem val_inj {n : Nat} (hn : 0 < n) {a b : UInt8} (h : Demo.val n hn a = Demo.val n hn b) : a = b := by
  have := congrArg (fun x : (Demo.fixed n hn).T => x.bytes) h
  exact (List.replicate_inj.mp this).2.resolve_left (by omega)

theorem lStack_some {sat : Satisfier Demo.mixLib} {h : Hash32} : ∀ {ks : Bytes},
    (∀ b ∈ ks, sat.tapLeafScriptSig (Demo.val 32 (by decide) b) h ≠ none) → lStack sat h ks ≠ none
  | [], _ => by simp [lStack]
  | b :: bs, hs => by
    have h1 := hs b (by simp)
    have h2 := lStack_some (ks := bs) fun c hc => hs c (by simp [hc])
    cases e1 : sat.tapLeafScriptSig (Demo.val 32 (by decide) b) h with
    | none => exact (h1 e1).elim
    | some x =>
      cases e2 : lStack sat h bs with
      | none => exact (h2 e2).elim
      | some r => simp [lStack, e1, e2]

theorem lStack_good {sat : Satisfier Demo.mixLib} {h m : Hash32} {ty : TapTy} (hg : GoodLeafSigs lS sat h m ty) : ∀ {ks : Bytes} {st},
    lStack sat h ks = some st → st = ks.map fun sk => schnorrBytes lS m (lS.keypair sk) ty
  | [], st, e => by cases e; rfl
  | b :: bs, st, e => by
    unfold lStack at e
    split at e
    · rename_i x r e1 e2
      cases e
      obtain ⟨sk, h1, rfl⟩ := hg _ _ e1
      have : sk = b := val_inj (by decide) h1
      subst this
      rw [lStack_good hg e2]
      rfl
    · cases e

theorem lM_leaves : LeafLaws lS lM lEnough (ProvesLeaf sLib) where
  parse s keys h := ⟨s, if_pos ⟨keys, h⟩, fun _ => rfl⟩
  satisfy mall s keys ms map sat h1 h2 h3 := by
    obtain rfl : s = ms := Option.some.inj ((if_pos ⟨keys, h1⟩ : lM.tapParse s = some s).symm.trans h2)
    obtain ⟨sh, ks, rfl, rfl⟩ := h1
    exact lStack_some fun b hb => h3 _ (List.mem_map_of_mem hb)
  run mall s keys ms map sat stack cb u m ty csv cltv tx n us q h1 h2 h3 h4 h5 h6 h7 h8 h9 := by
    obtain rfl : s = ms := Option.some.inj ((if_pos ⟨keys, h1⟩ : lM.tapParse s = some s).symm.trans h2)
    obtain ⟨sh, ks, rfl, rfl⟩ := h1
    rw [lStack_good h9 h3]
    exact if_pos (.leaf ks sh m ty cb u csv cltv tx n us q h4 h5 h6 h7 h8)

/-- A signer with one key. -/
def lKeys (b : UInt8) : Provider lS
  | .bip32 s => .ok (if s.1 = Demo.rep 4 b then some b else none)
  | .pubkey _ => .error .notSupported

/-- Three leaves with different scripts, of which one needs the keys of both signers and the others keys that nobody has. -/
def lLeaves : List (UInt8 × Mini UInt8 UInt8) := [(1, ⟨9, [4]⟩), (2, ⟨8, [5, 6]⟩), (2, ⟨9, [7]⟩)]
def lTree : Tree := .node (.leaf TAPSCRIPT [0xee, 9, 4]) (.node (.leaf TAPSCRIPT [0xee, 8, 5, 6]) (.leaf TAPSCRIPT [0xee, 9, 7]))
def lSpk : Bytes := [0x51, 0x20] ++ (sLib.outputKey (Demo.val 32 (by decide) 3) (some (lTree.root Demo.mixLib))).bytes
def lWpkh : Bytes := [0x00, 0x14] ++ (Demo.mixLib.hash160 (Demo.val 33 (by decide) 6).bytes).1
def lCoins : List (Coin sLib) := [
  ⟨.tr (3 : UInt8) lLeaves, dOut lSpk, none, some (dOut lSpk)⟩,
  ⟨.plain (.wpkh (6 : UInt8)), dOut lWpkh, none, some (dOut lWpkh)⟩]
def lTx : Tx := ⟨2, 0, [⟨⟨Demo.rep 32 1, 0⟩, [], 0xFFFFFFFD, []⟩, ⟨⟨Demo.rep 32 1, 5⟩, [], 0xFFFFFFFD, []⟩], [⟨500, [0x51]⟩]⟩

theorem lKey {b : UInt8} {pk : Demo.mixLib.pubkey.T} {src : KeySource} (h : KeyIs sLib (b : UInt8) pk src) :
    pk = Demo.val 33 (by decide) b ∧ src = (Demo.rep 4 b, [b.toUInt32]) := by
  obtain ⟨h1, h2, h3⟩ := h
  exact ⟨(Except.ok.inj h1).symm, Prod.ext h3.symm (Option.some.inj h2).symm⟩

theorem lRight {a b : UInt8} {pk : Demo.mixLib.pubkey.T} {src : KeySource} (h : KeyIs sLib (b : UInt8) pk src) {sk : lS.SK}
    (hs : answer (lKeys a (.bip32 src)) = some sk) : lS.pub sk = pk := by
  obtain ⟨rfl, rfl⟩ := lKey h
  change answer (.ok (if Demo.rep 4 b = Demo.rep 4 a then some a else none)) = some sk at hs
  split at hs
  · rename_i e
    cases hs
    have : b = a := (List.replicate_inj.mp (congrArg Subtype.val e)).2.resolve_left (by decide)
    rw [this]; rfl
  · cases hs

theorem lAgree (a b : UInt8) : AgreeOnKeys lS (lKeys a) (lKeys b) := by
  intro s sk sk' h h'
  change answer (.ok (if s.1 = Demo.rep 4 a then some a else none)) = some sk at h
  change answer (.ok (if s.1 = Demo.rep 4 b then some b else none)) = some sk' at h'
  split at h
  · split at h'
    · rename_i e1 e2
      cases h; cases h'
      exact (List.replicate_inj.mp (congrArg Subtype.val (e1.symm.trans e2))).2.resolve_left (by decide)
    · cases h'
  · cases h

theorem lMini (l : Mini UInt8 UInt8) : MiniIs sLib l ⟨l.shape, l.keys.map (Demo.val 33 (by decide))⟩ := by
  refine ⟨rfl, deriveKeys_ok.mp ?_⟩
  show deriveKeys sLib l.keys = _
  induction l.keys with
  | nil => rfl
  | cons a l ih => simp only [deriveKeys, ih]; rfl

theorem lLeaf (l : Mini UInt8 UInt8) : ∃ x, MiniIs sLib l x ∧ lEnough (sLib.tapEncode x) (l.keys.map (Demo.val 32 (by decide))) := by
  refine ⟨_, lMini l, l.shape, l.keys, ?_, rfl⟩
  have h : ∀ ks : Bytes, (ks.map fun b => (Demo.val 33 (by decide) b : Demo.mixLib.pubkey.T)).map (fun k : Demo.mixLib.pubkey.T => k.bytes.headD 0) = ks := by
    intro ks
    induction ks with
    | nil => rfl
    | cons b ks ih => exact congrArg (b :: ·) ih
  exact congrArg (fun t => 0xee :: l.shape :: t) (h l.keys)

theorem lOther {a : List UInt8} {b : UInt8} (h : b ∉ a) :
    ∀ j ∈ a, ∀ q, sLib.derive j = .ok q → sLib.xonly q ≠ Demo.val 32 (by decide) b := by
  intro j hj q e e'
  cases e
  cases val_inj (by decide) (e' : Demo.val 32 (by decide) j = _)
  exact h hj

theorem lShared : SharedLeaf lS lEnough sLib [lKeys 5, lKeys 6] (3 : UInt8) lLeaves where
  leaves l _ := let ⟨x, h⟩ := lLeaf l.2; ⟨x, _, h⟩
  one := by
    refine ⟨((2 : UInt8), (⟨8, [5, 6]⟩ : Mini UInt8 UInt8)), .tail _ (.head _), _, _, lMini ⟨8, [5, 6]⟩, ⟨8, [5, 6], rfl, rfl⟩, ?_⟩
    intro k hk
    have hk : k = Demo.val 32 (by decide) 5 ∨ k = Demo.val 32 (by decide) 6 := by
      cases hk with
      | head => exact .inl rfl
      | tail _ h => exact .inr (List.mem_singleton.mp h)
    rcases hk with rfl | rfl
    · exact ⟨⟨_, .head _, rfl⟩, lKeys 5, by simp, (5 : UInt8), (Demo.rep 4 5, [5]), ⟨[(3 : UInt8), (4 : UInt8)], (5 : UInt8), _, _, rfl, ⟨rfl, rfl, rfl⟩, rfl,
        lOther (a := [3, 4]) (b := 5) (by decide)⟩, rfl⟩
    · exact ⟨⟨_, .tail _ (.head _), rfl⟩, lKeys 6, by simp, (6 : UInt8), (Demo.rep 4 6, [6]),
        ⟨[(3 : UInt8), (4 : UInt8), (5 : UInt8)], (6 : UInt8), _, _, rfl, ⟨rfl, rfl, rfl⟩, rfl,
        lOther (a := [3, 4, 5]) (b := 6) (by decide)⟩, rfl⟩
  right k _ pk src h prov hp sk hs := by
    simp only [List.mem_cons, List.not_mem_nil, or_false] at hp
    rcases hp with rfl | rfl <;> exact lRight h hs

theorem lTree_of {xs} (hx : LeavesAre sLib lLeaves xs) : treeOf sLib xs = lTree.list 0 := by
  cases deriveLeaves_ok.mpr hx
  rfl

theorem lDefinite (d : Descriptor sLib.Shape sLib.Key) : Definite sLib d := by intro k _ pk _ h; cases h

theorem lCoins_shared : ∀ n c, lCoins[n]? = some c → SharedAny lS lEnough sLib lNone [lKeys 5, lKeys 6] lTx n c := by
  intro n c h
  have hn : n < 2 := (List.getElem?_eq_some_iff.mp h).1
  match n, hn with
  | 0, _ =>
    cases h
    refine .leaf rfl lShared ?_ ?_ (lDefinite _) fun t ht => ?_
    · intro xs T hx hT h
      rw [lTree_of hx] at h
      have : T = lTree := (list_split (d := 0) (r := []) (r' := []) (by omega) (by decide)
        (by rw [List.append_nil, List.append_nil]; exact h.symm)).1
      subst this
      unfold CollisionFree
      decide +kernel
    · have hx : LeavesAre sLib lLeaves _ := deriveLeaves_ok.mp rfl
      have h := MerkleRoot.tree (L := Demo.mixLib) (T := lTree) (by decide)
      rw [← lTree_of hx] at h
      have := ScriptOf.tr (ik := (3 : UInt8)) (pk := Demo.val 33 (by decide) 3) hx rfl h
      exact this
    · exact ⟨.inl rfl, fun tx htx => (by cases htx), fun _ => trivial⟩
  | 1, _ =>
    cases h
    refine .known ⟨.wpkh (pk := Demo.val 33 (by decide) 6) rfl ⟨lKeys 6, by simp, (6 : UInt8), rfl, ⟨(6 : UInt8), .head _, rfl⟩, ?_⟩,
      ScriptOf.wpkh (U := sLib) (pk := Demo.val 33 (by decide) 6) rfl rfl, lDefinite _, fun t ht => ?_⟩
    · intro j hj q src h _
      cases List.mem_singleton.mp hj
      obtain ⟨-, rfl⟩ := lKey h
      rfl
    · exact ⟨.inl rfl, fun tx htx => (by cases htx), fun _ => trivial⟩

theorem lTweak : TweakLaw sLib lS lOut := by
  intro sk root
  cases root <;> rfl

-- Two signers complete a transaction that neither could complete alone, one after the other or on copies.
example : ∃ p0 p q r tx', Psbt.fromUnsignedTx Demo.mixLib lTx = .ok p0 ∧ UpdatesAll sLib (fund p0 lCoins) 0 lCoins p ∧
    Spec.V0.signInTurn lS p [lKeys 5, lKeys 6] = .ok q ∧ q.finalizeMut lM false = .ok (r, []) ∧ r.extract lM = .ok tx' ∧ tx'.input.length = 2 := by
  obtain ⟨p, q, r, tx', h1, h2, h3, h4, -, -, -, h5, -⟩ :=
    C114_from_descriptors lM_laws lM_scripts lM_leaves lTweak (fun _ => rfl) (tx := lTx) rfl (cs := lCoins) rfl lCoins_shared false
  exact ⟨_, p, q, r, tx', rfl, h1, h2, h3, h4, h5⟩
example : ∃ p0 p a res q r tx', Psbt.fromUnsignedTx Demo.mixLib lTx = .ok p0 ∧ UpdatesAll sLib (fund p0 lCoins) 0 lCoins p ∧
    p.sign lS (lKeys 5) = .ok (a, res) ∧ Spec.V0.combineCopies lS p a [lKeys 6] = some q ∧
    q.finalizeMut lM true = .ok (r, []) ∧ r.extract lM = .ok tx' ∧ tx'.input.length = 2 := by
  obtain ⟨p, a, res, q, r, tx', h1, h2, h3, h4, h5, -, -, -, h6, -⟩ :=
    C114_copies_from_descriptors lM_laws lM_scripts lM_leaves lTweak (fun _ => rfl) (k := lKeys 5) (ks := [lKeys 6]) (tx := lTx) rfl
      (cs := lCoins) rfl lCoins_shared (by
        intro a ha b hb
        simp only [List.mem_cons, List.not_mem_nil, or_false] at ha hb
        rcases ha with rfl | rfl <;> rcases hb with rfl | rfl <;> exact lAgree _ _) true
  exact ⟨_, p, a, res, q, r, tx', rfl, h1, h2, h3, h4, h5, h6⟩
end Examples

end Psbt.V0
