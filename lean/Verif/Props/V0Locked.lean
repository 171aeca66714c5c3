/- C125: scripts with hashes and timelocks, PSBT v0. -/
import Verif.Spec.Locked
import Verif.Props.V0ScriptPath
import Verif.Props.Sessions
namespace Psbt.V0
open Psbt Spec Spec.V0

variable {L : Lib} {S : SigLib L} {M : MsLib L} {out : S.Keypair → FixedBytes 32} {enough : MsCtx → Bytes → Demands L.pubkey.T → Prop}
  {enough' : Bytes → Demands L.xonly.T → Prop} {enough₁ : Bytes → List L.xonly.T → Prop} {proves : Bytes → Bytes → Bytes → LeafVersion → Prop}
  {enough₂ : MsCtx → Bytes → List L.pubkey.T → Prop}

theorem preimage32_iff {b : Bytes} {x : FixedBytes 32} : preimage32? b = some x ↔ b = x.1 := by
  unfold preimage32?
  split
  · simp only [Option.some.injEq]
    exact ⟨fun h => by rw [← h], fun h => Subtype.ext h⟩
  · rename_i h
    simp only [reduceCtorEq, false_iff]
    rintro rfl; exact h x.2

theorem erase_preimages {i j : Input L} (h : eraseInput j = eraseInput i) :
    j.sha256Preimages = i.sha256Preimages ∧ j.hash256Preimages = i.hash256Preimages ∧ j.hash160Preimages = i.hash160Preimages ∧
    j.ripemd160Preimages = i.ripemd160Preimages := by
  unfold eraseInput at h
  have h := Input.mk.inj h
  simp_all

theorem preimage_held {α : Type} [OrdKey α] [DecidableEq α] {m : BMap α Bytes} {h : α} (hb : ∃ b, m.get h = some b ∧ b.length = 32) :
    (m.get h).bind preimage32? ≠ none := by
  obtain ⟨b, h1, h2⟩ := hb
  rw [h1, Option.bind_some, (preimage32_iff (x := ⟨b, h2⟩)).mpr rfl]
  simp

theorem preimage_right {α : Type} [OrdKey α] [DecidableEq α] {f : Bytes → α} {m : BMap α Bytes} (hr : ∀ h b, m.get h = some b → f b = h) {h : α}
    {x : FixedBytes 32} (hx : (m.get h).bind preimage32? = some x) : f x.1 = h := by
  obtain ⟨b, h1, h2⟩ := Option.bind_eq_some_iff.mp hx
  rw [← preimage32_iff.mp h2]; exact hr h b h1

/-- What the satisfier answers once the signers have signed. -/
theorem answers {K : Type} {has has' : K → Prop} {p p' : Psbt L} {n : Nat} {t : TxIn} {i j : Input L} {x : Demands K}
    (hm : Meets has p.unsignedTx t i x) (ej : eraseInput j = eraseInput i) (hin : ∀ pk, has pk → has' pk) (hi : HasInput p' n t j)
    (htx : p'.unsignedTx = p.unsignedTx) : Sufficient (p'.satisfier M n j) has' x := by
  obtain ⟨e1, e2, e3, e4⟩ := erase_preimages ej
  · refine ⟨fun pk h => hin pk (hm.keys pk h), fun h hh => ?_, fun h hh => ?_, fun h hh => ?_, fun h hh => ?_, fun l h => ?_, fun l h => ?_⟩
    · show (j.sha256Preimages.get h).bind preimage32? ≠ none
      rw [e1]; exact preimage_held (hm.sha256 h hh)
    · show (j.hash256Preimages.get h).bind preimage32? ≠ none
      rw [e2]; exact preimage_held (hm.hash256 h hh)
    · show (j.hash160Preimages.get h).bind preimage32? ≠ none
      rw [e3]; exact preimage_held (hm.hash160 h hh)
    · show (j.ripemd160Preimages.get h).bind preimage32? ≠ none
      rw [e4]; exact preimage_held (hm.ripemd160 h hh)
    · rw [C65_v0_after hi, htx]; exact hm.after l h
    · rw [C65_v0_older hi, htx]; exact hm.older l h

theorem answers_right {p p' : Psbt L} {n : Nat} {t : TxIn} {i j : Input L} (hr : RightPreimages i) (ej : eraseInput j = eraseInput i)
    (hi : HasInput p' n t j) (htx : p'.unsignedTx = p.unsignedTx) :
    Truthful (p'.satisfier M n j) p.unsignedTx.version t.sequence p.unsignedTx.lockTime := by
  obtain ⟨e1, e2, e3, e4⟩ := erase_preimages ej
  · refine ⟨fun h b hb => ?_, fun h b hb => ?_, fun h b hb => ?_, fun h b hb => ?_, fun l h => ?_, fun l h => ?_⟩
    · exact preimage_right hr.sha256 (e1 ▸ hb)
    · exact preimage_right hr.hash256 (e2 ▸ hb)
    · exact preimage_right hr.hash160 (e3 ▸ hb)
    · exact preimage_right hr.ripemd160 (e4 ▸ hb)
    · rw [C65_v0_after hi, htx] at h; exact h
    · rw [C65_v0_older hi, htx] at h; exact h.1

/-- There is a message to sign, and with the signatures the input can be made final. -/
theorem lockedSpend_final (llaws : LockLaws S M enough) {ks : List (Provider S)} {p q : Psbt L} {us : List TxOut}
    (hf : Funding p.unsignedTx.input p.inputs us) (hq : Spec.V0.signInTurn S p ks = .ok q) {n : Nat} {t : TxIn} {i : Input L} {u : TxOut}
    {ty : EcdsaTy} (hi : HasInput p n t i) (hu : FundedBy t i u) (hem : i.partialSigs = .empty) (hd : Spec.V0.DeclaredType i ty)
    (hr : RightPreimages i) (hs : LockedSpend S enough ks p.unsignedTx t i u.scriptPubkey) (mall : Bool) :
    ∃ j, q.inputs[n]? = some j ∧ ∀ p', Same q p' → p'.inputs[n]? = some j →
      ∃ s w, (s ≠ [] ∨ w ≠ []) ∧ Verdict M p' n s w none ∧ Result M p' n mall (.ok (V0.onlyFinal j s w)) := by
  obtain ⟨f1, f2, f3⟩ := funding_iff.mp hf
  have hsame := same_of_erase (turn_erase hq)
  have hl := (List.getElem?_eq_some_iff.mp hi.1).1
  have hus : us[n]? = some u := by
    obtain ⟨t', i', g1, g2, g3⟩ := f3 n _ (List.getElem?_eq_getElem (by omega))
    obtain ⟨rfl, rfl⟩ := hasInput_unique hi ⟨g1, g2⟩
    rw [List.getElem?_eq_getElem (by omega), fundedBy_unique hu g3]
  have fin : ∀ {p' : Psbt L} {j s w}, Same p p' → p'.inputs[n]? = some j → (s ≠ [] ∨ w ≠ []) → Scripts M p' n mall (.ok (s, w)) →
      HasInput p' n t j → FundedBy t j u →
      M.interp ⟨u.scriptPubkey, s, w, t.sequence, p.unsignedTx.lockTime, p.unsignedTx, n, us⟩ = none →
      ∃ s w, (s ≠ [] ∨ w ≠ []) ∧ Verdict M p' n s w none ∧ Result M p' n mall (.ok (V0.onlyFinal j s w)) := by
    intro p' j s w hsame hj hne hsc hi' hu' hint
    have hv : Verdict M p' n s w none := ⟨t, j, u, us, hi', hu', hsame.funding hf, by rw [hsame.1]; exact hint⟩
    exact ⟨s, w, hne, hv, .done hj hsc hv⟩
  have empty : ∀ {m}, AllValid S m ty i := fun pk sig h => by rw [hem] at h; cases h
  cases hs with
  | @wsh w x hc hrd hw hen hmeet =>
    have hsp : SpendType u.scriptPubkey i.redeemScript .wsh := .wsh ⟨_, hc⟩
    obtain ⟨m, hm⟩ := message_any_segwit (L := L) hl w u.value ty
    obtain ⟨j, g1, ej, g3, g4⟩ := turn_ecdsa hq hi hu hd (.wsh ⟨_, hc⟩ hw hm) hsp (by decide) empty
    refine ⟨j, g1, fun p' hp' hj => ?_⟩
    have hs' := hsame.trans hp'
    have hi' : HasInput p' n t j := ⟨by rw [hs'.1]; exact hi.1, hj⟩
    have hu' := fundedBy_erase ej hu
    obtain ⟨-, -, e3, e4, -⟩ := erase_fields ej
    obtain ⟨ms, h1, h2⟩ := llaws.segwit w x hen
    have a1 := answers (M := M) hmeet ej (fun pk h => g4 pk (.inr h)) hi' hs'.1
    have a2 := answers_right (M := M) hr ej hi' hs'.1
    have hnt : ¬ P2tr u.scriptPubkey := by
      rw [hc]; rintro ⟨x, hx⟩; simp at hx
    obtain ⟨wit, k1, k2, k3⟩ := llaws.wsh mall w x ms (hashMap M (derivationKeys p')) _ u m ty
      _ _ p.unsignedTx n us hen h1 hc f1.symm hus hm a1 g3 a2
    exact fin hs' hj (.inr k2)
      (.other hi' hu' hnt (.wsh (e3.trans hrd) (e4.trans hw) hc (.ok h1 (.ok (h2 _).1))) k1) hi' hu' k3
  | @shWsh r w x hc hrd hcw hw hen hmeet =>
    have hsp : SpendType u.scriptPubkey i.redeemScript .shWsh := .shWsh ⟨_, hc⟩ hrd ⟨_, hcw⟩
    obtain ⟨m, hm⟩ := message_any_segwit (L := L) hl w u.value ty
    obtain ⟨j, g1, ej, g3, g4⟩ := turn_ecdsa hq hi hu hd (.shWsh ⟨_, hc⟩ hrd ⟨_, hcw⟩ hw hm) hsp (by decide) empty
    refine ⟨j, g1, fun p' hp' hj => ?_⟩
    have hs' := hsame.trans hp'
    have hi' : HasInput p' n t j := ⟨by rw [hs'.1]; exact hi.1, hj⟩
    have hu' := fundedBy_erase ej hu
    obtain ⟨-, -, e3, e4, -⟩ := erase_fields ej
    obtain ⟨ms, h1, h2⟩ := llaws.segwit w x hen
    have a1 := answers (M := M) hmeet ej (fun pk h => g4 pk (.inr h)) hi' hs'.1
    have a2 := answers_right (M := M) hr ej hi' hs'.1
    obtain ⟨wit, k1, k2, k3⟩ := llaws.shWsh mall w x ms (hashMap M (derivationKeys p')) _ u r m ty
      _ _ p.unsignedTx n us hen h1 hc hcw f1.symm hus hm a1 g3 a2
    exact fin hs' hj (.inr k2)
      (.other hi' hu' (notTr_sh hc) (.shWsh (e3.trans hrd) hc (e4.trans hw) hcw (.ok h1 (.ok (h2 _).2))) k1) hi' hu' k3
  | @sh r x hc hrd hn1 hn2 hw hen hmeet =>
    have hsp : SpendType u.scriptPubkey i.redeemScript .sh := .sh ⟨_, hc⟩ (fun r' h' => by rw [hrd] at h'; cases h'; exact ⟨hn1, hn2⟩)
    obtain ⟨m, hm⟩ := message_any_legacy (L := L) hl r ty
    obtain ⟨j, g1, ej, g3, g4⟩ := turn_ecdsa hq hi hu hd (.sh hsp hrd hm) hsp (by decide) empty
    refine ⟨j, g1, fun p' hp' hj => ?_⟩
    have hs' := hsame.trans hp'
    have hi' : HasInput p' n t j := ⟨by rw [hs'.1]; exact hi.1, hj⟩
    have hu' := fundedBy_erase ej hu
    obtain ⟨-, -, e3, e4, -⟩ := erase_fields ej
    obtain ⟨ms, h1, h2⟩ := llaws.legacy r x hen
    have a1 := answers (M := M) hmeet ej (fun pk h => g4 pk (.inr h)) hi' hs'.1
    have a2 := answers_right (M := M) hr ej hi' hs'.1
    obtain ⟨sig, k1, k2, k3⟩ := llaws.sh mall r x ms _ u m ty
      _ _ p.unsignedTx n us hen h1 hc f1.symm hus hm a1 g3 a2
    exact fin hs' hj (.inl k2)
      (.other hi' hu' (notTr_sh hc) (.sh (e3.trans hrd) hc hn2 hn1 (e4.trans hw) (.ok h1 (.ok h2))) k1) hi' hu' k3

/-- A taproot input that the signers can spend by a script with preimages and timelocks can be finalized after they signed. -/
theorem lockedLeaf_final (laws : KeyLaws S M out) (llaws : LeafLockLaws S M enough' proves) {ks : List (Provider S)} {p q : Psbt L} (hp : Sound p)
    {us : List TxOut} (hf : Funding p.unsignedTx.input p.inputs us) (hq : Spec.V0.signInTurn S p ks = .ok q) {n : Nat} {t : TxIn} {i : Input L}
    {u : TxOut} (hk : LockedLeaf S out enough' proves ks p n t i u) (mall : Bool) :
    ∃ j, q.inputs[n]? = some j ∧ ∀ p', Same q p' → p'.inputs[n]? = some j →
      ∃ s w, (s ≠ [] ∨ w ≠ []) ∧ Verdict M p' n s w none ∧ Result M p' n mall (.ok (V0.onlyFinal j s w)) := by
  obtain ⟨hi, hu, ⟨hno, hno'⟩, ⟨m, ty, hm⟩, hright, hscr, hone, hlk, hpk⟩ := hk
  obtain ⟨f1, f2, f3⟩ := funding_iff.mp hf
  have hsame := same_of_erase (turn_erase hq)
  obtain ⟨j, g1, g2, g3, -⟩ := turn_tap
    (P := fun kp => u.scriptPubkey = [0x51, 0x20] ++ (out kp).1) hp hq hi hu hm (fun sig h => by rw [hno] at h; cases h) hpk
  obtain ⟨j', g1', -, g5, g6⟩ := turn_leaf hp hq hi hu hm (fun x lh sig h => by rw [hno'] at h; cases h) hlk
  cases g1.symm.trans g1'
  refine ⟨j, g1, fun p' hp' hj => ?_⟩
  have hs' := hsame.trans hp'
  have hi' : HasInput p' n t j := ⟨by rw [hs'.1]; exact hi.1, hj⟩
  have hu' := fundedBy_erase g2 hu
  have hl := (List.getElem?_eq_some_iff.mp hi.1).1
  have hus : us[n]? = some u := by
    obtain ⟨t', i', k1, k2, k3⟩ := f3 n _ (List.getElem?_eq_getElem (by omega))
    obtain ⟨rfl, rfl⟩ := hasInput_unique hi ⟨k1, k2⟩
    rw [List.getElem?_eq_getElem (by omega), fundedBy_unique hu k3]
  have htr : P2tr u.scriptPubkey := by
    obtain ⟨t', i', u', k1, k2, k3, -⟩ := hm
    obtain ⟨rfl, rfl⟩ := hasInput_unique hi k1
    cases fundedBy_unique hu k2
    exact k3
  have hmsg : ∀ {leaf m}, TapSigns p n leaf m ty → ∃ q, (q = .all us ∨ q = .one n u) ∧ tapSighash L p.unsignedTx n q leaf ty = .ok m := by
    intro leaf m hm
    obtain ⟨t', i', u', k1, k2, -, -, k5⟩ := hm
    obtain ⟨rfl, rfl⟩ := hasInput_unique hi k1
    cases fundedBy_unique hu k2
    rcases k5 with ⟨-, k6⟩ | ⟨-, us', k6, k7⟩
    · exact ⟨_, .inr rfl, k6⟩
    · cases funding_unique hf k6
      exact ⟨_, .inl rfl, k7⟩
  have fin : ∀ w, w ≠ [] → M.interp ⟨u.scriptPubkey, [], w, t.sequence, p.unsignedTx.lockTime, p.unsignedTx, n, us⟩ = none →
      TapResult M mall (tapHashMap (originKeys p')) (p'.satisfier M n j) (.ok w) →
      ∃ s w, (s ≠ [] ∨ w ≠ []) ∧ Verdict M p' n s w none ∧ Result M p' n mall (.ok (V0.onlyFinal j s w)) := by
    intro w hw hint hres
    have hv : Verdict M p' n [] w none := ⟨t, j, u, us, hi', hu', hs'.funding hf, by rw [hs'.1]; exact hint⟩
    exact ⟨[], w, .inr hw, hv, .done hj (.tap hi' hu' htr hres) hv⟩
  have hscripts : j.tapScripts = i.tapScripts := by
    have := congrArg Input.tapScripts g2
    exact this
  cases hks : j.tapKeySig with
  | some sig =>
    obtain ⟨kp, hc, rfl⟩ := g3 sig hks
    obtain ⟨q', hq1, hq2⟩ := hmsg hm
    exact fin [schnorrBytes S m kp ty] (by simp) (laws.runTr _ m ty u _ _ _ n us _ hc f1.symm hus hq1 hq2)
      (TapResult.key (sig := ⟨S.signSchnorr m kp, ty⟩) hks)
  | none =>
    obtain ⟨r, -, hr⟩ := V2.tapTotal (M := M) (mall := mall) (keys := originKeys p') (sat := p'.satisfier M n j) htr
    have hr0 := hr
    cases hr with
    | key h => rw [show (p'.satisfier M n j).tapKeySpendSig = j.tapKeySig from rfl, hks] at h; cases h
    | @leaf l1 l2 cb s ver w h1 h2 h3 h4 h5 =>
      obtain ⟨hver, ms, stack, a1, a2, rfl⟩ := h3
      obtain rfl : ver = ⟨0xc0, by decide⟩ := Subtype.ext hver
      have hget : i.tapScripts.get cb = some (s, ⟨0xc0, by decide⟩) := by
        rw [← hscripts]
        refine BMap.mem_iff_get.mp ?_
        show (cb, s, _) ∈ j.tapScripts.l
        rw [show j.tapScripts.l = l1 ++ (cb, s, ⟨0xc0, by decide⟩) :: l2 from h2]
        simp
      obtain ⟨b1, keys, b2⟩ := hscr cb s hget
      obtain ⟨ms', b3, b4⟩ := llaws.parse s keys b2
      cases b3.symm.trans a1
      obtain ⟨m', hm'⟩ := tapSigns_leaf_ok hm (some (leafHash L s))
      obtain ⟨q', hq1, hq2⟩ := hmsg hm'
      rw [b4] at hr0
      refine fin _ (by simp) (llaws.run mall s keys ms _ _ stack cb.bytes u m' ty _ _ _ n us q' b2 a1 a2 b1 f1.symm hus hq1 hq2 ?_
        (answers_right (M := M) hright g2 hi' hs'.1)) hr0
      intro x sig hsig
      obtain ⟨sk, m'', c1, c2, c3⟩ := g5 x _ sig hsig
      obtain ⟨rfl, -⟩ := tapSigns_unique hp.2 c2 hm'
      exact ⟨sk, c1, c3⟩
    | none h1 h2 =>
      exfalso
      obtain ⟨cb, s, keys, c1, c2, c3⟩ := hone
      obtain ⟨ms, b3, b4⟩ := llaws.parse s keys c2
      obtain ⟨stack, hst⟩ := Option.ne_none_iff_exists'.mp
        (llaws.satisfy mall s keys ms (tapHashMap (originKeys p')) (p'.satisfier M n j) c2 b3
          (answers (M := M) c3 g2 (fun x hx => g6 x _ (.inr hx)) hi' hs'.1))
      refine h2 cb s ⟨0xc0, by decide⟩ _ ?_ ⟨rfl, ms, stack, b3, hst, rfl⟩
      show (cb, s, _) ∈ j.tapScripts.l
      rw [hscripts]
      exact BMap.mem_iff_get.mpr c1

/-- C125. Signers complete a PSBT v0 also if inputs are spent by scripts with hashes and timelocks, provided the preimages are in
the inputs and the timelocks are met by the unsigned transaction. -/
theorem C125_completed (laws : KeyLaws S M out) (slaws : ScriptLaws S M enough₂) (tlaws : LeafLaws S M enough₁ proves)
    (llaws : LockLaws S M enough) (klaws : LeafLockLaws S M enough' proves) {ks : List (Provider S)} {p : Psbt L} (hp : Sound p)
    (hun : ∀ t ∈ p.unsignedTx.input, t.scriptSig = [] ∧ t.witness = [])
    (hk : ∀ n < p.inputs.length, CanSpendLocked S enough out enough' proves enough₁ enough₂ ks p n) (mall : Bool) :
    ∃ q r tx, Spec.V0.signInTurn S p ks = .ok q ∧ q.finalizeMut M mall = .ok (r, []) ∧ r.extract M = .ok tx ∧
      tx.version = p.unsignedTx.version ∧ tx.lockTime = p.unsignedTx.lockTime ∧ tx.output = p.unsignedTx.output ∧
      tx.input.length = p.unsignedTx.input.length ∧
      ∀ (n : Nat) t, p.unsignedTx.input[n]? = some t →
        ∃ s w, tx.input[n]? = some { t with scriptSig := s, witness := w } ∧ Verdict M p n s w none := by
  obtain ⟨us, hf⟩ : ∃ us, Funding p.unsignedTx.input p.inputs us := by
    rcases prevouts_cases hp with ⟨us, -, h⟩ | ⟨n, -, ⟨i, h1, h2⟩, -⟩
    · exact ⟨us, h⟩
    · obtain ⟨t, j, u, g1, g2⟩ : ∃ t j u, HasInput p n t j ∧ FundedBy t j u := by
        cases hk n (List.getElem?_eq_some_iff.mp h1).1 with
        | known h =>
          cases h with
          | known h =>
            cases h with
            | ecdsa a b => exact ⟨_, _, _, a, b⟩
            | tr a b => exact ⟨_, _, _, a, b⟩
          | leaf h => exact ⟨_, _, _, h.input, h.funded⟩
        | locked a b => exact ⟨_, _, _, a, b⟩
        | leaf h => exact ⟨_, _, _, h.input, h.funded⟩
      cases h1.symm.trans g1.2
      exact absurd h2 (not_unfunded g2)
  obtain ⟨q, hq⟩ := turn_exists ks hp
  have hsame := same_of_erase (turn_erase hq)
  have htx : q.unsignedTx = p.unsignedTx := hsame.1
  obtain ⟨r, tx, h1, h2, h3, h4, h5, h6, h7⟩ := completes (M := M) (hsame.sound hp) (by rw [htx]; exact hun) mall (by
    intro n hn
    cases hk n (by rw [← hsame.length]; exact hn) with
    | known h =>
      cases h with
      | known h => exact canSpend_final laws slaws hp hf hq h mall
      | leaf h => exact leafSpend_final laws tlaws hp hf hq h mall
    | locked a1 a2 a3 a4 a5 a6 => exact lockedSpend_final llaws hf hq a1 a2 a3 a4 a5 a6 mall
    | leaf h => exact lockedLeaf_final laws klaws hp hf hq h mall)
  rw [htx] at h3 h4 h5 h6 h7
  refine ⟨q, r, tx, hq, h1, h2, h3, h4, h5, h6, fun n t ht => ?_⟩
  obtain ⟨s, w, k1, k2⟩ := h7 n t ht
  exact ⟨s, w, k1, hsame.symm.verdict k2⟩

/-- C125. The same with the signers and combiners at work in any arrangement, provided there are no ECDSA signatures yet, keys sign
deterministically and signers that have keys for the same origin have the same key. -/
theorem C125_session (hd : Spec.Deterministic S) (laws : KeyLaws S M out) (slaws : ScriptLaws S M enough₂) (tlaws : LeafLaws S M enough₁ proves)
    (llaws : LockLaws S M enough) (klaws : LeafLockLaws S M enough' proves) {s : Session (Provider S)} {p : Psbt L} (hp : Sound p)
    (hun : ∀ t ∈ p.unsignedTx.input, t.scriptSig = [] ∧ t.witness = [])
    (hk : ∀ n < p.inputs.length, CanSpendLocked S enough out enough' proves enough₁ enough₂ s.signers p n)
    (hno : ∀ i ∈ p.inputs, i.partialSigs = .empty) (ha : ∀ k ∈ s.signers, ∀ k' ∈ s.signers, Spec.V0.AgreeOnKeys S k k') (mall : Bool) :
    ∃ q r tx, Spec.V0.afterSession S p s = some q ∧ q.finalizeMut M mall = .ok (r, []) ∧ r.extract M = .ok tx ∧
      tx.version = p.unsignedTx.version ∧ tx.lockTime = p.unsignedTx.lockTime ∧ tx.output = p.unsignedTx.output ∧
      tx.input.length = p.unsignedTx.input.length ∧
      ∀ (n : Nat) t, p.unsignedTx.input[n]? = some t →
        ∃ g w, tx.input[n]? = some { t with scriptSig := g, witness := w } ∧ Spec.V0.Verdict M p n g w none := by
  obtain ⟨q, r, tx, h1, h2⟩ := C125_completed laws slaws tlaws llaws klaws hp hun hk mall
  exact ⟨q, r, tx, session_inTurn hd hno ha h1, h2⟩

/-! ### The hypotheses can be met -/

section Examples
/-- A script that takes a signature of `pk`, a preimage of `h`, and these timelocks. -/
def lkScript (pk : gL.pubkey.T) (h : FixedBytes 32) (l : List AbsLock) (r : List RelLock) : Bytes :=
  pk.bytes ++ h.1 ++ l.flatMap (fun x => encU32 (absOperand x) ++ [0xb1]) ++ r.flatMap (fun x => encU32 (relOperand x) ++ [0xb2])
def lkDemands (pk : gL.pubkey.T) (h : FixedBytes 32) (l : List AbsLock) (r : List RelLock) : Demands gL.pubkey.T := ⟨[pk], [h], [], [], [], l, r⟩
def lkEnough (ctx : MsCtx) (s : Bytes) (x : Demands gL.pubkey.T) : Prop :=
  ctx ≠ .bare ∧ ∃ pk h l r, s = lkScript pk h l r ∧ x = lkDemands pk h l r

/-- What runs the script: the signature and the preimage, in an input where the locks are met. -/
def lkRuns (s sig pre : Bytes) (m : Hash32) (ty : EcdsaTy) (csv cltv : UInt32) (tx : Tx) : Prop :=
  ∃ sk h l r, s = lkScript (gS.pub sk) h l r ∧ sig = ecdsaBytes gS m sk ty ∧ gL.sha256 pre = h ∧
    (∀ x ∈ l, CltvPasses (absOperand x) cltv csv) ∧ ∀ x ∈ r, CsvPasses (relOperand x) tx.version csv

/-- The same in a leaf. -/
def lkLeaf (x : gL.xonly.T) (h : FixedBytes 32) (l : List AbsLock) (r : List RelLock) : Bytes :=
  x.bytes ++ h.1 ++ l.flatMap (fun x => encU32 (absOperand x) ++ [0xb1]) ++ r.flatMap (fun x => encU32 (relOperand x) ++ [0xb2])
def lkLeafEnough (s : Bytes) (x : Demands gL.xonly.T) : Prop := ∃ k h l r, s = lkLeaf k h l r ∧ x = ⟨[k], [h], [], [], [], l, r⟩
def lkTapRuns (s sig pre : Bytes) (m : Hash32) (ty : TapTy) (csv cltv : UInt32) (tx : Tx) : Prop :=
  ∃ sk h l r, s = lkLeaf (gS.xonly (gS.pub sk)) h l r ∧ sig = schnorrBytes gS m (gS.keypair sk) ty ∧ gL.sha256 pre = h ∧
    (∀ x ∈ l, CltvPasses (absOperand x) cltv csv) ∧ ∀ x ∈ r, CsvPasses (relOperand x) tx.version csv

/-- What an interpreter has to accept. -/
inductive LkAccepted : InterpArgs → Prop
  | key {a} : Accepted gS (fun kp => Demo.rep 32 kp.2) a → LkAccepted a
  | wsh (w sig pre u m ty csv cltv tx n us) : CommitsWsh gL u.scriptPubkey w → us[n]? = some u →
      segwitSighash gL tx n w u.value ty = some m → lkRuns w sig pre m ty csv cltv tx →
      LkAccepted ⟨u.scriptPubkey, [], [sig, pre, w], csv, cltv, tx, n, us⟩
  | shWsh (w sig pre u r m ty csv cltv tx n us) : CommitsSh gL u.scriptPubkey r → CommitsWsh gL r w → us[n]? = some u →
      segwitSighash gL tx n w u.value ty = some m → lkRuns w sig pre m ty csv cltv tx →
      LkAccepted ⟨u.scriptPubkey, push r, [sig, pre, w], csv, cltv, tx, n, us⟩
  | sh (r sig pre u m ty csv cltv tx n us) : CommitsSh gL u.scriptPubkey r → us[n]? = some u →
      legacySighash gL tx n r ty = some m → lkRuns r sig pre m ty csv cltv tx →
      LkAccepted ⟨u.scriptPubkey, push sig ++ push pre ++ push r, [], csv, cltv, tx, n, us⟩
  | leaf (s sig pre cb u m ty csv cltv tx n us q) : P2tr u.scriptPubkey → us[n]? = some u → (q = .all us ∨ q = .one n u) →
      tapSighash gL tx n q (some (leafHash gL s)) ty = .ok m → lkTapRuns s sig pre m ty csv cltv tx →
      LkAccepted ⟨u.scriptPubkey, [], [sig, pre, s, cb], csv, cltv, tx, n, us⟩

/-- The signature and the preimage are answers for this script. -/
def lkAnswers (sat : Satisfier gL) (s : Bytes) (a : EcdsaSig gL × FixedBytes 32) : Prop :=
  ∃ pk h l r, s = lkScript pk h l r ∧ sat.ecdsaSig pk = some a.1 ∧ sat.sha256 h = some a.2 ∧
    (∀ x ∈ l, sat.after x = true) ∧ ∀ x ∈ r, sat.older x = true

open Classical in
noncomputable def lkFind (sat : Satisfier gL) (s : Bytes) : Option (Bytes × Bytes) :=
  if h : ∃ a, lkAnswers sat s a then some (h.choose.1.der.bytes ++ [h.choose.1.ty.1], h.choose.2.1) else none

def lkTapAnswers (sat : Satisfier gL) (s : Bytes) (a : TapSig × FixedBytes 32) : Prop :=
  ∃ k h l r, s = lkLeaf k h l r ∧ sat.tapLeafScriptSig k (leafHash gL s) = some a.1 ∧ sat.sha256 h = some a.2 ∧
    (∀ x ∈ l, sat.after x = true) ∧ ∀ x ∈ r, sat.older x = true

open Classical in
noncomputable def lkTapFind (sat : Satisfier gL) (s : Bytes) : Option (List Bytes) :=
  if h : ∃ a, lkTapAnswers sat s a then
    some [h.choose.1.sig.1 ++ if h.choose.1.ty.1 = 0 then [] else [h.choose.1.ty.1], h.choose.2.1] else none

open Classical in
/-- A library that satisfies these scripts. -/
noncomputable def lkM : MsLib gL where
  ofSecp := yM.ofSecp
  Ms := Bytes
  parse _ s := if ∃ pk h l r, s = lkScript pk h l r then some s else none
  substitute _ s := s
  accepts _ := true
  satisfy mall d sat := match d with
    | .wsh s => (lkFind sat s).map fun a => ([a.1, a.2, s], [])
    | .shWsh s => (lkFind sat s).map fun a => ([a.1, a.2, s], push ([0x00, 0x20] ++ (gL.sha256 s).1))
    | .sh s => (lkFind sat s).map fun a => ([], push a.1 ++ push a.2 ++ push s)
    | d => yM.satisfy mall d sat
  TapMs := Bytes
  tapParse s := if ∃ k h l r, s = lkLeaf k h l r then some s else none
  tapSubstitute _ b := b
  tapSatisfy _ s sat := lkTapFind sat s
  tapEncode b := b
  interp a := if LkAccepted a then none else some .satisfaction

theorem lkM_laws : KeyLaws gS lkM (fun kp => Demo.rep 32 kp.2) where
  accepts _ := ⟨rfl, fun _ => ⟨rfl, rfl⟩⟩
  pkh := yM_laws.pkh
  wpkh := yM_laws.wpkh
  shWpkh := yM_laws.shWpkh
  runPkh sk m ty spk csv cltv tx n us h1 h2 h3 h4 := if_pos (.key (.pkh sk m ty spk csv cltv tx n us h1 h2 h3 h4))
  runWpkh sk m ty u csv cltv tx n us h1 h2 h3 h4 := if_pos (.key (.wpkh sk m ty u csv cltv tx n us h1 h2 h3 h4))
  runShWpkh sk m ty u r csv cltv tx n us h1 h2 h3 h4 h5 := if_pos (.key (.shWpkh sk m ty u r csv cltv tx n us h1 h2 h3 h4 h5))
  runTr kp m ty u csv cltv tx n us q h1 h2 h3 h4 h5 := if_pos (.key (.tr kp m ty u csv cltv tx n us q h1 h2 h3 h4 h5))

theorem lkM_scripts : ScriptLaws gS lkM (fun _ _ _ => False) := by constructor <;> intros <;> contradiction
theorem lkTapParse {s : Bytes} {x : Demands gL.xonly.T} (h : lkLeafEnough s x) : lkM.tapParse s = some s :=
  have ⟨k, y, l, r, e, _⟩ := h
  if_pos ⟨k, y, l, r, e⟩

/-- For the library, every script is in every taproot output. -/
def lkProves (spk _ _ : Bytes) (_ : LeafVersion) : Prop := P2tr spk

theorem lkM_leafLocks : LeafLockLaws gS lkM lkLeafEnough lkProves where
  parse s x h := ⟨s, lkTapParse h, fun _ => rfl⟩
  satisfy mall s x ms map sat h1 h2 h3 := by
    cases (lkTapParse h1).symm.trans h2
    obtain ⟨k, y, l, r, rfl, rfl⟩ := h1
    obtain ⟨sig, g1⟩ := Option.ne_none_iff_exists'.mp (h3.keys k (by simp))
    obtain ⟨pre, g2⟩ := Option.ne_none_iff_exists'.mp (h3.sha256 y (by simp))
    have hex : ∃ a, lkTapAnswers sat (lkLeaf k y l r) a := ⟨(sig, pre), k, y, l, r, rfl, g1, g2, h3.after, h3.older⟩
    show lkTapFind sat (lkLeaf k y l r) ≠ none
    unfold lkTapFind
    rw [dif_pos hex]; simp
  run mall s x ms map sat stack cb u m ty csv cltv tx n us q h1 h2 h3 h4 h5 h6 h7 h8 h9 h10 := by
    cases (lkTapParse h1).symm.trans h2
    have h3 : lkTapFind sat s = some stack := h3
    unfold lkTapFind at h3
    split at h3
    · rename_i hex
      cases h3
      obtain ⟨k, y, l, r, e, g1, g2, g3, g4⟩ := hex.choose_spec
      obtain ⟨sk, rfl, e2⟩ := h9 _ _ g1
      refine if_pos (.leaf s _ _ cb u m ty csv cltv tx n us q h4 h6 h7 h8
        ⟨sk, y, l, r, e, by rw [e2]; rfl, h10.sha256 _ _ g2, fun x hx => h10.after _ (g3 x hx), fun x hx => h10.older _ (g4 x hx)⟩)
    · cases h3

theorem lkM_leaves : LeafLaws gS lkM (fun _ _ => False) lkProves := by constructor <;> intros <;> contradiction

theorem lkFind_ok {ctx : MsCtx} {s : Bytes} {x : Demands gL.pubkey.T} {sat : Satisfier gL} {m : Hash32} {ty : EcdsaTy} {tx : Tx} {csv cltv : UInt32} (h : lkEnough ctx s x)
    (hs : Sufficient sat (fun pk => sat.ecdsaSig pk ≠ none) x) (hv : ValidSigs gS sat m ty) (ht : Truthful sat tx.version csv cltv) :
    ∃ sig pre, lkFind sat s = some (sig, pre) ∧ lkRuns s sig pre m ty csv cltv tx := by
  obtain ⟨-, pk, y, l, r, rfl, rfl⟩ := h
  have hex : ∃ a, lkAnswers sat (lkScript pk y l r) a := by
    obtain ⟨sig, h1⟩ := Option.ne_none_iff_exists'.mp (hs.keys pk (by simp [lkDemands]))
    obtain ⟨pre, h2⟩ := Option.ne_none_iff_exists'.mp (hs.sha256 y (by simp [lkDemands]))
    exact ⟨(sig, pre), pk, y, l, r, rfl, h1, h2, hs.after, hs.older⟩
  obtain ⟨pk', y', l', r', e, h1, h2, h3, h4⟩ := hex.choose_spec
  obtain ⟨sk, k1, k2⟩ := hv _ _ h1
  exact ⟨_, _, dif_pos hex, sk, y', l', r', by rw [e, k1], by rw [k2]; rfl, ht.sha256 _ _ h2,
    fun x hx => ht.after _ (h3 x hx), fun x hx => ht.older _ (h4 x hx)⟩

theorem lkParse {ctx : MsCtx} {s : Bytes} {x : Demands gL.pubkey.T} (h : lkEnough ctx s x) (c : MsCtx) : lkM.parse c s = some s :=
  have ⟨_, pk, y, l, r, e, _⟩ := h
  if_pos ⟨pk, y, l, r, e⟩

theorem lkM_locks : LockLaws gS lkM lkEnough where
  segwit w x h := ⟨w, lkParse h _, fun _ => ⟨rfl, rfl⟩⟩
  legacy w x h := ⟨w, lkParse h _, rfl⟩
  wsh mall w x ms map sat u m ty csv cltv tx n us h1 h2 h3 h4 h5 h7 h8 h9 h10 := by
    cases (lkParse h1 _).symm.trans h2
    obtain ⟨sig, pre, e1, e2⟩ := lkFind_ok h1 h8 h9 h10
    refine ⟨[sig, pre, w], ?_, by simp, if_pos (.wsh w sig pre u m ty _ _ tx n us h3 h5 h7 e2)⟩
    show (lkFind sat w).map _ = _
    rw [e1]; rfl
  shWsh mall w x ms map sat u r m ty csv cltv tx n us h1 h2 h3 h3' h4 h5 h7 h8 h9 h10 := by
    cases (lkParse h1 _).symm.trans h2
    obtain ⟨sig, pre, e1, e2⟩ := lkFind_ok h1 h8 h9 h10
    refine ⟨[sig, pre, w], ?_, by simp, if_pos (.shWsh w sig pre u r m ty _ _ tx n us h3 h3' h5 h7 e2)⟩
    show (lkFind sat w).map _ = _
    rw [e1, h3']; rfl
  sh mall r x ms sat u m ty csv cltv tx n us h1 h2 h3 h4 h5 h7 h8 h9 h10 := by
    cases (lkParse h1 _).symm.trans h2
    obtain ⟨sig, pre, e1, e2⟩ := lkFind_ok h1 h8 h9 h10
    refine ⟨push sig ++ push pre ++ push r, ?_, by simp [push], if_pos (.sh r sig pre u m ty _ _ tx n us h3 h5 h7 e2)⟩
    show (lkFind sat r).map _ = _
    rw [e1]; rfl

/-- The secret, its hash, and the script that takes it, the second signer's signature, height 90 and an age of 3 blocks. -/
def lkPre : Bytes := List.replicate 32 6
def lkHash : FixedBytes 32 := gL.sha256 lkPre
def lkLock : AbsLock := .blocks ⟨90, by decide⟩
def lkBoth : Bytes := lkScript (mPub 4) lkHash [lkLock] [.blocks 3]
def lkWsh : Bytes := [0x00, 0x20] ++ (gL.sha256 lkBoth).1
def lkIn (spk : Bytes) : Input gL := { mIn spk with sha256Preimages := BMap.empty.insert lkHash lkPre }
/-- A taproot output with the script in a leaf. -/
def lkTapScript : Bytes := lkLeaf (gX 4) lkHash [lkLock] [.blocks 3]
def lkTr : Input gL :=
  { gIn ([0x51, 0x20] ++ (Demo.rep 32 2).1) with
    sha256Preimages := BMap.empty.insert lkHash lkPre
    tapScripts := BMap.empty.insert (Demo.blk false 1) (lkTapScript, ⟨0xc0, by decide⟩)
    tapKeyOrigins := BMap.empty.insert (gX 4) ([leafHash gL lkTapScript], (Demo.rep 4 3, [7])) }
/-- The script in four kinds of outputs, and an output that one signer can spend. The transaction has height 100, its inputs
an age of 5 blocks. -/
def lkP : Psbt gL :=
  let is : List (Input gL) := [
    { lkIn lkWsh with witnessScript := some lkBoth },
    { lkIn ([0xa9, 0x14] ++ (gL.hash160 lkWsh).1 ++ [0x87]) with redeemScript := some lkWsh, witnessScript := some lkBoth },
    { lkIn ([0xa9, 0x14] ++ (gL.hash160 lkBoth).1 ++ [0x87]) with redeemScript := some lkBoth },
    mIn ([0x00, 0x14] ++ (gL.hash160 (mPub 4).bytes).1), lkTr]
  { gP is with unsignedTx := ⟨2, 100, is.map fun _ => ⟨⟨Demo.rep 32 7, 0⟩, [], 5, []⟩, [⟨500, [0x51]⟩]⟩ }

theorem lkSound : Sound lkP := by
  refine ⟨rfl, indicesInRange_iff.mpr fun n t i hi hd => ?_⟩
  obtain ⟨tx, h1, h2, -⟩ := hd
  have h : ∀ i ∈ lkP.inputs, i.nonWitnessUtxo = none := by decide
  have := h i (List.mem_of_getElem? hi.2)
  simp_all

theorem lkMeets {i : Input gL} (h : i.bip32Derivation = (mIn []).bip32Derivation) (hs : i.sha256Preimages = (lkIn []).sha256Preimages)
    {t : TxIn} (ht : t.sequence = 5) : Meets (Someone gS [gKeys, pbKeys] i) lkP.unsignedTx t i (lkDemands (mPub 4) lkHash [lkLock] [.blocks 3]) where
  keys pk hpk := mSomeone h pk (by simp_all [lkDemands])
  sha256 y hy := by
    simp only [lkDemands, List.mem_cons, List.not_mem_nil, or_false] at hy
    subst hy
    exact ⟨lkPre, by rw [hs]; exact BMap.get_insert_self .., by decide⟩
  hash256 y hy := by cases hy
  hash160 y hy := by cases hy
  ripemd160 y hy := by cases hy
  after l hl := by
    simp only [lkDemands, List.mem_cons, List.not_mem_nil, or_false] at hl
    subst hl
    rw [ht]
    exact ⟨by decide, by decide, by decide⟩
  older l hl := by
    simp only [lkDemands, List.mem_cons, List.not_mem_nil, or_false] at hl
    subst hl
    rw [ht]
    exact ⟨⟨by decide, by decide, by decide, by decide⟩, by decide⟩

theorem lkRight {i : Input gL} (h1 : i.sha256Preimages = (lkIn []).sha256Preimages) (h2 : i.hash256Preimages = .empty) (h3 : i.hash160Preimages = .empty)
    (h4 : i.ripemd160Preimages = .empty) : RightPreimages i where
  sha256 y b h := by
    rw [h1] at h
    simp only [lkIn, BMap.get_insert, BMap.get_empty] at h
    split at h
    · rename_i e; cases h; exact e.symm
    · cases h
  hash256 y b h := by rw [h2, BMap.get_empty] at h; cases h
  hash160 y b h := by rw [h3, BMap.get_empty] at h; cases h
  ripemd160 y b h := by rw [h4, BMap.get_empty] at h; cases h

theorem lkTr_leaf : LockedLeaf gS (fun kp => Demo.rep 32 kp.2) lkLeafEnough lkProves [gKeys, pbKeys] lkP 4
    ⟨⟨Demo.rep 32 7, 0⟩, [], 5, []⟩ lkTr ⟨1000, [0x51, 0x20] ++ (Demo.rep 32 2).1⟩ where
  input := ⟨rfl, rfl⟩
  funded := .witness rfl
  unsigned := ⟨rfl, rfl⟩
  message := by
    cases h : lkP.sighashTaproot 4 lkP.unsignedTx none with
    | error e =>
      have : (match lkP.sighashTaproot 4 lkP.unsignedTx none with | .ok _ => true | .error _ => false) = true := by decide +kernel
      rw [h] at this; cases this
    | ok x => exact ⟨_, _, (sighashTaproot_iff lkSound.2).mp h⟩
  right := lkRight rfl rfl rfl rfl
  scripts cb s h := by
    simp only [lkTr, BMap.get_insert, BMap.get_empty] at h
    split at h
    · cases h; exact ⟨⟨Demo.rep 32 2, rfl⟩, _, _, _, _, _, rfl, rfl⟩
    · cases h
  one := by
    refine ⟨Demo.blk false 1, lkTapScript, _, BMap.get_insert_self .., ⟨_, _, _, _, rfl, rfl⟩, ?_, ?_, ?_, ?_, ?_, ?_, ?_⟩
    · intro k hk
      simp only [List.mem_cons, List.not_mem_nil, or_false] at hk
      subst hk
      exact ⟨pbKeys, by simp, by decide +kernel⟩
    · intro y hy
      simp only [List.mem_cons, List.not_mem_nil, or_false] at hy
      subst hy
      exact ⟨lkPre, BMap.get_insert_self .., by decide⟩
    · intro y hy; cases hy
    · intro y hy; cases hy
    · intro y hy; cases hy
    · intro l hl
      simp only [List.mem_cons, List.not_mem_nil, or_false] at hl
      subst hl
      exact ⟨by decide, by decide, by decide⟩
    · intro l hl
      simp only [List.mem_cons, List.not_mem_nil, or_false] at hl
      subst hl
      exact ⟨⟨by decide, by decide, by decide, by decide⟩, by decide⟩
  leafKeys k hk x lh sk h := by
    unfold leafKey at h
    simp only [lkTr, BMap.get_insert, BMap.get_empty] at h
    by_cases hx : x = gX 4
    · subst hx
      simp only [List.mem_cons, List.not_mem_nil, or_false] at hk
      rcases hk with rfl | rfl
      · have : answer (gKeys (.bip32 (Demo.rep 4 3, [7]))) = none := by decide +kernel
        simp [gIn, Input.default, BMap.get_empty, this] at h
      · have : answer (pbKeys (.bip32 (Demo.rep 4 3, [7]))) = some (4 : UInt8) := rfl
        simp only [gIn, Input.default, BMap.get_empty, this, if_true] at h
        have key : ∀ (c : Prop) (d : Decidable c) (b : UInt8), (@ite _ c d (some (4 : UInt8)) none) = some b → b = 4 := by
          intro c d b h
          cases d
          · cases h
          · cases h; rfl
        cases key _ _ _ h
        rfl
    · simp [gIn, Input.default, BMap.get_empty, hx] at h
  pathKeys k hk sk h := by
    unfold keyPathKey at h
    simp [lkTr, gIn, Input.default] at h

theorem lkP_inputs : ∀ n < lkP.inputs.length, CanSpendLocked gS lkEnough (fun kp => Demo.rep 32 kp.2) lkLeafEnough lkProves
    (fun _ _ => False) (fun _ _ _ => False) [gKeys, pbKeys] lkP n := by
  intro n hn
  have hn : n < 5 := hn
  have hall : ∀ {i : Input gL}, i.sighashType = none → Spec.V0.DeclaredType i ⟨1, by decide⟩ := fun h => .inl ⟨h, rfl⟩
  have hen : ∀ {c : MsCtx}, c ≠ .bare → lkEnough c lkBoth (lkDemands (mPub 4) lkHash [lkLock] [.blocks 3]) := fun h => ⟨h, _, _, _, _, rfl, rfl⟩
  match n, hn with
  | 0, _ =>
    exact .locked ⟨rfl, rfl⟩ (.witness rfl) rfl (hall rfl) (lkRight rfl rfl rfl rfl)
      (.wsh (w := lkBoth) rfl rfl rfl (hen (by decide)) (by apply lkMeets <;> rfl))
  | 1, _ =>
    exact .locked ⟨rfl, rfl⟩ (.witness rfl) rfl (hall rfl) (lkRight rfl rfl rfl rfl)
      (.shWsh (r := lkWsh) (w := lkBoth) rfl rfl rfl rfl (hen (by decide)) (by apply lkMeets <;> rfl))
  | 2, _ =>
    have hl : lkBoth.length = 75 := by decide +kernel
    exact .locked ⟨rfl, rfl⟩ (.witness rfl) rfl (hall rfl) (lkRight rfl rfl rfl rfl)
      (.sh (r := lkBoth) rfl rfl
        (by rintro ⟨h, e⟩; have := congrArg List.length e; simp [hl, h.2] at this)
        (by rintro ⟨h, e⟩; have := congrArg List.length e; simp [hl, h.2] at this) rfl (hen (by decide)) (by apply lkMeets <;> rfl))
  | 3, _ => exact .known (.known (.ecdsa ⟨rfl, rfl⟩ (.witness rfl) rfl (hall rfl) (.wpkh (pk := mPub 4) ⟨rfl, rfl⟩ (mSomeone rfl _ (by simp)))))
  | 4, _ => exact .leaf lkTr_leaf

example : ∃ q r tx, Spec.V0.signInTurn gS lkP [gKeys, pbKeys] = .ok q ∧ q.finalizeMut lkM false = .ok (r, []) ∧ r.extract lkM = .ok tx ∧
    tx.lockTime = 100 ∧ tx.input.length = 5 := by
  obtain ⟨q, r, tx, h1, h2, h3, -, h4, -, h5, -⟩ := C125_completed lkM_laws lkM_scripts lkM_leaves lkM_locks lkM_leafLocks lkSound (by decide) lkP_inputs false
  exact ⟨q, r, tx, h1, h2, h3, h4, h5⟩
example : ∃ q r tx, Spec.V0.afterSession gS lkP seB' = some q ∧ q.finalizeMut lkM false = .ok (r, []) ∧ r.extract lkM = .ok tx ∧
    tx.lockTime = 100 ∧ tx.input.length = 5 := by
  obtain ⟨q, r, tx, h1, h2, h3, -, h4, -, h5, -⟩ := C125_session (s := seB') pb_deterministic lkM_laws lkM_scripts lkM_leaves lkM_locks lkM_leafLocks lkSound
    (by decide) lkP_inputs (by decide +kernel) (by
      intro a ha b hb
      simp only [seB', Session.signers, List.nil_append, List.cons_append, List.mem_cons, List.not_mem_nil, or_false] at ha hb
      rcases ha with rfl | rfl <;> rcases hb with rfl | rfl
      · exact agrees_self _
      · exact pb_agree
      · exact agrees_symm pb_agree
      · exact agrees_self _) false
  exact ⟨q, r, tx, h1, h2, h3, h4, h5⟩
end Examples

end Psbt.V0
