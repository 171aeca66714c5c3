/- C79: several signers of one PSBT v0, in turn or in parallel with a combiner. -/
import Verif.Lemmas.V0Parallel
namespace Psbt.V0
open Psbt

variable {L : Lib} {S : SigLib L}

theorem psbt_ext {p a : Psbt L} (h : Spec.V0.erase a = Spec.V0.erase p) (hi : a.inputs = p.inputs) : a = p := by
  obtain ⟨a1, a2, a3, a4, a5, a6, a7⟩ := a
  obtain ⟨p1, p2, p3, p4, p5, p6, p7⟩ := p
  simp only at hi
  subst hi
  simp only [Spec.V0.erase, Psbt.mk.injEq] at h ⊢
  simp only [h, and_self]

theorem inRange_congr {p a : Psbt L} (h : Spec.V0.erase a = Spec.V0.erase p) (hr : Spec.V0.IndicesInRange p) :
    Spec.V0.IndicesInRange a := by
  intro k t i tx h1 h2
  have hi := input_congr h k
  rw [h2] at hi
  cases hp : p.inputs[k]? with
  | none => rw [hp] at hi; cases hi
  | some j =>
    rw [hp] at hi
    simp only [Option.map_some, Option.some.injEq] at hi
    rw [erased_eq hi]
    rw [tx_congr h] at h1
    exact hr k t j tx h1 hp

theorem sign_runs {p a b : Psbt L} {k : Provider S} {r} (he : Spec.V0.erase a = Spec.V0.erase p) (h : p.sign S k = .ok (b, r)) :
    ∃ ab r', a.sign S k = .ok (ab, r') := by
  cases e : a.sign S k with
  | ok x => exact ⟨x.1, x.2, rfl⟩
  | error x =>
    cases x with
    | err x => exact x.elim
    | panic s => exact absurd (inRange_congr he (sign_inRange h)) ((C50_panics_iff a k).mp ⟨s, e⟩)

theorem err_congr {p a b ab : Psbt L} {ka kb : Provider S} {ra rb r} (ha : p.sign S ka = .ok (a, ra)) (hb : p.sign S kb = .ok (b, rb))
    (hab : a.sign S kb = .ok (ab, r)) (n : Nat) : (Spec.V0.errorsReported r).get n = (Spec.V0.errorsReported rb).get n := by
  have he := C50_frame ha
  have h1 := (sign_spec hb).2.2.2 n
  have h2 := (sign_spec hab).2.2.2 n
  rw [length_congr he] at h2
  split at h1
  · rename_i hn
    rw [if_pos hn] at h2
    rw [h1.2.2, h2.2.2, tx_congr he]
    by_cases hsame : a.inputs[n]? = p.inputs[n]?
    · rw [outcome_congr he hsame]
    · have hi : p.inputs[n]? = some (p.inputs[n]) := List.getElem?_eq_getElem hn
      obtain ⟨j, hj, hadd⟩ := sign_input ha hi
      by_cases hs : p.signingAlgorithm n = .ok .schnorr
      · obtain ⟨t, i', u, g1, g2, g3⟩ := spends_of_schnorr hs
        have : i' = p.inputs[n] := by have := g1.2; rw [hi] at this; exact (Option.some.inj this).symm
        subst this
        have hr := sign_inRange hb
        have hex : ∀ leaf, ∃ m ty, Spec.V0.TapSigns p n leaf m ty := by
          refine Classical.byContradiction fun hno => hsame ?_
          have hno' : ∀ leaf x, p.sighashTaproot n p.unsignedTx leaf ≠ .ok x := by
            intro leaf x hx
            apply hno
            intro leaf'
            obtain ⟨y, hy⟩ := sighashTaproot_leaf leaf leaf' ⟨x, hx⟩
            exact ⟨y.1, y.2, (sighashTaproot_iff hr).mp hy⟩
          have hE : ∀ pk, freshE S ka p n pk = none := by intro pk; unfold freshE; simp only [hi, hs]
          have := Adds.unique hadd (Adds.none hE (freshK_none hno') (freshF_none hno'))
          rw [hj, hi, this]
        have fin : ∀ {x y : Psbt L} {rx}, Spec.V0.erase x = Spec.V0.erase p → x.sign S kb = .ok (y, rx) →
            (outcome S kb p.unsignedTx x n).err = none := by
          intro x y rx hx hsg
          have hxs : x.signingAlgorithm n = .ok .schnorr := by rw [algorithm_congr hx, hs]
          obtain ⟨t', i', u', k1, k2, k3⟩ := spends_of_schnorr hxs
          have hsp := (sign_spec hsg).2.2.2 n
          rw [length_congr hx, if_pos hn, tx_congr hx] at hsp
          rcases C50_schnorr hsg k1 ⟨t', i', u', k1, k2, k3⟩ with ⟨-, -, hk⟩ | ⟨⟨leaf, -, hno⟩, -, -⟩
          · rw [hsp.2.1] at hk
            cases ho : outcome S kb p.unsignedTx x n with
            | signed _ _ => rfl
            | panic _ => rfl
            | fail _ => rw [ho] at hk; cases hk
          · obtain ⟨m, ty, hm⟩ := hex leaf
            exfalso
            refine hno m ty ((sighashTaproot_iff (sign_inRange hsg)).mp ?_)
            rw [tx_congr hx, taproot_congr hx]
            exact (sighashTaproot_iff hr).mpr hm
        rw [fin he hab, fin rfl hb]
      · have : Spec.V0.eraseInput j = Spec.V0.eraseInput p.inputs[n] := hadd.rest
        unfold outcome
        simp only [algorithm_congr he, ecdsa_congr he, hj, hi, keysFor_congr this]
        cases e : p.signingAlgorithm n with
        | error x => cases x <;> rfl
        | ok al =>
          cases al with
          | schnorr => exact absurd e hs
          | ecdsa =>
            simp only
            cases p.sighashEcdsa n p.unsignedTx with
            | ok x => rfl
            | error x =>
              cases x with
              | panic s => rfl
              | err x => simp only; split <;> rfl
  · rename_i hn
    rw [if_neg hn] at h2
    rw [h1.2, h2.2]

/-- C79. A signer is not disturbed by an earlier one: who signs after `ka` reports errors for the very inputs, and the very
errors, that signing the original gives, and it never panics because of the earlier signer. -/
theorem C79_report {p a b : Psbt L} {ka kb : Provider S} {ra rb} (ha : p.sign S ka = .ok (a, ra)) (hb : p.sign S kb = .ok (b, rb)) :
    ∃ ab r, a.sign S kb = .ok (ab, r) ∧ Spec.V0.errorsReported r = Spec.V0.errorsReported rb := by
  obtain ⟨ab, r, h⟩ := sign_runs (C50_frame ha) hb
  exact ⟨ab, r, h, BMap.ext_get fun n => err_congr ha hb h n⟩

theorem combine_erased {p a b : Psbt L} (ha : Spec.V0.erase a = Spec.V0.erase p) (hb : Spec.V0.erase b = Spec.V0.erase p) :
    ∃ c, a.combine b = (c, .ok ()) ∧ Spec.V0.erase c = Spec.V0.erase p ∧
      ∀ (n : Nat) (i j : Input L), a.inputs[n]? = some i → b.inputs[n]? = some j →
        c.inputs[n]? = some { i with
          partialSigs := i.partialSigs.extend j.partialSigs
          tapKeySig := i.tapKeySig.or j.tapKeySig
          tapScriptSigs := i.tapScriptSigs.extend j.tapScriptSigs } := by
  have hab : Spec.V0.erase a = Spec.V0.erase b := ha.trans hb.symm
  have hl := length_congr hab
  have merge_eq : ∀ i j : Input L, Spec.V0.eraseInput i = Spec.V0.eraseInput j → i.combine j = { i with
      partialSigs := i.partialSigs.extend j.partialSigs
      tapKeySig := i.tapKeySig.or j.tapKeySig
      tapScriptSigs := i.tapScriptSigs.extend j.tapScriptSigs } := by
    intro i j h
    have e := erased_eq h.symm
    conv => lhs; rw [e]
    simp only [Input.combine, V2.combOpt_self, V2.combUtxos_self, BMap.extend_self, V2.combOpt_eq]
  have hc : ∀ (n : Nat) (i j : Input L), a.inputs[n]? = some i → b.inputs[n]? = some j →
      (combineZip Input.combine a.inputs b.inputs)[n]? = some { i with
          partialSigs := i.partialSigs.extend j.partialSigs
          tapKeySig := i.tapKeySig.or j.tapKeySig
          tapScriptSigs := i.tapScriptSigs.extend j.tapScriptSigs } := by
    intro n i j hi hj
    rw [combineZip_getElem?, hi, hj]
    simp only [Option.some.injEq]
    apply merge_eq
    have := input_congr hab n
    rw [hi, hj] at this
    simpa using this
  have hx : a.xpub = b.xpub := by
    have : (Spec.V0.erase a).xpub = (Spec.V0.erase b).xpub := by rw [hab]
    exact this
  have hp : a.proprietary = b.proprietary := by
    have : (Spec.V0.erase a).proprietary = (Spec.V0.erase b).proprietary := by rw [hab]
    exact this
  have hu : a.unknown = b.unknown := by
    have : (Spec.V0.erase a).unknown = (Spec.V0.erase b).unknown := by rw [hab]
    exact this
  have ho : a.outputs = b.outputs := by
    have : (Spec.V0.erase a).outputs = (Spec.V0.erase b).outputs := by rw [hab]
    exact this
  have hv : a.version = b.version := by
    have : (Spec.V0.erase a).version = (Spec.V0.erase b).version := by rw [hab]
    exact this
  refine ⟨{ a with inputs := combineZip Input.combine a.inputs b.inputs }, combine_ok.mpr ⟨tx_congr hab, ?_, ?_⟩, ?_, hc⟩
  · intro x; rw [hx]; exact V2.mergeOpt_self _
  · rw [← hp, ← hu, ← ho, ← hv, vmax_self, combineZip_self Output.combine_self]
    simp only [BMap.extend_self]
  · rw [← ha]
    unfold Spec.V0.erase
    simp only [Psbt.mk.injEq, true_and, and_true]
    apply List.ext_getElem?
    intro n
    rw [List.getElem?_map, List.getElem?_map]
    cases hi : a.inputs[n]? with
    | none =>
      have : (combineZip Input.combine a.inputs b.inputs)[n]? = none := by
        rw [List.getElem?_eq_none_iff, combineZip_length, ← List.getElem?_eq_none_iff]; exact hi
      rw [this]
    | some i =>
      have hn := (List.getElem?_eq_some_iff.mp hi).1
      rw [hc n i _ hi (List.getElem?_eq_getElem (by omega))]
      rfl

/-- Inputs of PSBTs that differ in signatures only. -/
theorem input_exists {p x : Psbt L} (hx : Spec.V0.erase x = Spec.V0.erase p) {n : Nat} {i : Input L} (hi : p.inputs[n]? = some i) :
    ∃ j, x.inputs[n]? = some j := by
  have := length_congr hx
  exact ⟨_, List.getElem?_eq_getElem (by rw [this]; exact (List.getElem?_eq_some_iff.mp hi).1)⟩

theorem input_none {p x : Psbt L} (hx : Spec.V0.erase x = Spec.V0.erase p) {n : Nat} (hi : p.inputs[n]? = none) : x.inputs[n]? = none := by
  rw [List.getElem?_eq_none_iff, length_congr hx, ← List.getElem?_eq_none_iff]; exact hi

theorem freshE_some {p : Psbt L} {k : Provider S} {n : Nat} {i : Input L} {pk : L.pubkey.T} (hi : p.inputs[n]? = some i)
    (h : freshE S k p n pk ≠ none) : pk ∈ (Spec.V0.keysFor S k i).map S.pub := by
  unfold freshE at h
  rw [hi] at h
  simp only at h
  split at h
  · rename_i m ty _ _
    refine Classical.byContradiction fun hk => h ?_
    exact (V2.addSigs_none (m := m) (ty := ty) _ pk).mpr hk
  · exact absurd rfl h

theorem freshE_none {p : Psbt L} {k k' : Provider S} {n : Nat} {i : Input L} {pk : L.pubkey.T} (hi : p.inputs[n]? = some i)
    (h : freshE S k p n pk = none) (hm : pk ∈ (Spec.V0.keysFor S k i).map S.pub) : freshE S k' p n pk = none := by
  unfold freshE at h ⊢
  rw [hi] at h ⊢
  simp only at h ⊢
  split at h
  · rename_i m ty _ _
    exact absurd hm ((V2.addSigs_none (m := m) (ty := ty) _ pk).mp h)
  · rfl

/-- C79. Two signers work on copies of one PSBT and a combiner puts the copies together. That always succeeds, whatever the
signers reported, and it gives what the second signer would have made of the first one's PSBT, with two exceptions: an
ECDSA signature of the original that the first signer replaced with a different one and the second did not; and a leaf
that both signed, differently. -/
theorem C79_combine_iff {p a b ab : Psbt L} {ka kb : Provider S} {ra rb r} (ha : p.sign S ka = .ok (a, ra))
    (hb : p.sign S kb = .ok (b, rb)) (hab : a.sign S kb = .ok (ab, r)) :
    (a.combine b).2 = .ok () ∧
    ((a.combine b).1 = ab ↔
      (∀ (n : Nat) (i j : Input L) pk s, p.inputs[n]? = some i → a.inputs[n]? = some j → i.partialSigs.get pk = some s →
        j.partialSigs.get pk = some s ∨ pk ∈ (Spec.V0.keysFor S kb i).map S.pub) ∧
      Spec.V0.SameLeafSigs a b) := by
  have ea := C50_frame ha
  have eb := C50_frame hb
  have eab := (C50_frame hab).trans ea
  obtain ⟨c, hc, ec, ic⟩ := combine_erased ea eb
  rw [hc]
  refine ⟨rfl, ?_⟩
  have look : ∀ (n : Nat) (i : Input L), p.inputs[n]? = some i → ∃ ia ib iab, a.inputs[n]? = some ia ∧ b.inputs[n]? = some ib ∧
      ab.inputs[n]? = some iab ∧ Adds (freshE S ka p n) (freshK S ka p n) (freshF S ka p n) i ia ∧
      Adds (freshE S kb p n) (freshK S kb p n) (freshF S kb p n) i ib ∧
      Adds (freshE S kb p n) (freshK S kb p n) (freshF S kb p n) ia iab := by
    intro n i hi
    obtain ⟨ia, h1, g1⟩ := sign_input ha hi
    obtain ⟨ib, h2, g2⟩ := sign_input hb hi
    obtain ⟨iab, h3, g3⟩ := sign_input hab h1
    refine ⟨ia, ib, iab, h1, h2, h3, g1, g2, ?_⟩
    have e1 : freshE S kb a n = freshE S kb p n := funext fun pk => freshE_congr ea n pk
    have e2 : freshF S kb a n = freshF S kb p n := funext fun x => funext fun lh => freshF_congr ea n x lh
    rwa [e1, e2, freshK_congr ea] at g3
  constructor
  · intro e
    simp only at e
    subst e
    constructor
    · intro n i j pk s hi hj hg
      obtain ⟨ia, ib, iab, h1, h2, h3, g1, g2, g3⟩ := look n i hi
      rw [hj] at h1; cases h1
      have h4 := ic n _ _ hj h2
      rw [h3] at h4
      have h4 := congrArg (fun i : Input L => i.partialSigs.get pk) (Option.some.inj h4)
      simp only [BMap.get_extend] at h4
      rw [g3.ecdsa, g2.ecdsa, hg] at h4
      cases hf : freshE S kb p n pk with
      | none => rw [hf] at h4; exact .inl (by simpa using h4)
      | some x => exact .inr (freshE_some hi (by rw [hf]; simp))
    · intro n ia ib x s s' hia hib hs hs'
      obtain ⟨i, hi⟩ := input_exists ea.symm hia
      obtain ⟨ia', ib', iab, h1, h2, h3, g1, g2, g3⟩ := look n i hi
      rw [hia] at h1; cases h1
      rw [hib] at h2; cases h2
      have h4 := ic n _ _ hia hib
      rw [h3] at h4
      have h4 := congrArg (fun i : Input L => i.tapScriptSigs.get x) (Option.some.inj h4)
      simp only [BMap.get_extend] at h4
      rw [g3.leaf x.1 x.2, hs, hs'] at h4
      simpa using h4
  · rintro ⟨hE, hF⟩
    refine psbt_ext (ec.trans eab.symm) ?_
    apply List.ext_getElem?
    intro n
    cases hi : p.inputs[n]? with
    | none => rw [input_none ec hi, input_none eab hi]
    | some i =>
      obtain ⟨ia, ib, iab, h1, h2, h3, g1, g2, g3⟩ := look n i hi
      rw [ic n _ _ h1 h2, h3]
      congr 1
      have : iab = { ia with partialSigs := iab.partialSigs, tapKeySig := iab.tapKeySig, tapScriptSigs := iab.tapScriptSigs } :=
        erased_eq g3.rest
      rw [this]
      have e1 : ia.partialSigs.extend ib.partialSigs = iab.partialSigs := by
        apply BMap.ext_get
        intro pk
        rw [BMap.get_extend, g3.ecdsa, g2.ecdsa]
        cases hf : freshE S kb p n pk with
        | some x => simp
        | none =>
          simp only [Option.none_or]
          cases hg : i.partialSigs.get pk with
          | none => simp
          | some s =>
            simp only [Option.some_or]
            rcases hE n i ia pk s hi h1 hg with h4 | h4
            · exact h4.symm
            · rw [g1.ecdsa, freshE_none hi hf h4, hg]; rfl
      have e2 : ia.tapKeySig.or ib.tapKeySig = iab.tapKeySig := by
        rw [g3.key, g2.key, g1.key]
        cases i.tapKeySig <;> cases freshK S ka p n <;> simp
      have e3 : ia.tapScriptSigs.extend ib.tapScriptSigs = iab.tapScriptSigs := by
        apply BMap.ext_get
        rintro ⟨x, lh⟩
        rw [BMap.get_extend, g3.leaf]
        have hs := hF n ia ib (x, lh)
        cases hA : ia.tapScriptSigs.get (x, lh) with
        | some s =>
          cases hB : ib.tapScriptSigs.get (x, lh) with
          | none => simp
          | some s' => rw [hs s s' h1 h2 hA hB]; simp
        | none =>
          rw [g2.leaf]
          rw [g1.leaf] at hA
          cases hg : i.tapScriptSigs.get (x, lh) with
          | some s => rw [hg] at hA; simp at hA
          | none => simp
      rw [e1, e2, e3]

/-- What a signer that signs after others adds to an input of `p`. -/
theorem sign_input_congr {p a ab : Psbt L} {k : Provider S} {r} (ea : Spec.V0.erase a = Spec.V0.erase p) (h : a.sign S k = .ok (ab, r))
    {n : Nat} {i : Input L} (hi : a.inputs[n]? = some i) :
    ∃ j, ab.inputs[n]? = some j ∧ Adds (freshE S k p n) (freshK S k p n) (freshF S k p n) i j := by
  obtain ⟨j, h3, g3⟩ := sign_input h hi
  refine ⟨j, h3, ?_⟩
  have e1 : freshE S k a n = freshE S k p n := funext fun pk => freshE_congr ea n pk
  have e2 : freshF S k a n = freshF S k p n := funext fun x => funext fun lh => freshF_congr ea n x lh
  rwa [e1, e2, freshK_congr ea] at g3

theorem fresh_agreeE (hd : Spec.Deterministic S) {p : Psbt L} {ka kb : Provider S} {n : Nat} {pk : L.pubkey.T} (s s' : EcdsaSig L)
    (h : freshE S ka p n pk = some s) (h' : freshE S kb p n pk = some s') : s = s' := by
  unfold freshE at h h'
  cases hi : p.inputs[n]? with
  | none => rw [hi] at h; cases h
  | some i =>
    rw [hi] at h h'
    simp only at h h'
    split at h
    · rename_i m ty h1 h2
      rw [h1, h2] at h'
      simp only at h'
      by_cases m1 : pk ∈ (Spec.V0.keysFor S ka i).map S.pub
      · by_cases m2 : pk ∈ (Spec.V0.keysFor S kb i).map S.pub
        · obtain ⟨s1, -, e1, g1⟩ := V2.addSigs_mem (m := m) (ty := ty) _ BMap.empty m1
          obtain ⟨s2, -, e2, g2⟩ := V2.addSigs_mem (m := m) (ty := ty) _ BMap.empty m2
          rw [g1, Option.some.injEq] at h
          rw [g2, Option.some.injEq] at h'
          rw [← h, ← h', hd m s1 s2 (e1.trans e2.symm)]
        · rw [(V2.addSigs_none _ _).mpr m2] at h'; cases h'
      · rw [(V2.addSigs_none _ _).mpr m1] at h; cases h
    · cases h

theorem fresh_agreeK {p : Psbt L} {ka kb : Provider S} (hk : Spec.V0.AgreeOnKeys S ka kb) {n : Nat} (s s' : TapSig)
    (h : freshK S ka p n = some s) (h' : freshK S kb p n = some s') : s = s' := by
  unfold freshK at h h'
  cases hi : p.inputs[n]? with
  | none => rw [hi] at h; cases h
  | some i =>
    rw [hi] at h h'
    simp only at h h'
    split at h
    · rename_i m ty h1
      rw [h1] at h'
      simp only [Option.map_eq_some_iff] at h h'
      obtain ⟨sk, e, rfl⟩ := h
      obtain ⟨sk', e', rfl⟩ := h'
      unfold Spec.V0.keyPathKey at e e'
      generalize Spec.V0.eraseInput i = i' at e e'
      split at e
      · rename_i x hx1 hx2
        simp only [hx1, hx2] at e'
        split at e
        · rename_i ks hg
          simp only [hg] at e'
          rw [hk ks sk sk' e e']
        · cases e
      · cases e
    · cases h

theorem fresh_agreeF {p : Psbt L} {ka kb : Provider S} (hk : Spec.V0.AgreeOnKeys S ka kb) {n : Nat} {x : L.xonly.T} {lh : Hash32}
    (s s' : TapSig) (h : freshF S ka p n x lh = some s) (h' : freshF S kb p n x lh = some s') : s = s' := by
  unfold freshF at h h'
  cases hi : p.inputs[n]? with
  | none => rw [hi] at h; cases h
  | some i =>
    rw [hi] at h h'
    simp only at h h'
    split at h
    · rename_i m ty h1
      rw [h1] at h'
      simp only [Option.map_eq_some_iff] at h h'
      obtain ⟨sk, e, rfl⟩ := h
      obtain ⟨sk', e', rfl⟩ := h'
      unfold Spec.V0.leafKey at e e'
      generalize Spec.V0.eraseInput i = i' at e e'
      split at e
      · rename_i lhs ks hx1 hx2
        simp only [hx1, hx2] at e'
        split at e
        · rename_i hin
          simp only [hin, ↓reduceIte] at e'
          rw [hk ks sk sk' e e']
        · cases e
      · cases e
    · cases h

theorem sameLeafSigs {p a b : Psbt L} {ka kb : Provider S} {ra rb} (hk : Spec.V0.AgreeOnKeys S ka kb) (ha : p.sign S ka = .ok (a, ra))
    (hb : p.sign S kb = .ok (b, rb)) : Spec.V0.SameLeafSigs a b := by
  rintro n ia ib ⟨x, lh⟩ s s' hia hib hs hs'
  obtain ⟨i, hi⟩ := input_exists (C50_frame ha).symm hia
  obtain ⟨ia', h1, g1⟩ := sign_input ha hi
  obtain ⟨ib', h2, g2⟩ := sign_input hb hi
  rw [hia] at h1; cases h1
  rw [hib] at h2; cases h2
  rw [g1.leaf] at hs
  rw [g2.leaf] at hs'
  cases hg : i.tapScriptSigs.get (x, lh) with
  | some t =>
    rw [hg] at hs hs'
    rw [Option.some_or, Option.some.injEq] at hs hs'
    rw [← hs, hs']
  | none =>
    rw [hg, Option.none_or] at hs hs'
    exact fresh_agreeF hk _ _ hs hs'

/-- Taproot signatures of `p` are all in `a`. -/
def KeepsTaproot (p a : Psbt L) : Prop :=
  ∀ (n : Nat) (i j : Input L), p.inputs[n]? = some i → a.inputs[n]? = some j →
    (∀ s, i.tapKeySig = some s → j.tapKeySig = some s) ∧ ∀ x s, i.tapScriptSigs.get x = some s → j.tapScriptSigs.get x = some s

theorem keepsTaproot {p a : Psbt L} {k : Provider S} {r} (h : p.sign S k = .ok (a, r)) : KeepsTaproot p a := by
  intro n i j hi hj
  obtain ⟨j', h1, g1⟩ := sign_input h hi
  rw [hj] at h1; cases h1
  refine ⟨fun s hs => by rw [g1.key, hs]; rfl, ?_⟩
  rintro ⟨x, lh⟩ s hs
  rw [g1.leaf, hs]; rfl

theorem combine_step {p a b ab : Psbt L} {kb : Provider S} {rb r} (ea : Spec.V0.erase a = Spec.V0.erase p)
    (ka : Spec.V0.KeepsSignatures p a) (kb' : Spec.V0.KeepsSignatures p b) (hF : Spec.V0.SameLeafSigs a b) (hT : KeepsTaproot p a)
    (hb : p.sign S kb = .ok (b, rb)) (hab : a.sign S kb = .ok (ab, r)) :
    a.combine b = (ab, .ok ()) ∧ Spec.V0.KeepsSignatures p ab ∧ KeepsTaproot p ab ∧
      ∀ c, Spec.V0.SameLeafSigs a c → Spec.V0.SameLeafSigs b c → Spec.V0.SameLeafSigs ab c := by
  have eb := C50_frame hb
  have eab := (C50_frame hab).trans ea
  obtain ⟨c, hc, ec, ic⟩ := combine_erased ea eb
  have look : ∀ (n : Nat) (i : Input L), p.inputs[n]? = some i → ∃ ia ib iab, a.inputs[n]? = some ia ∧ b.inputs[n]? = some ib ∧
      ab.inputs[n]? = some iab ∧ Adds (freshE S kb p n) (freshK S kb p n) (freshF S kb p n) i ib ∧
      Adds (freshE S kb p n) (freshK S kb p n) (freshF S kb p n) ia iab := by
    intro n i hi
    obtain ⟨ia, h1⟩ := input_exists ea hi
    obtain ⟨ib, h2, g2⟩ := sign_input hb hi
    obtain ⟨iab, h3, g3⟩ := sign_input_congr ea hab h1
    exact ⟨ia, ib, iab, h1, h2, h3, g2, g3⟩
  have leafOf : ∀ {n : Nat} {i ia ib iab : Input L}, Adds (freshE S kb p n) (freshK S kb p n) (freshF S kb p n) i ib →
      Adds (freshE S kb p n) (freshK S kb p n) (freshF S kb p n) ia iab → p.inputs[n]? = some i → a.inputs[n]? = some ia →
      ∀ x, iab.tapScriptSigs.get x = (ia.tapScriptSigs.get x).or (ib.tapScriptSigs.get x) := by
    rintro n i ia ib iab g2 g3 hi h1 ⟨x, lh⟩
    rw [g3.leaf, g2.leaf]
    cases hA : ia.tapScriptSigs.get (x, lh) with
    | some s => simp
    | none =>
      cases hg : i.tapScriptSigs.get (x, lh) with
      | some s => rw [(hT n i ia hi h1).2 _ s hg] at hA; cases hA
      | none => simp
  refine ⟨?_, ?_, ?_, ?_⟩
  · rw [hc]
    refine congrArg (·, _) (psbt_ext (ec.trans eab.symm) ?_)
    apply List.ext_getElem?
    intro n
    cases hi : p.inputs[n]? with
    | none => rw [input_none ec hi, input_none eab hi]
    | some i =>
      obtain ⟨ia, ib, iab, h1, h2, h3, g2, g3⟩ := look n i hi
      rw [ic n _ _ h1 h2, h3]
      congr 1
      have : iab = { ia with partialSigs := iab.partialSigs, tapKeySig := iab.tapKeySig, tapScriptSigs := iab.tapScriptSigs } :=
        erased_eq g3.rest
      rw [this]
      have e1 : ia.partialSigs.extend ib.partialSigs = iab.partialSigs := by
        apply BMap.ext_get
        intro pk
        rw [BMap.get_extend, g3.ecdsa, g2.ecdsa]
        cases hf : freshE S kb p n pk with
        | some x => simp
        | none =>
          simp only [Option.none_or]
          cases hg : i.partialSigs.get pk with
          | none => simp
          | some s => rw [ka n i ia pk s hi h1 hg]; simp
      have e2 : ia.tapKeySig.or ib.tapKeySig = iab.tapKeySig := by
        rw [g3.key, g2.key]
        cases hA : ia.tapKeySig with
        | some s => simp
        | none =>
          cases hg : i.tapKeySig with
          | some s => rw [(hT n i ia hi h1).1 s hg] at hA; cases hA
          | none => simp
      have e3 : ia.tapScriptSigs.extend ib.tapScriptSigs = iab.tapScriptSigs := by
        apply BMap.ext_get
        intro x
        rw [BMap.get_extend, leafOf g2 g3 hi h1]
        have hs := hF n ia ib x
        cases hA : ia.tapScriptSigs.get x with
        | none => simp
        | some s =>
          cases hB : ib.tapScriptSigs.get x with
          | none => simp
          | some s' => rw [hs s s' h1 h2 hA hB]
      rw [e1, e2, e3]
  · intro n i iab pk s hi hiab hg
    obtain ⟨ia, ib, iab', h1, h2, h3, g2, g3⟩ := look n i hi
    rw [hiab] at h3; cases h3
    have k1 := ka n i ia pk s hi h1 hg
    have k2 := kb' n i ib pk s hi h2 hg
    rw [g2.ecdsa, hg] at k2
    rw [g3.ecdsa, k1]
    exact k2
  · intro n i iab hi hiab
    obtain ⟨ia, ib, iab', h1, h2, h3, g2, g3⟩ := look n i hi
    rw [hiab] at h3; cases h3
    obtain ⟨t1, t2⟩ := hT n i ia hi h1
    refine ⟨fun s hs => by rw [g3.key, t1 s hs]; rfl, ?_⟩
    rintro ⟨x, lh⟩ s hs
    rw [g3.leaf, t2 _ s hs]; rfl
  · intro c k1 k2 n iab icc x s s' hiab hic hs hs'
    obtain ⟨i, hi⟩ := input_exists eab.symm hiab
    obtain ⟨ia, ib, iab', h1, h2, h3, g2, g3⟩ := look n i hi
    rw [hiab] at h3; cases h3
    rw [leafOf g2 g3 hi h1] at hs
    cases hA : ia.tapScriptSigs.get x with
    | some t =>
      rw [hA, Option.some_or, Option.some.injEq] at hs
      subst hs
      exact k1 n ia icc x t s' h1 hic hA hs'
    | none =>
      rw [hA, Option.none_or] at hs
      exact k2 n ib icc x s s' h2 hic hs hs'

/-- C79. In particular, for a PSBT without ECDSA signatures and signers whose keys for the same origin agree, combining the
signed copies gives the PSBT signed in turn. -/
theorem C79_combine_unsigned {p a b ab : Psbt L} {ka kb : Provider S} {ra rb r} (hp : ∀ i ∈ p.inputs, i.partialSigs = .empty)
    (hk : Spec.V0.AgreeOnKeys S ka kb) (ha : p.sign S ka = .ok (a, ra)) (hb : p.sign S kb = .ok (b, rb))
    (hab : a.sign S kb = .ok (ab, r)) : a.combine b = (ab, .ok ()) := by
  have := C79_combine_iff ha hb hab
  rw [← this.1, ← this.2.mpr ⟨?_, sameLeafSigs hk ha hb⟩]
  intro n i j pk s hi _ hg
  rw [hp i (List.mem_of_getElem? hi)] at hg
  cases hg

/-- C79. The order of two signers does not matter, provided private keys with the same public key sign alike and the
signers' keys for the same origin agree. -/
theorem C79_order (hd : Spec.Deterministic S) {p a b ab ba : Psbt L} {ka kb : Provider S} {ra rb r r'}
    (hk : Spec.V0.AgreeOnKeys S ka kb) (ha : p.sign S ka = .ok (a, ra)) (hb : p.sign S kb = .ok (b, rb))
    (hab : a.sign S kb = .ok (ab, r)) (hba : b.sign S ka = .ok (ba, r')) : ab = ba := by
  have ea := C50_frame ha
  have eb := C50_frame hb
  have eab := (C50_frame hab).trans ea
  have eba := (C50_frame hba).trans eb
  refine psbt_ext (eab.trans eba.symm) ?_
  apply List.ext_getElem?
  intro n
  cases hi : p.inputs[n]? with
  | none => rw [input_none eab hi, input_none eba hi]
  | some i =>
    obtain ⟨ia, h1, g1⟩ := sign_input ha hi
    obtain ⟨ib, h2, g2⟩ := sign_input hb hi
    obtain ⟨iab, h3, g3⟩ := sign_input_congr ea hab h1
    obtain ⟨iba, h4, g4⟩ := sign_input_congr eb hba h2
    rw [h3, h4]
    congr 1
    have e1 : iab.partialSigs = iba.partialSigs := by
      apply BMap.ext_get
      intro pk
      rw [g3.ecdsa, g4.ecdsa, g1.ecdsa, g2.ecdsa]
      have := fresh_agreeE hd (p := p) (ka := ka) (kb := kb) (n := n) (pk := pk)
      cases hA : freshE S ka p n pk <;> cases hB : freshE S kb p n pk <;> simp
      rw [hA, hB] at this; exact (this _ _ rfl rfl).symm
    have e2 : iab.tapKeySig = iba.tapKeySig := by
      rw [g3.key, g4.key, g1.key, g2.key]
      have := fresh_agreeK hk (p := p) (n := n)
      cases i.tapKeySig <;> cases hA : freshK S ka p n <;> cases hB : freshK S kb p n <;> simp
      rw [hA, hB] at this; exact this _ _ rfl rfl
    have e3 : iab.tapScriptSigs = iba.tapScriptSigs := by
      apply BMap.ext_get
      rintro ⟨x, lh⟩
      rw [g3.leaf, g4.leaf, g1.leaf, g2.leaf]
      have := fresh_agreeF hk (p := p) (n := n) (x := x) (lh := lh)
      cases i.tapScriptSigs.get (x, lh) <;> cases hA : freshF S ka p n x lh <;> cases hB : freshF S kb p n x lh <;> simp
      rw [hA, hB] at this; exact this _ _ rfl rfl
    have := erased_eq (g3.rest.trans (g1.rest.trans (g2.rest.symm.trans g4.rest.symm)))
    rw [this, e1, e2, e3]

/-- C79. Any number of signers, in any order, produce the same PSBT. -/
theorem C79_any_order (hd : Spec.Deterministic S) {ks ks' : List (Provider S)} (hp : ks.Perm ks')
    (hk : ∀ ka ∈ ks, ∀ kb ∈ ks, Spec.V0.AgreeOnKeys S ka kb) {p q : Psbt L} (h : Spec.V0.signInTurn S p ks = .ok q) :
    Spec.V0.signInTurn S p ks' = .ok q := by
  induction hp generalizing p with
  | nil => exact h
  | cons k _ ih =>
    simp only [Spec.V0.signInTurn] at h ⊢
    cases e : p.sign S k with
    | error x => rw [e] at h; cases h
    | ok x => rw [e] at h; exact ih (fun a ha b hb => hk a (by simp [ha]) b (by simp [hb])) h
  | swap k k' ks =>
    simp only [Spec.V0.signInTurn] at h ⊢
    cases e : p.sign S k' with
    | error x => rw [e] at h; cases h
    | ok x =>
      obtain ⟨a, ra⟩ := x
      rw [e] at h
      simp only at h
      cases e' : a.sign S k with
      | error x => rw [e'] at h; cases h
      | ok x =>
        obtain ⟨ab, rb⟩ := x
        rw [e'] at h
        simp only at h
        obtain ⟨b, rb', hb⟩ := sign_runs (C50_frame e).symm e'
        obtain ⟨ba, rba, hba⟩ := sign_runs (C50_frame hb) e
        rw [hb]
        simp only
        rw [hba]
        simp only
        rwa [← C79_order hd (hk k' (by simp) k (by simp)) e hb e' hba]
  | trans h1 _ ih1 ih2 => exact ih2 (fun a ha b hb => hk a (h1.mem_iff.mpr ha) b (h1.mem_iff.mpr hb)) (ih1 hk h)

theorem copies_aux {p q a : Psbt L} {ks : List (Provider S)} (ea : Spec.V0.erase a = Spec.V0.erase p)
    (ka : Spec.V0.KeepsSignatures p a)
    (hl : ∀ k ∈ ks, ∀ b r, p.sign S k = .ok (b, r) → Spec.V0.SameLeafSigs a b)
    (hl' : ∀ k ∈ ks, ∀ k' ∈ ks, ∀ b r c r', p.sign S k = .ok (b, r) → p.sign S k' = .ok (c, r') → Spec.V0.SameLeafSigs b c)
    (hk : ∀ k ∈ ks, ∀ b r, p.sign S k = .ok (b, r) → Spec.V0.KeepsSignatures p b)
    (hg : KeepsTaproot p a)
    (h : Spec.V0.signInTurn S a ks = .ok q) : Spec.V0.combineCopies S p a ks = some q := by
  induction ks generalizing a with
  | nil => cases h; rfl
  | cons k ks ih =>
    simp only [Spec.V0.signInTurn] at h
    simp only [Spec.V0.combineCopies]
    cases e : a.sign S k with
    | error x => rw [e] at h; cases h
    | ok x =>
      obtain ⟨ab, r⟩ := x
      rw [e] at h
      obtain ⟨b, rb, hb⟩ := sign_runs ea.symm e
      obtain ⟨h1, h2, h3, h4⟩ := combine_step ea ka (hk k (by simp) b rb hb) (hl k (by simp) b rb hb) hg hb e
      rw [hb]
      simp only [h1]
      refine ih ((C50_frame e).trans ea) h2 (fun k' hk' c rc hc => ?_) (fun k1 m1 k2 m2 => hl' k1 (by simp [m1]) k2 (by simp [m2]))
        (fun k hk' => hk k (by simp [hk'])) h3 h
      exact h4 c (hl k' (by simp [hk']) c rc hc) (hl' k (by simp) k' (by simp [hk']) b rb c rc hb hc)

/-- C79. Any number of signers: the first one's copy, combined with the copies of the others one after the other, is what
the signers produce in turn, provided none of them replaces an ECDSA signature of the original with a different one and
no two of them sign the same leaf differently. -/
theorem C79_copies {p q a : Psbt L} {k : Provider S} {ks : List (Provider S)} {r} (ha : p.sign S k = .ok (a, r))
    (hk : ∀ k' ∈ k :: ks, ∀ b r, p.sign S k' = .ok (b, r) → Spec.V0.KeepsSignatures p b)
    (hl : ∀ k1 ∈ k :: ks, ∀ k2 ∈ k :: ks, ∀ b r c r', p.sign S k1 = .ok (b, r) → p.sign S k2 = .ok (c, r') → Spec.V0.SameLeafSigs b c)
    (h : Spec.V0.signInTurn S p (k :: ks) = .ok q) : Spec.V0.combineCopies S p a ks = some q := by
  simp only [Spec.V0.signInTurn, ha] at h
  exact copies_aux (C50_frame ha) (hk k (by simp) a r ha) (fun k' h' b r' hb => hl k (by simp) k' (by simp [h']) a r b r' ha hb)
    (fun k1 m1 k2 m2 => hl k1 (by simp [m1]) k2 (by simp [m2])) (fun k' h' => hk k' (by simp [h'])) (keepsTaproot ha) h

/-! Cases that meet the hypotheses. -/

/-- The second signer, and one that has another key for every origin. -/
def pbKeys : Provider gS := getKeyXpriv gS (0, 3)
def pbOther : Provider gS := fun | .bip32 _ => .ok (some (9 : UInt8)) | .pubkey _ => .ok none
/-- An input both have a key for, and a taproot input: the first has the internal key, the second a key of two leaves. -/
def pbP : Psbt gL := gP [
  { gIn V2.spkWpkh with
    bip32Derivation := (BMap.empty.insert (Demo.val 33 (by decide) 5) gOrigin).insert (Demo.val 33 (by decide) 6) (Demo.rep 4 3, [7]) },
  { gIn V2.spkTr with
    tapInternalKey := some (gX 1)
    tapKeyOrigins := (BMap.empty.insert (gX 1) ([], gOrigin)).insert (gX 2) ([Demo.rep 32 5, Demo.rep 32 6], (Demo.rep 4 3, [7])) }]
def pbSigned (k : Provider gS) (p : Psbt gL) : Psbt gL := match p.sign gS k with | .ok (q, _) => q | _ => p

theorem pb_agree : Spec.V0.AgreeOnKeys gS gKeys pbKeys := by
  rintro ⟨fp, path⟩ sk sk' h h'
  exfalso
  unfold gKeys getKeyXpriv at h
  unfold pbKeys getKeyXpriv at h'
  simp only at h h'
  by_cases h1 : gS.fingerprint (0, 1) = fp
  · by_cases h2 : gS.fingerprint (0, 3) = fp
    · exact absurd (h1.trans h2.symm) (by decide +kernel)
    · rw [if_neg h2] at h'; cases h'
  · rw [if_neg h1] at h; cases h

theorem pb_deterministic : Spec.Deterministic gS := by
  intro m sk sk' h
  have : ∀ a b : UInt8, (Demo.val 33 (by decide) a : gL.pubkey.T) = Demo.val 33 (by decide) b → a = b := by
    intro a b h
    have := congrArg (fun x : gL.pubkey.T => x.bytes[0]?) h
    simpa [Demo.val] using this
  rw [this sk sk' h]

-- Two signers, the second of which signs after the first, and what there is then.
example : ∃ ra rb rab, pbP.sign gS gKeys = .ok (pbSigned gKeys pbP, .ok ra) ∧ pbP.sign gS pbKeys = .ok (pbSigned pbKeys pbP, .ok rb) ∧
    (pbSigned gKeys pbP).sign gS pbKeys = .ok (pbSigned pbKeys (pbSigned gKeys pbP), .ok rab) ∧
    ((pbSigned gKeys pbP).inputs.map fun i => (i.partialSigs.l.length, i.tapKeySig.isSome, i.tapScriptSigs.l.length)) =
      [(1, false, 0), (0, true, 0)] ∧
    ((pbSigned pbKeys pbP).inputs.map fun i => (i.partialSigs.l.length, i.tapKeySig.isSome, i.tapScriptSigs.l.length)) =
      [(1, false, 0), (0, false, 2)] ∧
    ((pbSigned pbKeys (pbSigned gKeys pbP)).inputs.map fun i => (i.partialSigs.l.length, i.tapKeySig.isSome, i.tapScriptSigs.l.length)) =
      [(2, false, 0), (0, true, 2)] ∧
    ∀ i ∈ pbP.inputs, i.partialSigs = .empty :=
  ⟨_, _, _, rfl, rfl, rfl, by decide +kernel, by decide +kernel, by decide +kernel, by decide +kernel⟩
example : Spec.V0.signInTurn gS pbP [gKeys, pbKeys, gKeys] = .ok (pbSigned pbKeys (pbSigned gKeys pbP)) := by decide +kernel

/-- C79 fails without the first exception: the first signer replaces an outdated ECDSA signature; combining with the copy of
the second, who only carries it along, brings it back. -/
theorem C79_stale_counterexample : ∃ (p a b ab : Psbt gL) (ka kb : Provider gS) (ua ub u : BMap Nat (SigningKeys gL)),
    p.sign gS ka = .ok (a, .ok ua) ∧ p.sign gS kb = .ok (b, .ok ub) ∧ a.sign gS kb = .ok (ab, .ok u) ∧
    Spec.V0.AgreeOnKeys gS ka kb ∧ (a.combine b).2 = .ok () ∧ (a.combine b).1 ≠ ab ∧
      ((a.combine b).1.inputs.map fun i => i.partialSigs.get (Demo.val 33 (by decide) 2)) =
        p.inputs.map (fun i => i.partialSigs.get (Demo.val 33 (by decide) 2)) := by
  let old : EcdsaSig gL := ⟨Demo.val 8 (by decide) 9, ⟨0x01, by decide⟩⟩
  let p : Psbt gL := gP [{ gIn V2.spkWpkh with
    bip32Derivation := (BMap.empty.insert (Demo.val 33 (by decide) 5) gOrigin).insert (Demo.val 33 (by decide) 6) (Demo.rep 4 3, [7])
    partialSigs := BMap.empty.insert (Demo.val 33 (by decide) 2) old }]
  exact ⟨p, pbSigned gKeys p, pbSigned pbKeys p, pbSigned pbKeys (pbSigned gKeys p), gKeys, pbKeys, _, _, _, rfl, rfl, rfl, pb_agree,
    rfl, by decide +kernel, by decide +kernel⟩

/-- C79 fails without the second exception: two signers with different keys for the origin of a leaf's key. In turn, the
first one's signature stays; combining keeps the second one's. -/
theorem C79_leaf_counterexample : ∃ (p a b ab : Psbt gL) (ka kb : Provider gS) (ua ub u : BMap Nat (SigningKeys gL)),
    p.sign gS ka = .ok (a, .ok ua) ∧ p.sign gS kb = .ok (b, .ok ub) ∧ a.sign gS kb = .ok (ab, .ok u) ∧
    (∀ i ∈ p.inputs, i.partialSigs = .empty) ∧ (a.combine b).2 = .ok () ∧ (a.combine b).1 ≠ ab :=
  ⟨pbP, pbSigned pbOther pbP, pbSigned pbKeys pbP, pbSigned pbKeys (pbSigned pbOther pbP), pbOther, pbKeys, _, _, _, rfl, rfl, rfl,
    by decide +kernel, rfl, by decide +kernel⟩

end Psbt.V0
