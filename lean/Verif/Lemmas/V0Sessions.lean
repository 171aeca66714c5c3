/- The PSBT at the end of a session, PSBT v0. -/
import Verif.Props.V0Parallel
import Verif.Spec.Sessions
namespace Psbt.V0
open Psbt

variable {L : Lib} {S : SigLib L}

theorem has_one {p : Psbt L} {n : Nat} {x : Spec.V0.SigAt L} {g g' : x.Sig} (h : Spec.V0.HasSig p n x g) (h' : Spec.V0.HasSig p n x g') :
    g = g' := by
  cases x <;>
  · obtain ⟨i, h1, h2⟩ := h
    obtain ⟨j, h3, h4⟩ := h'
    rw [h1] at h3; cases h3
    rw [h2] at h4; exact Option.some.inj h4

theorem has_ext {a b : Psbt L} (he : Spec.V0.erase a = Spec.V0.erase b)
    (hs : ∀ n x g, Spec.V0.HasSig a n x g ↔ Spec.V0.HasSig b n x g) : a = b := by
  refine psbt_ext he (List.ext_getElem? fun n => ?_)
  have hi := input_congr he n
  cases h1 : a.inputs[n]? with
  | none =>
    cases h2 : b.inputs[n]? with
    | none => rfl
    | some j => rw [h1, h2] at hi; cases hi
  | some i =>
    cases h2 : b.inputs[n]? with
    | none => rw [h1, h2] at hi; cases hi
    | some j =>
      rw [h1, h2] at hi
      simp only [Option.map_some, Option.some.injEq] at hi
      have e1 : i.partialSigs = j.partialSigs := by
        apply BMap.ext_get
        intro pk
        apply Option.ext
        intro g
        have := hs n (.ecdsa pk) g
        simpa only [Spec.V0.HasSig, h1, h2, Option.some.injEq, exists_eq_left'] using this
      have e2 : i.tapKeySig = j.tapKeySig := by
        apply Option.ext
        intro g
        have := hs n .keyPath g
        simpa only [Spec.V0.HasSig, h1, h2, Option.some.injEq, exists_eq_left'] using this
      have e3 : i.tapScriptSigs = j.tapScriptSigs := by
        apply BMap.ext_get
        rintro ⟨x, lh⟩
        apply Option.ext
        intro g
        have := hs n (.leaf x lh) g
        simpa only [Spec.V0.HasSig, h1, h2, Option.some.injEq, exists_eq_left'] using this
      rw [erased_eq hi, e1, e2, e3]

theorem has_combine {p a b : Psbt L} (ha : Spec.V0.erase a = Spec.V0.erase p) (hb : Spec.V0.erase b = Spec.V0.erase p)
    (hc : ∀ n x g g', Spec.V0.HasSig a n x g → Spec.V0.HasSig b n x g' → g = g') :
    ∃ c, a.combine b = (c, .ok ()) ∧ Spec.V0.erase c = Spec.V0.erase p ∧
      ∀ n x g, Spec.V0.HasSig c n x g ↔ Spec.V0.HasSig a n x g ∨ Spec.V0.HasSig b n x g := by
  obtain ⟨c, h1, h2, h4⟩ := combine_erased ha hb
  refine ⟨c, h1, h2, fun n x g => ?_⟩
  cases hi : p.inputs[n]? with
  | none =>
    have no : ∀ q : Psbt L, Spec.V0.erase q = Spec.V0.erase p → ¬ Spec.V0.HasSig q n x g := by
      intro q hq h
      cases x <;>
      · obtain ⟨i, h, -⟩ := h
        rw [input_none hq hi] at h; cases h
    simp [no c h2, no a ha, no b hb]
  | some i =>
    obtain ⟨ia, ha⟩ := input_exists ha hi
    obtain ⟨ib, hb⟩ := input_exists hb hi
    have ic := h4 n _ _ ha hb
    have hc := hc n x
    cases x with
    | ecdsa pk =>
      simp only [Spec.V0.HasSig, ha, hb, ic, Option.some.injEq, exists_eq_left', BMap.get_extend] at hc ⊢
      cases ea : ia.partialSigs.get pk with
      | none => simp
      | some x =>
        cases eb : ib.partialSigs.get pk with
        | none => simp
        | some y => simp [hc x y ea eb]
    | keyPath =>
      simp only [Spec.V0.HasSig, ha, hb, ic, Option.some.injEq, exists_eq_left'] at hc ⊢
      cases ea : ia.tapKeySig with
      | none => simp
      | some x =>
        cases eb : ib.tapKeySig with
        | none => simp
        | some y => simp [hc x y ea eb]
    | leaf x lh =>
      simp only [Spec.V0.HasSig, ha, hb, ic, Option.some.injEq, exists_eq_left', BMap.get_extend] at hc ⊢
      cases ea : ia.tapScriptSigs.get (x, lh) with
      | none => simp
      | some x' =>
        cases eb : ib.tapScriptSigs.get (x, lh) with
        | none => simp
        | some y => simp [hc x' y ea eb]

theorem has_signed {p a : Psbt L} {k : Provider S} {r} (ha : p.sign S k = .ok (a, r)) (hk : Spec.V0.KeepsSignatures p a)
    {n : Nat} {x : Spec.V0.SigAt L} {g : x.Sig} (h : Spec.V0.HasSig p n x g) : Spec.V0.HasSig a n x g := by
  have hT := keepsTaproot ha
  cases x with
  | ecdsa pk =>
    obtain ⟨i, h1, h2⟩ := h
    obtain ⟨j, h3⟩ := input_exists (C50_frame ha) h1
    exact ⟨j, h3, hk n i j pk g h1 h3 h2⟩
  | keyPath =>
    obtain ⟨i, h1, h2⟩ := h
    obtain ⟨j, h3⟩ := input_exists (C50_frame ha) h1
    exact ⟨j, h3, (hT n i j h1 h3).1 g h2⟩
  | leaf x lh =>
    obtain ⟨i, h1, h2⟩ := h
    obtain ⟨j, h3⟩ := input_exists (C50_frame ha) h1
    exact ⟨j, h3, (hT n i j h1 h3).2 _ g h2⟩

theorem has_agree (hd : Spec.Deterministic S) {p a b : Psbt L} {ka kb : Provider S} {ra rb} (hk : Spec.V0.AgreeOnKeys S ka kb)
    (ha : p.sign S ka = .ok (a, ra)) (hb : p.sign S kb = .ok (b, rb)) (ka' : Spec.V0.KeepsSignatures p a)
    (kb' : Spec.V0.KeepsSignatures p b) {n : Nat} {x : Spec.V0.SigAt L} {g g' : x.Sig} (h : Spec.V0.HasSig a n x g)
    (h' : Spec.V0.HasSig b n x g') : g = g' := by
  have old : ∀ s, Spec.V0.HasSig p n x s → g = g' := by
    intro s hs
    rw [has_one h (has_signed ha ka' hs), has_one h' (has_signed hb kb' hs)]
  cases x with
  | ecdsa pk =>
    obtain ⟨ia, h1, h2⟩ := h
    obtain ⟨ib, h3, h4⟩ := h'
    obtain ⟨i, hi⟩ := input_exists (C50_frame ha).symm h1
    obtain ⟨_, h5, g1⟩ := sign_input ha hi
    obtain ⟨_, h6, g2⟩ := sign_input hb hi
    rw [h1] at h5; cases h5
    rw [h3] at h6; cases h6
    cases e : i.partialSigs.get pk with
    | some s => exact old s ⟨i, hi, e⟩
    | none =>
      rw [g1.ecdsa, e, Option.or_none] at h2
      rw [g2.ecdsa, e, Option.or_none] at h4
      exact fresh_agreeE hd _ _ h2 h4
  | keyPath =>
    obtain ⟨ia, h1, h2⟩ := h
    obtain ⟨ib, h3, h4⟩ := h'
    obtain ⟨i, hi⟩ := input_exists (C50_frame ha).symm h1
    obtain ⟨_, h5, g1⟩ := sign_input ha hi
    obtain ⟨_, h6, g2⟩ := sign_input hb hi
    rw [h1] at h5; cases h5
    rw [h3] at h6; cases h6
    cases e : i.tapKeySig with
    | some s => exact old s ⟨i, hi, e⟩
    | none =>
      rw [g1.key, e, Option.none_or] at h2
      rw [g2.key, e, Option.none_or] at h4
      exact fresh_agreeK hk _ _ h2 h4
  | leaf x lh =>
    obtain ⟨ia, h1, h2⟩ := h
    obtain ⟨ib, h3, h4⟩ := h'
    exact sameLeafSigs hk ha hb n ia ib (x, lh) g g' h1 h3 h2 h4

/-- What is known of a PSBT that `ks` signed. -/
structure SignedBy (S : SigLib L) (p : Psbt L) (ks : List (Provider S)) (q : Psbt L) : Prop where
  rest : Spec.V0.erase q = Spec.V0.erase p
  sigs : ∀ n x g, Spec.V0.HasSig q n x g ↔
    Spec.V0.HasSig p n x g ∨ ∃ k ∈ ks, ∃ b r, p.sign S k = .ok (b, r) ∧ Spec.V0.HasSig b n x g

/-- The signers can work together on `p`. -/
structure CanSign (S : SigLib L) (p : Psbt L) (ks : List (Provider S)) : Prop where
  runs : ∀ k ∈ ks, ∃ b r, p.sign S k = .ok (b, r) ∧ Spec.V0.KeepsSignatures p b
  keys : ∀ k ∈ ks, ∀ k' ∈ ks, Spec.V0.AgreeOnKeys S k k'

theorem canSign_mono {p : Psbt L} {ks ls : List (Provider S)} (h : CanSign S p ls) (hs : ∀ k ∈ ks, k ∈ ls) : CanSign S p ks :=
  ⟨fun k hk => h.runs k (hs k hk), fun k hk k' hk' => h.keys k (hs k hk) k' (hs k' hk')⟩

theorem signedBy_agree (hd : Spec.Deterministic S) {p a b : Psbt L} {ks ls : List (Provider S)} (hk : CanSign S p (ks ++ ls))
    (ha : SignedBy S p ks a) (hb : SignedBy S p ls b) {n : Nat} {x : Spec.V0.SigAt L} {g g' : x.Sig}
    (h : Spec.V0.HasSig a n x g) (h' : Spec.V0.HasSig b n x g') : g = g' := by
  have keep : ∀ k ∈ ks ++ ls, ∀ b u, p.sign S k = .ok (b, u) → Spec.V0.KeepsSignatures p b := by
    intro k hm b u hs
    obtain ⟨b', u', h1, h2⟩ := hk.runs k hm
    rw [hs] at h1; cases h1; exact h2
  rcases (ha.sigs n x g).mp h with h | ⟨k, hm, y, u, hs, h⟩
  · exact has_one ((hb.sigs n x g).mpr (.inl h)) h'
  · rcases (hb.sigs n x g').mp h' with h' | ⟨k', hm', z, u', hs', h'⟩
    · exact has_one h (has_signed hs (keep k (by simp [hm]) y u hs) h')
    · exact has_agree hd (hk.keys k (by simp [hm]) k' (by simp [hm'])) hs hs' (keep k (by simp [hm]) y u hs)
        (keep k' (by simp [hm']) z u' hs') h h'

theorem signedBy_combine (hd : Spec.Deterministic S) {p a b : Psbt L} {ks ls : List (Provider S)} (hk : CanSign S p (ks ++ ls))
    (ha : SignedBy S p ks a) (hb : SignedBy S p ls b) : ∃ c, a.combine b = (c, .ok ()) ∧ SignedBy S p (ks ++ ls) c := by
  obtain ⟨c, h1, h2, h4⟩ := has_combine ha.rest hb.rest fun n x g g' h h' => signedBy_agree hd hk ha hb h h'
  refine ⟨c, h1, h2, fun n x g => ?_⟩
  rw [h4, ha.sigs, hb.sigs]
  constructor
  · rintro ((h | ⟨k, hm, h⟩) | (h | ⟨k, hm, h⟩))
    · exact .inl h
    · exact .inr ⟨k, by simp [hm], h⟩
    · exact .inl h
    · exact .inr ⟨k, by simp [hm], h⟩
  · rintro (h | ⟨k, hm, h⟩)
    · exact .inl (.inl h)
    · rcases List.mem_append.mp hm with hm | hm
      · exact .inl (.inr ⟨k, hm, h⟩)
      · exact .inr (.inr ⟨k, hm, h⟩)

theorem signedBy_one {p b : Psbt L} {k : Provider S} {u} (hs : p.sign S k = .ok (b, u)) (hk : Spec.V0.KeepsSignatures p b) :
    SignedBy S p [k] b := by
  refine ⟨C50_frame hs, fun n x g => ⟨fun h => .inr ⟨k, by simp, b, u, hs, h⟩, ?_⟩⟩
  rintro (h | ⟨k', hm, x, u', h, hg⟩)
  · exact has_signed hs hk h
  · rw [List.mem_singleton.mp hm, hs] at h; cases h; exact hg

theorem signedBy_same {p a b : Psbt L} {ks ls : List (Provider S)} (hm : ∀ k, k ∈ ks ↔ k ∈ ls)
    (ha : SignedBy S p ks a) (hb : SignedBy S p ls b) : a = b := by
  refine has_ext (ha.rest.trans hb.rest.symm) fun n x g => ?_
  rw [ha.sigs, hb.sigs]
  simp only [hm]

theorem signedBy_sign (hd : Spec.Deterministic S) {p a : Psbt L} {ks : List (Provider S)} {k : Provider S}
    (hk : CanSign S p (ks ++ [k])) (ha : SignedBy S p ks a) : ∃ b r, a.sign S k = .ok (b, r) ∧ SignedBy S p (ks ++ [k]) b := by
  obtain ⟨b, u, hs, kb⟩ := hk.runs k (by simp)
  have hb := signedBy_one hs kb
  obtain ⟨c, h1, h2⟩ := signedBy_combine hd hk ha hb
  obtain ⟨ab, r, hab⟩ := sign_runs ha.rest hs
  have k1 : Spec.V0.KeepsSignatures p a := by
    intro n i j pk s hi hj h
    obtain ⟨_, h3, h4⟩ := (ha.sigs n (.ecdsa pk) s).mpr (.inl ⟨i, hi, h⟩)
    rw [hj] at h3; cases h3; exact h4
  have k2 : KeepsTaproot p a := by
    intro n i j hi hj
    refine ⟨fun s h => ?_, ?_⟩
    · obtain ⟨_, h3, h4⟩ := (ha.sigs n .keyPath s).mpr (.inl ⟨i, hi, h⟩)
      rw [hj] at h3; cases h3; exact h4
    · rintro ⟨x, lh⟩ s h
      obtain ⟨_, h3, h4⟩ := (ha.sigs n (.leaf x lh) s).mpr (.inl ⟨i, hi, h⟩)
      rw [hj] at h3; cases h3; exact h4
  have k3 : Spec.V0.SameLeafSigs a b := by
    rintro n i j ⟨x, lh⟩ s s' hi hj h h'
    exact signedBy_agree hd hk ha hb (x := .leaf x lh) ⟨i, hi, h⟩ ⟨j, hj, h'⟩
  obtain ⟨h3, -⟩ := combine_step ha.rest k1 kb k3 k2 hs hab
  rw [h1] at h3; cases h3
  exact ⟨c, r, hab, h2⟩

theorem afterSession_signedBy (hd : Spec.Deterministic S) {p : Psbt L} {s : Spec.Session (Provider S)} (hk : CanSign S p s.signers) :
    ∃ q, Spec.V0.afterSession S p s = some q ∧ SignedBy S p s.signers q := by
  induction s with
  | original => exact ⟨p, rfl, rfl, fun n pk g => by simp [Spec.Session.signers]⟩
  | sign s k ih =>
    obtain ⟨a, h1, h2⟩ := ih (canSign_mono hk fun k' h => by simp [Spec.Session.signers, h])
    obtain ⟨b, u, h3, h4⟩ := signedBy_sign hd hk h2
    exact ⟨b, by simp only [Spec.V0.afterSession, h1, h3], h4⟩
  | combine s t ihs iht =>
    obtain ⟨a, h1, h2⟩ := ihs (canSign_mono hk fun k' h => by simp [Spec.Session.signers, h])
    obtain ⟨b, h3, h4⟩ := iht (canSign_mono hk fun k' h => by simp [Spec.Session.signers, h])
    obtain ⟨c, h5, h6⟩ := signedBy_combine hd hk h2 h4
    exact ⟨c, by simp only [Spec.V0.afterSession, h1, h3, h5], h6⟩

end Psbt.V0
