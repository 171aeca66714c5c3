/- The PSBT at the end of a session, PSBT v2. -/
import Verif.Props.V2Parallel
import Verif.Spec.Sessions
namespace Psbt.V2
open Psbt

variable {L : Lib} {S : SigLib L}

/-- The flags after signing are determined by the flags before. -/
theorem flags_same {x y x' y' : Psbt L} {k : Provider S} {tx : Tx} {rx ry} (he : Spec.erase x = Spec.erase y)
    (hf : x.global.txModifiableFlags = y.global.txModifiableFlags) (hx : x.sign S tx k = .ok (x', rx))
    (hy : y.sign S tx k = .ok (y', ry)) : x'.global.txModifiableFlags = y'.global.txModifiableFlags := by
  obtain ⟨a0, a1, a2, a3⟩ := C34_flags hx
  obtain ⟨b0, b1, b2, b3⟩ := C34_flags hy
  have fl : ∀ n, Spec.flag x n = Spec.flag y n := by intro n; simp only [Spec.flag, hf]
  have all : ∀ P : EcdsaTy → Prop, (∀ n i m ty, Spec.Signs tx x n i m ty → P ty) ↔ ∀ n i m ty, Spec.Signs tx y n i m ty → P ty := by
    intro P
    constructor
    · intro h n i m ty hs
      obtain ⟨i', m', ty', hs', e⟩ := (signs_congr he (fun t => t = ty) k).mpr ⟨i, m, ty, hs, rfl⟩
      exact e ▸ h n i' m' ty' hs'
    · intro h n i m ty hs
      obtain ⟨i', m', ty', hs', e⟩ := (signs_congr he (fun t => t = ty) k).mp ⟨i, m, ty, hs, rfl⟩
      exact e ▸ h n i' m' ty' hs'
  have ex : ∀ P : EcdsaTy → Prop, (∃ n i m ty, Spec.Signs tx x n i m ty ∧ P ty) ↔ ∃ n i m ty, Spec.Signs tx y n i m ty ∧ P ty := by
    intro P
    exact exists_congr fun n => signs_congr he P k
  apply UInt8.toNat_inj.mp
  apply Nat.eq_of_testBit_eq
  intro n
  change Spec.flag x' n = Spec.flag y' n
  by_cases h0 : n = 0
  · subst h0
    rw [Bool.eq_iff_iff, a0, b0, all fun ty => ty.1 = 0x81 ∨ ty.1 = 0x82 ∨ ty.1 = 0x83, fl]
  by_cases h1 : n = 1
  · subst h1
    rw [Bool.eq_iff_iff, a1, b1, all fun ty => ty.1 = 0x02 ∨ ty.1 = 0x82, fl]
  by_cases h2 : n = 2
  · subst h2
    rw [Bool.eq_iff_iff, a2, b2, ex fun ty => ty.1 = 0x03 ∨ ty.1 = 0x83, fl]
  · rw [a3 n (by omega), b3 n (by omega), fl]

theorem has_one {p : Psbt L} {n : Nat} {pk : L.pubkey.T} {g g' : EcdsaSig L} (h : Spec.HasSig p n pk g) (h' : Spec.HasSig p n pk g') :
    g = g' := by
  obtain ⟨i, h1, h2⟩ := h
  obtain ⟨j, h3, h4⟩ := h'
  rw [h1] at h3; cases h3
  rw [h2] at h4; exact Option.some.inj h4

theorem has_keeps {p q : Psbt L} (he : Spec.erase q = Spec.erase p) :
    Spec.KeepsSignatures p q ↔ ∀ n pk g, Spec.HasSig p n pk g → Spec.HasSig q n pk g := by
  constructor
  · rintro h n pk g ⟨i, h1, h2⟩
    have hl := length_congr he
    have := (List.getElem?_eq_some_iff.mp h1).1
    exact ⟨_, List.getElem?_eq_getElem (by omega), h n i _ pk g h1 (List.getElem?_eq_getElem (by omega)) h2⟩
  · intro h n i j pk s hi hj hs
    obtain ⟨j', h1, h2⟩ := h n pk s ⟨i, hi, hs⟩
    rw [hj] at h1; cases h1
    exact h2

theorem has_ext {a b : Psbt L} (he : Spec.erase a = Spec.erase b) (hf : a.global.txModifiableFlags = b.global.txModifiableFlags)
    (hs : ∀ n pk g, Spec.HasSig a n pk g ↔ Spec.HasSig b n pk g) : a = b := by
  refine psbt_ext he hf (List.ext_getElem? fun n => ?_)
  have hi := inputs_congr he n
  cases h1 : a.inputs[n]? with
  | none =>
    cases h2 : b.inputs[n]? with
    | none => rfl
    | some j => rw [h1, h2] at hi; cases hi
  | some i =>
    cases h2 : b.inputs[n]? with
    | none => rw [h1, h2] at hi; cases hi
    | some j =>
      rw [h1, h2] at hi
      simp only [Option.map_some, Option.some.injEq] at hi
      have e : i.partialSigs = j.partialSigs := by
        apply BMap.ext_get
        intro pk
        apply Option.ext
        intro g
        have := hs n pk g
        constructor
        · intro h
          obtain ⟨j', h3, h4⟩ := this.mp ⟨i, h1, h⟩
          rw [h2] at h3; cases h3; exact h4
        · intro h
          obtain ⟨j', h3, h4⟩ := this.mpr ⟨j, h2, h⟩
          rw [h1] at h3; cases h3; exact h4
      have h' : { (eraseI i) with partialSigs := i.partialSigs } = { (eraseI j) with partialSigs := j.partialSigs } := by rw [hi, e]
      rw [show i = j from h']

theorem has_combine {p a b : Psbt L} (ha : Spec.erase a = Spec.erase p) (hb : Spec.erase b = Spec.erase p)
    (hc : ∀ n pk g g', Spec.HasSig a n pk g → Spec.HasSig b n pk g' → g = g') :
    ∃ c, a.combine b = .ok c ∧ Spec.erase c = Spec.erase p ∧ c.global.txModifiableFlags = a.global.txModifiableFlags ∧
      ∀ n pk g, Spec.HasSig c n pk g ↔ Spec.HasSig a n pk g ∨ Spec.HasSig b n pk g := by
  obtain ⟨c, h1, h2, h3, h4⟩ := combine_erased ha hb
  refine ⟨c, h1, h2, h3, fun n pk g => ?_⟩
  have la := length_congr ha
  have lb := length_congr hb
  have lc := length_congr h2
  by_cases hn : n < p.inputs.length
  · have ia : a.inputs[n]? = some a.inputs[n] := List.getElem?_eq_getElem (by omega)
    have ib : b.inputs[n]? = some b.inputs[n] := List.getElem?_eq_getElem (by omega)
    have ic := h4 n _ _ ia ib
    have hc := hc n pk
    simp only [Spec.HasSig, ia, ib, ic, Option.some.injEq, exists_eq_left', BMap.get_extend] at hc ⊢
    cases ea : a.inputs[n].partialSigs.get pk with
    | none => simp
    | some x =>
      cases eb : b.inputs[n].partialSigs.get pk with
      | none => simp
      | some y => simp [hc x y ea eb]
  · have no : ∀ x : Psbt L, x.inputs.length = p.inputs.length → ¬ Spec.HasSig x n pk g := by
      rintro x hx ⟨i, hi, -⟩
      exact hn (hx ▸ (List.getElem?_eq_some_iff.mp hi).1)
    simp [no c lc, no a la, no b lb]

theorem has_agree (hd : Spec.Deterministic S) {p a b : Psbt L} {tx : Tx} {ka kb : Provider S} {ra rb}
    (ha : p.sign S tx ka = .ok (a, ra)) (hb : p.sign S tx kb = .ok (b, rb)) (ka' : Spec.KeepsSignatures p a)
    (kb' : Spec.KeepsSignatures p b) {n : Nat} {pk : L.pubkey.T} {g g' : EcdsaSig L} (h : Spec.HasSig a n pk g)
    (h' : Spec.HasSig b n pk g') : g = g' := by
  obtain ⟨ia, h1, h2⟩ := h
  obtain ⟨ib, h3, h4⟩ := h'
  have s1 := sign_input ha n
  have s2 := sign_input hb n
  cases hi : p.inputs[n]? with
  | none => rw [h1, hi] at s1; cases s1
  | some i =>
    cases e : i.partialSigs.get pk with
    | some s =>
      have := ka' n i ia pk s hi h1 e
      rw [h2] at this; cases this
      have := kb' n i ib pk g hi h3 e
      rw [h4] at this; cases this
      rfl
    | none =>
      rw [h1, hi, Option.map_some, Option.some.injEq] at s1
      rw [h3, hi, Option.map_some, Option.some.injEq] at s2
      by_cases hn : n < p.global.inputCount.toNat
      · simp only [hn, if_true] at s1 s2
        rw [s1, sigs_get, e, Option.or_none] at h2
        rw [s2, sigs_get, e, Option.or_none] at h4
        by_cases hs : ∃ m ty, Spec.Signs tx p n i m ty
        · obtain ⟨m, ty, hs⟩ := hs
          rw [outcome_signed.mpr ⟨i, hs, rfl⟩] at h2 h4
          simp only [Outcome.sigs] at h2 h4
          by_cases m1 : pk ∈ (Spec.keysFor S ka i).map S.pub
          · by_cases m2 : pk ∈ (Spec.keysFor S kb i).map S.pub
            · obtain ⟨s1, -, e1, g1⟩ := addSigs_mem (m := m) (ty := ty) _ BMap.empty m1
              obtain ⟨s2, -, e2, g2⟩ := addSigs_mem (m := m) (ty := ty) _ BMap.empty m2
              rw [g1] at h2; rw [g2] at h4
              cases h2; cases h4
              rw [hd m s1 s2 (e1.trans e2.symm)]
            · rw [(addSigs_none _ _).mpr m2] at h4; cases h4
          · rw [(addSigs_none _ _).mpr m1] at h2; cases h2
        · rw [sigs_idle hi hs] at h2; cases h2
      · simp only [hn, if_false] at s1
        rw [s1, e] at h2; cases h2

/-- What is known of a PSBT that `ks` signed. -/
structure SignedBy (S : SigLib L) (p : Psbt L) (ks : List (Provider S)) (q : Psbt L) : Prop where
  rest : Spec.erase q = Spec.erase p
  first : ks = [] → q.global.txModifiableFlags = p.global.txModifiableFlags
  flags : ∀ k ∈ ks, ∀ b u, Signer.sign S p k = .ok (b, u) → q.global.txModifiableFlags = b.global.txModifiableFlags
  sigs : ∀ n pk g, Spec.HasSig q n pk g ↔
    Spec.HasSig p n pk g ∨ ∃ k ∈ ks, ∃ b u, Signer.sign S p k = .ok (b, u) ∧ Spec.HasSig b n pk g

theorem signedBy_keeps {p q : Psbt L} {ks : List (Provider S)} (h : SignedBy S p ks q) : Spec.KeepsSignatures p q :=
  (has_keeps h.rest).mpr fun n pk g hg => (h.sigs n pk g).mpr (.inl hg)

theorem signedBy_agree (hd : Spec.Deterministic S) {p a b : Psbt L} {ks ls : List (Provider S)}
    (hk : ∀ k ∈ ks ++ ls, ∃ b u, Signer.sign S p k = .ok (b, u) ∧ Spec.KeepsSignatures p b)
    (ha : SignedBy S p ks a) (hb : SignedBy S p ls b) {n : Nat} {pk : L.pubkey.T} {g g' : EcdsaSig L}
    (h : Spec.HasSig a n pk g) (h' : Spec.HasSig b n pk g') : g = g' := by
  have keep : ∀ k ∈ ks ++ ls, ∀ b u, Signer.sign S p k = .ok (b, u) → Spec.KeepsSignatures p b := by
    intro k hm b u hs
    obtain ⟨b', u', h1, h2⟩ := hk k hm
    rw [hs] at h1; cases h1; exact h2
  rcases (ha.sigs n pk g).mp h with h | ⟨k, hm, x, u, hs, h⟩
  · exact has_one ((hb.sigs n pk g).mpr (.inl h)) h'
  · rcases (hb.sigs n pk g').mp h' with h' | ⟨k', hm', y, u', hs', h'⟩
    · exact has_one h ((has_keeps (C33_signer hs).1).mp (keep k (by simp [hm]) x u hs) n pk g' h')
    · have c1 := keep k (by simp [hm]) x u hs
      have c2 := keep k' (by simp [hm']) y u' hs'
      obtain ⟨tx, t1, hs⟩ := signer_sign_iff.mp hs
      obtain ⟨tx', t2, hs'⟩ := signer_sign_iff.mp hs'
      rw [t1] at t2; cases t2
      exact has_agree hd hs hs' c1 c2 h h'

theorem signedBy_combine (hd : Spec.Deterministic S) {p a b : Psbt L} {ks ls : List (Provider S)}
    (hk : ∀ k ∈ ks ++ ls, ∃ b u, Signer.sign S p k = .ok (b, u) ∧ Spec.KeepsSignatures p b) (hf : ks = [] → ls = [])
    (ha : SignedBy S p ks a) (hb : SignedBy S p ls b) : ∃ c, a.combine b = .ok c ∧ SignedBy S p (ks ++ ls) c := by
  obtain ⟨c, h1, h2, h3, h4⟩ := has_combine ha.rest hb.rest fun n pk g g' h h' => signedBy_agree hd hk ha hb h h'
  refine ⟨c, h1, h2, fun e => ?_, fun k hm x u hs => ?_, fun n pk g => ?_⟩
  · rw [h3]; exact ha.first (List.append_eq_nil_iff.mp e).1
  · rw [h3]
    cases ks with
    | nil => rw [hf rfl] at hm; cases hm
    | cons k' ks =>
      obtain ⟨x', u', hs', -⟩ := hk k' (by simp)
      rw [ha.flags k' (by simp) x' u' hs']
      obtain ⟨tx, t1, hs⟩ := signer_sign_iff.mp hs
      obtain ⟨tx', t2, hs'⟩ := signer_sign_iff.mp hs'
      rw [t1] at t2; cases t2
      exact flags_eq hs' hs
  · rw [h4, ha.sigs, hb.sigs]
    constructor
    · rintro ((h | ⟨k, hm, h⟩) | (h | ⟨k, hm, h⟩))
      · exact .inl h
      · exact .inr ⟨k, by simp [hm], h⟩
      · exact .inl h
      · exact .inr ⟨k, by simp [hm], h⟩
    · rintro (h | ⟨k, hm, h⟩)
      · exact .inl (.inl h)
      · rcases List.mem_append.mp hm with hm | hm
        · exact .inl (.inr ⟨k, hm, h⟩)
        · exact .inr (.inr ⟨k, hm, h⟩)

theorem signedBy_one {p b : Psbt L} {k : Provider S} {u} (hs : Signer.sign S p k = .ok (b, u)) (hk : Spec.KeepsSignatures p b) :
    SignedBy S p [k] b := by
  have he := (C33_signer hs).1
  refine ⟨he, nofun, fun k' hm x u' h => ?_, fun n pk g => ⟨fun h => .inr ⟨k, by simp, b, u, hs, h⟩, ?_⟩⟩
  · rw [List.mem_singleton.mp hm, hs] at h; cases h; rfl
  · rintro (h | ⟨k', hm, x, u', h, hg⟩)
    · exact (has_keeps he).mp hk n pk g h
    · rw [List.mem_singleton.mp hm, hs] at h; cases h; exact hg

theorem signedBy_same {p a b : Psbt L} {ks ls : List (Provider S)} (hm : ∀ k, k ∈ ks ↔ k ∈ ls)
    (hk : ∀ k ∈ ks, ∃ b u, Signer.sign S p k = .ok (b, u)) (ha : SignedBy S p ks a) (hb : SignedBy S p ls b) : a = b := by
  refine has_ext (ha.rest.trans hb.rest.symm) ?_ fun n pk g => ?_
  · cases ks with
    | nil =>
      have : ls = [] := List.eq_nil_iff_forall_not_mem.mpr fun k h => by simpa using (hm k).mpr h
      rw [ha.first rfl, hb.first this]
    | cons k ks =>
      obtain ⟨x, u, hs⟩ := hk k (by simp)
      rw [ha.flags k (by simp) x u hs, hb.flags k ((hm k).mp (by simp)) x u hs]
  · rw [ha.sigs, hb.sigs]
    simp only [hm]

theorem signedBy_sign (hd : Spec.Deterministic S) {p a : Psbt L} {ks : List (Provider S)} {k : Provider S}
    (hk : ∀ k' ∈ ks ++ [k], ∃ b u, Signer.sign S p k' = .ok (b, u) ∧ Spec.KeepsSignatures p b) (ha : SignedBy S p ks a) :
    ∃ b u, Signer.sign S a k = .ok (b, u) ∧ SignedBy S p (ks ++ [k]) b := by
  obtain ⟨b, u, hs, kb⟩ := hk k (by simp)
  have hb := signedBy_one hs kb
  cases ks with
  | nil =>
    have : a = p := has_ext ha.rest (ha.first rfl) fun n pk g => by simp [ha.sigs]
    subst this
    exact ⟨b, u, hs, hb⟩
  | cons k' ks =>
    obtain ⟨c, h1, h2⟩ := signedBy_combine hd hk nofun ha hb
    obtain ⟨tx, t1, hs⟩ := signer_sign_iff.mp hs
    obtain ⟨ab, hab⟩ := sign_congr ha.rest hs
    obtain ⟨x, u', hs', -⟩ := hk k' (by simp)
    have fa := ha.flags k' (by simp) x u' hs'
    obtain ⟨tx', t2, hs'⟩ := signer_sign_iff.mp hs'
    rw [t1] at t2; cases t2
    obtain ⟨xk, hxk⟩ := sign_congr (C33_frame hs') hs
    have ff : ab.global.txModifiableFlags = a.global.txModifiableFlags := by
      rw [flags_same (ha.rest.trans (C33_frame hs').symm) fa hab hxk, flags_again hs' hxk, fa]
    obtain ⟨h3, -⟩ := combine_step ha.rest (signedBy_keeps ha) kb hs hab ff
    rw [h1] at h3; cases h3
    refine ⟨c, u, signer_sign_iff.mpr ⟨tx, ?_, hab⟩, h2⟩
    rw [← unsignedTx_erase a, ha.rest, unsignedTx_erase, t1]

theorem afterSession_signedBy (hd : Spec.Deterministic S) {p : Psbt L} {s : Spec.Session (Provider S)} (hf : s.Forward)
    (hk : ∀ k ∈ s.signers, ∃ b u, Signer.sign S p k = .ok (b, u) ∧ Spec.KeepsSignatures p b) :
    ∃ q, Spec.afterSession S p s = some q ∧ SignedBy S p s.signers q := by
  induction s with
  | original => exact ⟨p, rfl, rfl, fun _ => rfl, nofun, fun n pk g => by simp [Spec.Session.signers]⟩
  | sign s k ih =>
    obtain ⟨a, h1, h2⟩ := ih hf fun k' h => hk k' (by simp [Spec.Session.signers, h])
    obtain ⟨b, u, h3, h4⟩ := signedBy_sign hd hk h2
    exact ⟨b, by simp only [Spec.afterSession, h1, h3], h4⟩
  | combine s t ihs iht =>
    obtain ⟨f1, f2, f3⟩ := hf
    obtain ⟨a, h1, h2⟩ := ihs f1 fun k' h => hk k' (by simp [Spec.Session.signers, h])
    obtain ⟨b, h3, h4⟩ := iht f2 fun k' h => hk k' (by simp [Spec.Session.signers, h])
    obtain ⟨c, h5, h6⟩ := signedBy_combine hd hk f3 h2 h4
    exact ⟨c, by simp only [Spec.afterSession, h1, h3, h5], h6⟩

/-- What is known of a PSBT that `ks` signed, apart from the flags. -/
structure SigsOf (S : SigLib L) (p : Psbt L) (ks : List (Provider S)) (q : Psbt L) : Prop where
  rest : Spec.erase q = Spec.erase p
  sigs : ∀ n pk g, Spec.HasSig q n pk g ↔
    Spec.HasSig p n pk g ∨ ∃ k ∈ ks, ∃ b u, Signer.sign S p k = .ok (b, u) ∧ Spec.HasSig b n pk g

/-- The same PSBT with other flags. -/
def reflag (p : Psbt L) (f : UInt8) : Psbt L := { p with global := { p.global with txModifiableFlags := f } }

theorem reflag_has {p : Psbt L} {f : UInt8} {n : Nat} {pk : L.pubkey.T} {g : EcdsaSig L} :
    Spec.HasSig (reflag p f) n pk g ↔ Spec.HasSig p n pk g := Iff.rfl

theorem sigsOf_reflag {p a : Psbt L} {ks : List (Provider S)} (hk : ∀ k ∈ ks, ∃ b u, Signer.sign S p k = .ok (b, u))
    (ha : SigsOf S p ks a) : ∃ f, SignedBy S p ks (reflag a f) := by
  cases ks with
  | nil => exact ⟨p.global.txModifiableFlags, ha.rest, fun _ => rfl, nofun, ha.sigs⟩
  | cons k ks =>
    obtain ⟨b, u, hs⟩ := hk k (by simp)
    refine ⟨b.global.txModifiableFlags, ha.rest, nofun, fun k' hm b' u' hs' => ?_, ha.sigs⟩
    obtain ⟨tx, t1, hs⟩ := signer_sign_iff.mp hs
    obtain ⟨tx', t2, hs'⟩ := signer_sign_iff.mp hs'
    rw [t1] at t2; cases t2
    exact (flags_eq hs hs' :)

theorem reflag_sign {a c : Psbt L} {f : UInt8} {k : Provider S} {u} (h : Signer.sign S (reflag a f) k = .ok (c, u)) :
    ∃ b, Signer.sign S a k = .ok (b, u) ∧ Spec.erase b = Spec.erase c ∧ ∀ n pk g, Spec.HasSig b n pk g ↔ Spec.HasSig c n pk g := by
  obtain ⟨tx, t1, hs⟩ := signer_sign_iff.mp h
  have he : Spec.erase a = Spec.erase (reflag a f) := rfl
  obtain ⟨b, hb⟩ := sign_congr he hs
  have eb := C33_frame hb
  have ec := C33_frame hs
  refine ⟨b, signer_sign_iff.mpr ⟨tx, ?_, hb⟩, eb.trans ec.symm, fun n pk g => ?_⟩
  · rw [← unsignedTx_erase a, he, unsignedTx_erase, t1]
  · unfold Spec.HasSig
    rw [sign_input hb, sign_input hs, outcome_congr he]
    rfl

theorem afterSession_sigsOf (hd : Spec.Deterministic S) {p : Psbt L} {s : Spec.Session (Provider S)}
    (hk : ∀ k ∈ s.signers, ∃ b u, Signer.sign S p k = .ok (b, u) ∧ Spec.KeepsSignatures p b) :
    ∃ q, Spec.afterSession S p s = some q ∧ SigsOf S p s.signers q := by
  induction s with
  | original => exact ⟨p, rfl, rfl, fun n pk g => by simp [Spec.Session.signers]⟩
  | sign s k ih =>
    have hk' : ∀ k' ∈ s.signers, ∃ b u, Signer.sign S p k' = .ok (b, u) ∧ Spec.KeepsSignatures p b :=
      fun k' h => hk k' (by simp [Spec.Session.signers, h])
    obtain ⟨a, h1, h2⟩ := ih hk'
    obtain ⟨f, hf⟩ := sigsOf_reflag (fun k' h => let ⟨b, u, h, _⟩ := hk' k' h; ⟨b, u, h⟩) h2
    obtain ⟨c, u, h3, h4⟩ := signedBy_sign hd hk hf
    obtain ⟨b, h5, h6, h7⟩ := reflag_sign h3
    exact ⟨b, by simp only [Spec.afterSession, h1, h5], h6.trans h4.rest, fun n pk g => by rw [h7, h4.sigs]; rfl⟩
  | combine s t ihs iht =>
    have hs' : ∀ k' ∈ s.signers, ∃ b u, Signer.sign S p k' = .ok (b, u) ∧ Spec.KeepsSignatures p b :=
      fun k' h => hk k' (by simp [Spec.Session.signers, h])
    have ht' : ∀ k' ∈ t.signers, ∃ b u, Signer.sign S p k' = .ok (b, u) ∧ Spec.KeepsSignatures p b :=
      fun k' h => hk k' (by simp [Spec.Session.signers, h])
    obtain ⟨a, h1, h2⟩ := ihs hs'
    obtain ⟨b, h3, h4⟩ := iht ht'
    obtain ⟨f, hf⟩ := sigsOf_reflag (fun k' h => let ⟨b, u, h, _⟩ := hs' k' h; ⟨b, u, h⟩) h2
    obtain ⟨f', hf'⟩ := sigsOf_reflag (fun k' h => let ⟨b, u, h, _⟩ := ht' k' h; ⟨b, u, h⟩) h4
    obtain ⟨c, h5, h6, -, h7⟩ := has_combine h2.rest h4.rest
      fun n pk g g' h h' => signedBy_agree hd hk hf hf' (reflag_has.mpr h) (reflag_has.mpr h')
    refine ⟨c, by simp only [Spec.afterSession, h1, h3, h5], h6, fun n pk g => ?_⟩
    rw [h7, h2.sigs, h4.sigs]
    simp only [Spec.Session.signers, List.mem_append]
    constructor
    · rintro ((h | ⟨k, hm, h⟩) | (h | ⟨k, hm, h⟩))
      · exact .inl h
      · exact .inr ⟨k, .inl hm, h⟩
      · exact .inl h
      · exact .inr ⟨k, .inr hm, h⟩
    · rintro (h | ⟨k, hm | hm, h⟩)
      · exact .inl (.inl h)
      · exact .inl (.inr ⟨k, hm, h⟩)
      · exact .inr (.inr ⟨k, hm, h⟩)

end Psbt.V2
