/- Signing with stateful providers and random nonces: the loops. -/
import Verif.Spec.World
import Verif.Model.V0.SignWorld
import Verif.Model.V2.SignWorld
import Verif.Lemmas.V0Sign
namespace Psbt
variable {L : Lib} {S : SigLib L} {W : World S}

theorem findKeyW_gave {pk : L.secpPk.T} {ks : KeySource} {s s' : W.σ} {sk : S.SK} (h : findKeyW W pk ks s = (some sk, s')) :
    Spec.Gave W (pk, ks) sk := by
  unfold findKeyW at h
  split at h
  · rename_i sk' s1 h1
    cases h
    exact ⟨s, .inl (by rw [h1]; rfl)⟩
  · rename_i a s1 h0 h1
    split at h
    · rename_i sk' s2 h2
      cases h
      exact ⟨s1, .inr (by rw [h2]; rfl)⟩
    · cases h

/-- The keys found on the way are all the loop depends on. -/
theorem signLoopW_eq {ε : Type} (res : Except ε (Hash32 × EcdsaTy)) (ds : List (L.secpPk.T × KeySource))
    (sigs : BMap L.pubkey.T (EcdsaSig L)) (used : List L.pubkey.T) (s : W.σ) :
    ∃ keys : List S.SK, (∀ sk ∈ keys, ∃ d ∈ ds, Spec.Gave W d sk) ∧
      (signLoopW W res ds sigs used s).1 =
        match keys, res with
        | [], _ => .ok (sigs, used)
        | _ :: _, .error e => .error e
        | keys, .ok (m, ty) => .ok (Spec.addSigs S m ty keys sigs, used ++ keys.map S.pub) := by
  induction ds generalizing sigs used s with
  | nil => exact ⟨[], by simp, rfl⟩
  | cons d ds ih =>
    obtain ⟨pk, ks⟩ := d
    rw [signLoopW]
    rcases hf : findKeyW W pk ks s with ⟨_ | sk, s1⟩
    · obtain ⟨keys, h1, h2⟩ := ih sigs used s1
      exact ⟨keys, fun sk h => (h1 sk h).imp fun d hd => ⟨List.mem_cons_of_mem _ hd.1, hd.2⟩, h2⟩
    · have hg := findKeyW_gave hf
      cases res with
      | error e => exact ⟨[sk], fun k h => ⟨(pk, ks), by simp, by simp at h; exact h ▸ hg⟩, rfl⟩
      | ok mt =>
        obtain ⟨m, ty⟩ := mt
        obtain ⟨keys, h1, h2⟩ := ih (sigs.insert (S.pub sk) ⟨S.signEcdsa m sk, ty⟩) (used ++ [S.pub sk]) s1
        refine ⟨sk :: keys, ?_, ?_⟩
        · intro k hk
          rcases List.mem_cons.mp hk with rfl | hk
          · exact ⟨(pk, ks), by simp, hg⟩
          · exact (h1 k hk).imp fun d hd => ⟨List.mem_cons_of_mem _ hd.1, hd.2⟩
        · simp only
          rw [h2]
          cases keys with
          | nil => rfl
          | cons a l => simp [Spec.addSigs]

theorem findKeyW_steady {k : Provider S} (hk : Spec.Steady W k) (pk : L.secpPk.T) (ks : KeySource) (s : W.σ) :
    (findKeyW W pk ks s).1 = V2.findKey S k pk ks := by
  unfold findKeyW V2.findKey
  rw [← hk s (.bip32 ks)]
  rcases W.ask s (.bip32 ks) with ⟨_ | _ | sk, s1⟩
  · rw [← hk s1]
    simp only
    rcases W.ask s1 (.pubkey (S.ofSecp pk)) with ⟨_ | _ | sk, s1⟩ <;> rfl
  · rw [← hk s1]
    simp only
    rcases W.ask s1 (.pubkey (S.ofSecp pk)) with ⟨_ | _ | sk, s1⟩ <;> rfl
  · rfl

theorem signLoopW_steady {ε : Type} {k : Provider S} (hk : Spec.Steady W k) (res : Except ε (Hash32 × EcdsaTy))
    (ds : List (L.secpPk.T × KeySource)) (sigs : BMap L.pubkey.T (EcdsaSig L)) (used : List L.pubkey.T) (s : W.σ) :
    (signLoopW W res ds sigs used s).1 = V2.signLoop S k res ds sigs used := by
  induction ds generalizing sigs used s with
  | nil => rfl
  | cons d ds ih =>
    obtain ⟨pk, ks⟩ := d
    rw [signLoopW, V2.signLoop, ← findKeyW_steady hk pk ks s]
    rcases findKeyW W pk ks s with ⟨_ | sk, s1⟩
    · exact ih _ _ _
    · cases res with
      | error e => rfl
      | ok mt => exact ih _ _ _

/-! ### Numbers of random strings -/

theorem Drawn.refl {α : Type} {Made : α → TapSig → Nat → Prop} {old : α → Option TapSig} {c c' : Nat} :
    Spec.Drawn Made old old c c' := ⟨fun _ => 0, fun _ => .inl rfl, fun a _ h => absurd rfl h⟩

theorem Drawn.mono {α : Type} {Made Made' : α → TapSig → Nat → Prop} {old new : α → Option TapSig} {c c' d d' : Nat}
    (h : Spec.Drawn Made old new c c') (h1 : d ≤ c) (h2 : c' ≤ d') (hm : ∀ a t n, Made a t n → Made' a t n) :
    Spec.Drawn Made' old new d d' := by
  obtain ⟨f, h3, h4⟩ := h
  refine ⟨f, fun a => (h3 a).imp id ?_, h4⟩
  rintro ⟨h5, h6, h7, t, h8, h9⟩
  exact ⟨h5, by omega, by omega, t, h8, hm _ _ _ h9⟩

theorem Drawn.trans {α : Type} {Made : α → TapSig → Nat → Prop} {old mid new : α → Option TapSig} {c c1 c2 : Nat}
    (h : Spec.Drawn Made old mid c c1) (h' : Spec.Drawn Made mid new c1 c2) (hc : c ≤ c1) (hc' : c1 ≤ c2) :
    Spec.Drawn Made old new c c2 := by
  obtain ⟨f, h1, h2⟩ := h
  obtain ⟨g, h3, h4⟩ := h'
  have key : ∀ a, new a ≠ old a →
      (mid a = none ∧ new a ≠ mid a ∧ old a = none ∧ c1 ≤ g a ∧ g a < c2 ∧ ∃ t, new a = some t ∧ Made a t (g a)) ∨
      (mid a ≠ none ∧ mid a ≠ old a ∧ old a = none ∧ c ≤ f a ∧ f a < c1 ∧ ∃ t, new a = some t ∧ Made a t (f a)) := by
    intro a hn
    rcases h3 a with e | ⟨e1, e2, e3, t, e4, e5⟩
    · right
      rcases h1 a with e' | ⟨e1, e2, e3, t, e4, e5⟩
      · exact absurd (e.trans e') hn
      · exact ⟨by rw [e4]; simp, by rw [e4, e1]; simp, e1, e2, e3, t, e.trans e4, e5⟩
    · left
      refine ⟨e1, by rw [e4, e1]; simp, ?_, e2, e3, t, e4, e5⟩
      rcases h1 a with e' | ⟨e1', -⟩
      · exact e'.symm.trans e1
      · exact e1'
  refine ⟨fun a => if (mid a).isNone then g a else f a, ?_, ?_⟩
  · intro a
    by_cases hn : new a = old a
    · exact .inl hn
    · right
      rcases key a hn with ⟨e1, -, e2, e3, e4, e5⟩ | ⟨e1, -, e2, e3, e4, e5⟩
      · simp only [e1, Option.isNone_none, if_true]
        exact ⟨e2, by omega, e4, e5⟩
      · have : ¬ (mid a).isNone = true := by simpa [Option.isNone_iff_eq_none] using e1
        simp only [this]
        exact ⟨e2, e3, Nat.lt_of_lt_of_le e4 hc', e5⟩
  · intro a b ha hb he
    rcases key a ha with ⟨a1, a0, a2, a3, a4, -⟩ | ⟨a1, a0, a2, a3, a4, -⟩ <;>
      rcases key b hb with ⟨b1, b0, b2, b3, b4, -⟩ | ⟨b1, b0, b2, b3, b4, -⟩
    · simp only [a1, b1, Option.isNone_none, if_true] at he
      exact h4 a b a0 b0 he
    · have hb' : ¬ (mid b).isNone = true := by simpa [Option.isNone_iff_eq_none] using b1
      simp only [a1, hb', Option.isNone_none, if_true] at he
      simp at he
      omega
    · have ha' : ¬ (mid a).isNone = true := by simpa [Option.isNone_iff_eq_none] using a1
      simp only [b1, ha', Option.isNone_none, if_true] at he
      simp at he
      omega
    · have ha' : ¬ (mid a).isNone = true := by simpa [Option.isNone_iff_eq_none] using a1
      have hb' : ¬ (mid b).isNone = true := by simpa [Option.isNone_iff_eq_none] using b1
      simp only [ha', hb'] at he
      simp at he
      exact h2 a b a0 b0 he

namespace V0

/-- The signatures of an input as the loop passes them on. -/
def view (sig : Option TapSig) (sigs : BMap (L.xonly.T × Hash32) TapSig) : Option (L.xonly.T × Hash32) → Option TapSig
  | none => sig
  | some k => sigs.get k

variable {msg : Option Hash32 → Out SignErr (Hash32 × TapTy)}

theorem signLeavesW_count {kp : S.Keypair} {x : L.xonly.T} (lhs : List Hash32) (sigs : BMap (L.xonly.T × Hash32) TapSig) (c : Nat) :
    c ≤ (signLeavesW W msg kp x lhs sigs c).2 := by
  induction lhs generalizing sigs c with
  | nil => exact Nat.le_refl _
  | cons lh lhs ih =>
    rw [signLeavesW]
    cases msg (some lh) with
    | error e => exact Nat.le_refl _
    | ok mt =>
      obtain ⟨m, ty⟩ := mt
      exact Nat.le_trans (Nat.le_succ c) (ih _ _)

theorem signLeavesW_error {kp : S.Keypair} {x : L.xonly.T} {lhs : List Hash32} {sigs : BMap (L.xonly.T × Hash32) TapSig} {c c' : Nat}
    {e : Fail SignErr} (h : signLeavesW W msg kp x lhs sigs c = (.error e, c')) : ∃ leaf, msg leaf = .error e := by
  induction lhs generalizing sigs c with
  | nil => cases h
  | cons lh lhs ih =>
    rw [signLeavesW] at h
    cases hm : msg (some lh) with
    | error f => rw [hm] at h; cases h; exact ⟨_, hm⟩
    | ok mt => rw [hm] at h; exact ih h

theorem signLeavesW_ok {kp : S.Keypair} {x : L.xonly.T} {lhs : List Hash32} {sigs sigs' : BMap (L.xonly.T × Hash32) TapSig} {c c' : Nat}
    (h : signLeavesW W msg kp x lhs sigs c = (.ok sigs', c')) :
    (∀ y lh, (y ≠ x ∨ lh ∉ lhs) → sigs'.get (y, lh) = sigs.get (y, lh)) ∧
    ∃ f : Hash32 → Nat,
      (∀ lh ∈ lhs, c ≤ f lh ∧ f lh < c' ∧ ∃ m ty, msg (some lh) = .ok (m, ty) ∧
        sigs'.get (x, lh) = some ⟨W.signAux m kp (W.aux (f lh)), ty⟩) ∧
      ∀ a ∈ lhs, ∀ b ∈ lhs, f a = f b → a = b := by
  induction lhs generalizing sigs c with
  | nil => cases h; exact ⟨by simp, fun _ => 0, by simp, by simp⟩
  | cons a lhs ih =>
    have hcount := signLeavesW_count (W := W) (msg := msg) (kp := kp) (x := x) (a :: lhs) sigs c
    rw [signLeavesW] at h
    cases hm : msg (some a) with
    | error f => rw [hm] at h; cases h
    | ok mt =>
      obtain ⟨m, ty⟩ := mt
      rw [hm] at h
      simp only at h
      obtain ⟨h1, f, h2, h3⟩ := ih h
      have hc' : c + 1 ≤ c' := by
        have := signLeavesW_count (W := W) (msg := msg) (kp := kp) (x := x) lhs (sigs.insert (x, a) ⟨W.signAux m kp (W.aux c), ty⟩) (c + 1)
        rw [h] at this; exact this
      constructor
      · intro y lh hy
        have hy' : y ≠ x ∨ lh ∉ lhs := hy.imp (fun h => h) fun h => fun h' => h (List.mem_cons_of_mem _ h')
        rw [h1 y lh hy', BMap.get_insert_ne]
        intro he
        cases he
        simp at hy
      · refine ⟨fun lh => if lh ∈ lhs then f lh else c, ?_, ?_⟩
        · intro lh hl
          by_cases hml : lh ∈ lhs
          · simp only [hml, if_true]
            obtain ⟨e1, e2, e3⟩ := h2 lh hml
            exact ⟨by omega, e2, e3⟩
          · rcases List.mem_cons.mp hl with rfl | hl
            · simp only [hml, if_false]
              refine ⟨Nat.le_refl _, by omega, m, ty, hm, ?_⟩
              rw [h1 x lh (.inr hml), BMap.get_insert_self]
            · exact absurd hl hml
        · intro u hu v hv he
          by_cases h4 : u ∈ lhs <;> by_cases h5 : v ∈ lhs <;> simp only [h4, h5, if_true, if_false] at he
          · exact h3 u h4 v h5 he
          · have := (h2 u h4).1; omega
          · have := (h2 v h5).1; omega
          · rcases List.mem_cons.mp hu with rfl | hu
            · rcases List.mem_cons.mp hv with rfl | hv
              · rfl
              · exact absurd hv h5
            · exact absurd hu h4

/-- How one signature of an input comes about in the loop. -/
def LoopMade (W : World S) (msg : Option Hash32 → Out SignErr (Hash32 × TapTy)) (i : Input L)
    (a : Option (L.xonly.T × Hash32)) (t : TapSig) (d : Nat) : Prop :=
  ∃ lhs ks sk s, Spec.answer (W.ask s (.bip32 ks)).1 = some sk ∧
    match a with
    | none => ∃ x m, i.tapInternalKey = some x ∧ i.tapKeyOrigins.get x = some (lhs, ks) ∧ lhs = [] ∧ msg none = .ok (m, t.ty) ∧
        t.sig = W.signAux m (S.tapTweak (S.keypair sk) i.tapMerkleRoot) (W.aux d)
    | some (x, lh) => ∃ m, i.tapKeyOrigins.get x = some (lhs, ks) ∧ lh ∈ lhs ∧ msg (some lh) = .ok (m, t.ty) ∧
        t.sig = W.signAux m (S.keypair sk) (W.aux d)

theorem signKeyPathW_spec {i : Input L} {x : L.xonly.T} {lhs : List Hash32} {ks : KeySource} {sk : S.SK} {s : W.σ}
    (hx : i.tapKeyOrigins.get x = some (lhs, ks)) (ha : Spec.answer (W.ask s (.bip32 ks)).1 = some sk)
    (sig : Option TapSig) (sigs : BMap (L.xonly.T × Hash32) TapSig) (c : Nat) :
    c ≤ (signKeyPathW W msg i x lhs sk sig c).2 ∧
    (∀ e c', signKeyPathW W msg i x lhs sk sig c = (.error e, c') → ∃ leaf, msg leaf = .error e) ∧
    ∀ sig' u c', signKeyPathW W msg i x lhs sk sig c = (.ok (sig', u), c') →
      Spec.Drawn (LoopMade W msg i) (view sig sigs) (view sig' sigs) c c' := by
  unfold signKeyPathW
  split
  · exact ⟨Nat.le_refl _, fun e c' h => (by cases h), fun sig' u c' h => by cases h; exact Drawn.refl⟩
  · rename_i ik hik
    by_cases hd : ik = x ∧ lhs.isEmpty ∧ sig.isNone
    · rw [if_pos hd]
      obtain ⟨rfl, h2, h3⟩ := hd
      simp only [List.isEmpty_iff] at h2
      simp only [Option.isNone_iff_eq_none] at h3
      subst h2 h3
      cases hm : msg none with
      | error e => exact ⟨Nat.le_refl _, fun f c' h => (by cases h; exact ⟨_, hm⟩), fun sig' u c' h => by cases h⟩
      | ok mt =>
        obtain ⟨m, ty⟩ := mt
        refine ⟨Nat.le_succ _, fun f c' h => (by cases h), ?_⟩
        intro sig' u c' h
        cases h
        refine ⟨fun _ => c, ?_, ?_⟩
        · rintro (_ | k)
          · exact .inr ⟨rfl, Nat.le_refl _, Nat.lt_succ_self _, _, rfl, [], ks, sk, s, ha, ik, m, hik, hx, rfl, hm, rfl⟩
          · exact .inl rfl
        · rintro (_ | a) (_ | b) h1 h2 -
          · rfl
          · exact absurd rfl h2
          · exact absurd rfl h1
          · exact absurd rfl h1
    · rw [if_neg hd]
      exact ⟨Nat.le_refl _, fun e c' h => (by cases h), fun sig' u c' h => by cases h; exact Drawn.refl⟩

theorem signScriptPathW_spec {i : Input L} {x : L.xonly.T} {lhs : List Hash32} {ks : KeySource} {sk : S.SK} {s : W.σ}
    (hx : i.tapKeyOrigins.get x = some (lhs, ks)) (ha : Spec.answer (W.ask s (.bip32 ks)).1 = some sk)
    (sig : Option TapSig) (sigs : BMap (L.xonly.T × Hash32) TapSig) (c : Nat) :
    c ≤ (signScriptPathW W msg i x sk sigs c).2 ∧
    (∀ e c', signScriptPathW W msg i x sk sigs c = (.error e, c') → ∃ leaf, msg leaf = .error e) ∧
    ∀ sigs' u c', signScriptPathW W msg i x sk sigs c = (.ok (sigs', u), c') →
      Spec.Drawn (LoopMade W msg i) (view sig sigs) (view sig sigs') c c' := by
  unfold signScriptPathW
  rw [hx]
  simp only
  generalize hl : lhs.filter (fun lh => (sigs.get (x, lh)).isNone) = due
  have hmem : ∀ lh, lh ∈ due ↔ lh ∈ lhs ∧ sigs.get (x, lh) = none := by
    intro lh
    rw [← hl, List.mem_filter, Option.isNone_iff_eq_none]
  by_cases hd : due.isEmpty = true
  · rw [if_pos hd]
    exact ⟨Nat.le_refl _, fun e c' h => (by cases h), fun sig' u c' h => by cases h; exact Drawn.refl⟩
  · rw [if_neg hd]
    have hcount := signLeavesW_count (W := W) (msg := msg) (kp := S.keypair sk) (x := x) due sigs c
    rcases hs : signLeavesW W msg (S.keypair sk) x due sigs c with ⟨e | sigs1, c1⟩
    · rw [hs] at hcount
      exact ⟨hcount, fun f c' h => (by cases h; exact signLeavesW_error hs), fun sig' u c' h => by cases h⟩
    · rw [hs] at hcount
      refine ⟨hcount, fun f c' h => (by cases h), ?_⟩
      intro sigs' u c' h
      cases h
      obtain ⟨h1, f, h2, h3⟩ := signLeavesW_ok hs
      have same : ∀ a, view sig sigs1 a ≠ view sig sigs a → ∃ lh ∈ due, a = some (x, lh) := by
        intro a hne
        cases a with
        | none => exact absurd rfl hne
        | some k =>
          obtain ⟨y, lh⟩ := k
          by_cases hy : y ≠ x ∨ lh ∉ due
          · exact absurd (h1 y lh hy) hne
          · simp only [not_or, Classical.not_not] at hy
            exact ⟨lh, hy.2, by rw [hy.1]⟩
      refine ⟨fun a => match a with | some (_, lh) => f lh | none => 0, ?_, ?_⟩
      · intro a
        by_cases hne : view sig sigs1 a = view sig sigs a
        · exact .inl hne
        · right
          obtain ⟨lh, hlh, rfl⟩ := same a hne
          obtain ⟨e1, e2, m, ty, e3, e4⟩ := h2 lh hlh
          exact ⟨((hmem lh).mp hlh).2, e1, e2, _, e4, lhs, ks, sk, s, ha, m, hx, ((hmem lh).mp hlh).1, e3, rfl⟩
      · intro a b ha' hb' he
        obtain ⟨u, hu, rfl⟩ := same a ha'
        obtain ⟨v, hv, rfl⟩ := same b hb'
        rw [h3 u hu v hv he]

theorem schnorrLoopW_spec {i : Input L} (ds : List (L.xonly.T × List Hash32 × KeySource))
    (hd : ∀ d ∈ ds, i.tapKeyOrigins.get d.1 = some d.2)
    (sig : Option TapSig) (sigs : BMap (L.xonly.T × Hash32) TapSig) (used : List L.xonly.T) (s : W.State) :
    s.2 ≤ (schnorrLoopW W msg i ds sig sigs used s).2.2 ∧
    (∀ e s', schnorrLoopW W msg i ds sig sigs used s = (.error e, s') → ∃ leaf, msg leaf = .error e) ∧
    ∀ sig' sigs' u s', schnorrLoopW W msg i ds sig sigs used s = (.ok (sig', sigs', u), s') →
      Spec.Drawn (LoopMade W msg i) (view sig sigs) (view sig' sigs') s.2 s'.2 := by
  induction ds generalizing sig sigs used s with
  | nil =>
    exact ⟨Nat.le_refl _, fun e c' h => (by cases h), fun sig' sigs' u c' h => by cases h; exact Drawn.refl⟩
  | cons d ds ih =>
    obtain ⟨x, lhs, ks⟩ := d
    obtain ⟨s, c⟩ := s
    have hx := hd (x, lhs, ks) (by simp)
    have hd' : ∀ d ∈ ds, i.tapKeyOrigins.get d.1 = some d.2 := fun d h => hd d (by simp [h])
    rw [schnorrLoopW]
    rcases hask : W.ask s (.bip32 ks) with ⟨_ | _ | sk, s1⟩
    · exact ih hd' sig sigs used (s1, c)
    · exact ih hd' sig sigs used (s1, c)
    · have ha : Spec.answer (W.ask s (.bip32 ks)).1 = some sk := by rw [hask]; rfl
      obtain ⟨k1, k2, k3⟩ := signKeyPathW_spec (W := W) (msg := msg) hx ha sig sigs c
      simp only
      rcases hkp : signKeyPathW W msg i x lhs sk sig c with ⟨e | ⟨sig1, u1⟩, c1⟩
      · rw [hkp] at k1
        exact ⟨k1, fun f s' h => (by cases h; exact k2 _ _ hkp), fun sig' sigs' u s' h => by cases h⟩
      · rw [hkp] at k1
        have k3 := k3 sig1 u1 c1 hkp
        obtain ⟨l1, l2, l3⟩ := signScriptPathW_spec (W := W) (msg := msg) hx ha sig1 sigs c1
        simp only at k1 ⊢
        rcases hsp : signScriptPathW W msg i x sk sigs c1 with ⟨e | ⟨sigs1, u2⟩, c2⟩
        · rw [hsp] at l1
          exact ⟨Nat.le_trans k1 l1, fun f s' h => (by cases h; exact l2 _ _ hsp), fun sig' sigs' u s' h => by cases h⟩
        · rw [hsp] at l1
          have l3 := l3 sigs1 u2 c2 hsp
          simp only at l1 ⊢
          obtain ⟨m1, m2, m3⟩ := ih hd' sig1 sigs1 (used ++ u1 ++ u2) (s1, c2)
          refine ⟨Nat.le_trans (Nat.le_trans k1 l1) m1, m2, ?_⟩
          intro sig' sigs' u s' h
          have m3 := m3 sig' sigs' u s' h
          rw [h] at m1
          exact Drawn.trans k3 (Drawn.trans l3 m3 l1 m1) k1 (Nat.le_trans l1 m1)

end V0
end Psbt
