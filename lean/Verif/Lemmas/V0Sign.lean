/- The signing loops of PSBT v0. -/
import Verif.Lemmas.V0Taproot
import Verif.Lemmas.Sign
namespace Psbt.V0
open Psbt

variable {L : Lib} {S : SigLib L}

/-! ### Schnorr signatures of one input -/

section Schnorr
variable {msg : Option Hash32 → Out SignErr (Hash32 × TapTy)}

theorem signLeaves_ok {kp : S.Keypair} {x : L.xonly.T} {lhs : List Hash32} {sigs sigs' : BMap (L.xonly.T × Hash32) TapSig}
    (h : signLeaves S msg kp x lhs sigs = .ok sigs') :
    (∀ y lh, (y ≠ x ∨ lh ∉ lhs) → sigs'.get (y, lh) = sigs.get (y, lh)) ∧
    ∀ lh ∈ lhs, ∃ m ty, msg (some lh) = .ok (m, ty) ∧ sigs'.get (x, lh) = some ⟨S.signSchnorr m kp, ty⟩ := by
  induction lhs generalizing sigs with
  | nil => simp only [signLeaves] at h; cases h; simp
  | cons a lhs ih =>
    simp only [signLeaves] at h
    rw [bind_ok] at h
    obtain ⟨⟨m, ty⟩, h1, h⟩ := h
    obtain ⟨h2, h3⟩ := ih h
    constructor
    · intro y lh hy
      have hy' : y ≠ x ∨ lh ∉ lhs := hy.imp (fun h => h) fun h => fun h' => h (List.mem_cons_of_mem _ h')
      rw [h2 y lh hy', BMap.get_insert_ne]
      intro he
      cases he
      simp at hy
    · intro lh hl
      by_cases hm : lh ∈ lhs
      · exact h3 lh hm
      · rcases List.mem_cons.mp hl with rfl | hl
        · refine ⟨m, ty, h1, ?_⟩
          rw [h2 x lh (.inr hm), BMap.get_insert_self]
        · exact absurd hl hm

theorem signLeaves_error {kp : S.Keypair} {x : L.xonly.T} {lhs : List Hash32} {sigs : BMap (L.xonly.T × Hash32) TapSig} {e : Fail SignErr}
    (h : signLeaves S msg kp x lhs sigs = .error e) : ∃ lh ∈ lhs, msg (some lh) = .error e := by
  induction lhs generalizing sigs with
  | nil => cases h
  | cons a lhs ih =>
    simp only [signLeaves] at h
    cases hm : msg (some a) with
    | error f => rw [hm] at h; cases h; exact ⟨a, by simp, hm⟩
    | ok mt =>
      rw [hm] at h
      simp only [ok_bind] at h
      obtain ⟨lh, h1, h2⟩ := ih h
      exact ⟨lh, by simp [h1], h2⟩

/-- The key path has to be signed for this entry. -/
def keyDue (i : Input L) (x : L.xonly.T) (lhs : List Hash32) (sig : Option TapSig) : Prop :=
  i.tapInternalKey = some x ∧ lhs = [] ∧ sig = none

instance (i : Input L) (x : L.xonly.T) (lhs : List Hash32) (sig : Option TapSig) : Decidable (keyDue i x lhs sig) :=
  inferInstanceAs (Decidable (_ ∧ _ ∧ _))

theorem signKeyPath_eq (i : Input L) (x : L.xonly.T) (lhs : List Hash32) (sk : S.SK) (sig : Option TapSig) :
    signKeyPath S msg i x lhs sk sig =
      if keyDue i x lhs sig then
        (match msg none with
        | .ok (m, ty) => .ok (some ⟨S.signSchnorr m (S.tapTweak (S.keypair sk) i.tapMerkleRoot), ty⟩, [x])
        | .error e => .error e)
      else .ok (sig, []) := by
  unfold signKeyPath
  by_cases h : keyDue i x lhs sig
  · rw [if_pos h, h.1]
    simp only [h.2.1, h.2.2, List.isEmpty_nil, Option.isNone_none, and_self, if_true]
    cases msg none <;> rfl
  · rw [if_neg h]
    split
    · rfl
    · rename_i ik hk
      rw [if_neg]
      rintro ⟨rfl, h2, h3⟩
      exact h ⟨hk, List.isEmpty_iff.mp h2, Option.isNone_iff_eq_none.mp h3⟩

/-- The leaves to be signed for this entry. -/
def leavesDue (x : L.xonly.T) (lhs : List Hash32) (sigs : BMap (L.xonly.T × Hash32) TapSig) : List Hash32 :=
  lhs.filter fun lh => (sigs.get (x, lh)).isNone

theorem mem_leavesDue {x : L.xonly.T} {lhs : List Hash32} {sigs : BMap (L.xonly.T × Hash32) TapSig} {lh : Hash32} :
    lh ∈ leavesDue x lhs sigs ↔ lh ∈ lhs ∧ sigs.get (x, lh) = none := by
  simp [leavesDue]

theorem signScriptPath_eq {i : Input L} {x : L.xonly.T} {lhs : List Hash32} {ks : KeySource}
    (h : i.tapKeyOrigins.get x = some (lhs, ks)) (sk : S.SK) (sigs : BMap (L.xonly.T × Hash32) TapSig) :
    signScriptPath S msg i x sk sigs =
      if leavesDue x lhs sigs = [] then .ok (sigs, [])
      else (match signLeaves S msg (S.keypair sk) x (leavesDue x lhs sigs) sigs with
        | .ok sigs' => .ok (sigs', [S.xonly (S.pub sk)])
        | .error e => .error e) := by
  unfold signScriptPath
  rw [h]
  simp only [List.isEmpty_iff]
  unfold leavesDue
  generalize lhs.filter (fun lh => (sigs.get (x, lh)).isNone) = ls
  by_cases hd : ls = []
  · rw [if_pos hd, if_pos hd]
  · rw [if_neg hd, if_neg hd]
    cases signLeaves S msg (S.keypair sk) x ls sigs <;> rfl

/-- The keys reported for one entry. -/
def usedFor (k : Provider S) (i : Input L) (sig : Option TapSig) (sigs : BMap (L.xonly.T × Hash32) TapSig)
    (d : L.xonly.T × List Hash32 × KeySource) : List L.xonly.T :=
  match Spec.answer (k (.bip32 d.2.2)) with
  | none => []
  | some sk => (if keyDue i d.1 d.2.1 sig then [d.1] else []) ++ (if leavesDue d.1 d.2.1 sigs = [] then [] else [S.xonly (S.pub sk)])

/-- A message is asked for. -/
def Due (k : Provider S) (i : Input L) (ds : List (L.xonly.T × List Hash32 × KeySource)) (sig : Option TapSig)
    (sigs : BMap (L.xonly.T × Hash32) TapSig) (leaf : Option Hash32) : Prop :=
  ∃ x lhs ks sk, (x, lhs, ks) ∈ ds ∧ Spec.answer (k (.bip32 ks)) = some sk ∧
    ((leaf = none ∧ keyDue i x lhs sig) ∨ ∃ lh, leaf = some lh ∧ lh ∈ lhs ∧ sigs.get (x, lh) = none)

/-- What the loop has done. -/
structure Done (S : SigLib L) (k : Provider S) (msg : Option Hash32 → Out SignErr (Hash32 × TapTy)) (i : Input L)
    (ds : List (L.xonly.T × List Hash32 × KeySource)) (sig : Option TapSig) (sigs : BMap (L.xonly.T × Hash32) TapSig)
    (sig' : Option TapSig) (sigs' : BMap (L.xonly.T × Hash32) TapSig) : Prop where
  keyKept : ∀ g, sig = some g → sig' = some g
  keyNone : (∀ x lhs ks sk, (x, lhs, ks) ∈ ds → keyDue i x lhs sig → Spec.answer (k (.bip32 ks)) ≠ some sk) → sig' = sig
  key : ∀ x lhs ks sk, (x, lhs, ks) ∈ ds → keyDue i x lhs sig → Spec.answer (k (.bip32 ks)) = some sk →
    ∃ m ty, msg none = .ok (m, ty) ∧ sig' = some ⟨S.signSchnorr m (S.tapTweak (S.keypair sk) i.tapMerkleRoot), ty⟩
  leafKept : ∀ x lh g, sigs.get (x, lh) = some g → sigs'.get (x, lh) = some g
  leafNone : ∀ x lh, (∀ lhs ks sk, (x, lhs, ks) ∈ ds → lh ∈ lhs → Spec.answer (k (.bip32 ks)) ≠ some sk) →
    sigs'.get (x, lh) = sigs.get (x, lh)
  leaf : ∀ x lh lhs ks sk, (x, lhs, ks) ∈ ds → lh ∈ lhs → sigs.get (x, lh) = none → Spec.answer (k (.bip32 ks)) = some sk →
    ∃ m ty, msg (some lh) = .ok (m, ty) ∧ sigs'.get (x, lh) = some ⟨S.signSchnorr m (S.keypair sk), ty⟩

theorem schnorrLoop_cons (k : Provider S) (i : Input L) (x : L.xonly.T) (lhs : List Hash32) (ks : KeySource)
    (ds : List (L.xonly.T × List Hash32 × KeySource)) (sig : Option TapSig) (sigs : BMap (L.xonly.T × Hash32) TapSig)
    (used : List L.xonly.T) :
    schnorrLoop S k msg i ((x, lhs, ks) :: ds) sig sigs used =
      match Spec.answer (k (.bip32 ks)) with
      | none => schnorrLoop S k msg i ds sig sigs used
      | some sk =>
        match signKeyPath S msg i x lhs sk sig with
        | .error e => .error e
        | .ok (sig', u) =>
          match signScriptPath S msg i x sk sigs with
          | .error e => .error e
          | .ok (sigs', v) => schnorrLoop S k msg i ds sig' sigs' (used ++ u ++ v) := by
  rw [schnorrLoop]
  cases k (.bip32 ks) with
  | error e => rfl
  | ok o =>
    cases o with
    | none => rfl
    | some sk =>
      simp only [Spec.answer]
      cases signKeyPath S msg i x lhs sk sig with
      | error e => rfl
      | ok a =>
        obtain ⟨a, b⟩ := a
        simp only [ok_bind]
        cases signScriptPath S msg i x sk sigs with
        | error e => rfl
        | ok c => rfl

theorem usedFor_congr {k : Provider S} {i : Input L} {sig sig' : Option TapSig} {sigs sigs' : BMap (L.xonly.T × Hash32) TapSig}
    {d : L.xonly.T × List Hash32 × KeySource} (h1 : keyDue i d.1 d.2.1 sig ↔ keyDue i d.1 d.2.1 sig')
    (h2 : ∀ lh, sigs.get (d.1, lh) = sigs'.get (d.1, lh)) : usedFor k i sig sigs d = usedFor k i sig' sigs' d := by
  unfold usedFor leavesDue
  simp only [h1, h2]

theorem schnorrLoop_spec (k : Provider S) (i : Input L) (ds : List (L.xonly.T × List Hash32 × KeySource))
    (hd : ds.Pairwise fun a b => a.1 ≠ b.1) (hsub : ∀ d ∈ ds, i.tapKeyOrigins.get d.1 = some d.2)
    (sig : Option TapSig) (sigs : BMap (L.xonly.T × Hash32) TapSig) (used : List L.xonly.T) :
    (∃ sig' sigs', schnorrLoop S k msg i ds sig sigs used = .ok (sig', sigs', used ++ ds.flatMap (usedFor k i sig sigs)) ∧
      Done S k msg i ds sig sigs sig' sigs') ∨
    ∃ leaf e, schnorrLoop S k msg i ds sig sigs used = .error e ∧ msg leaf = .error e ∧ Due k i ds sig sigs leaf := by
  induction ds generalizing sig sigs used with
  | nil =>
    refine .inl ⟨sig, sigs, by simp [schnorrLoop], ?_⟩
    constructor <;> simp
  | cons d ds ih =>
    obtain ⟨x, lhs, ks⟩ := d
    obtain ⟨hd1, hd2⟩ := List.pairwise_cons.mp hd
    have hsub2 : ∀ d ∈ ds, i.tapKeyOrigins.get d.1 = some d.2 := fun d h => hsub d (by simp [h])
    have hx : ∀ y l s, (y, l, s) ∈ ds → y ≠ x := fun y l s h e => hd1 _ h e.symm
    rw [schnorrLoop_cons]
    cases ha : Spec.answer (k (.bip32 ks)) with
    | none =>
      have hu : usedFor k i sig sigs (x, lhs, ks) = [] := by unfold usedFor; simp only [ha]
      simp only [List.flatMap_cons, hu, List.nil_append]
      rcases ih hd2 hsub2 sig sigs used with ⟨sig', sigs', h1, h2⟩ | ⟨leaf, e, h1, h2, y, l, s, sk, h3, h4⟩
      · refine .inl ⟨sig', sigs', h1, h2.keyKept, ?_, ?_, h2.leafKept, ?_, ?_⟩
        · intro h; exact h2.keyNone fun y l s sk hm => h y l s sk (by simp [hm])
        · intro y l s sk hm hk has
          rcases List.mem_cons.mp hm with he | hm
          · cases he; rw [ha] at has; cases has
          · exact h2.key y l s sk hm hk has
        · intro y lh h; exact h2.leafNone y lh fun l s sk hm => h l s sk (by simp [hm])
        · intro y lh l s sk hm hl hn has
          rcases List.mem_cons.mp hm with he | hm
          · cases he; rw [ha] at has; cases has
          · exact h2.leaf y lh l s sk hm hl hn has
      · exact .inr ⟨leaf, e, h1, h2, y, l, s, sk, by simp [h3], h4⟩
    | some sk =>
      simp only
      rw [signKeyPath_eq]
      have hx0 := hsub (x, lhs, ks) (by simp)
      simp only at hx0
      rw [signScriptPath_eq hx0]
      have fin : ∀ (sig1 : Option TapSig) (sigs1 : BMap (L.xonly.T × Hash32) TapSig) (u v : List L.xonly.T),
          ((keyDue i x lhs sig ∧ u = [x] ∧ ∃ m ty, msg none = .ok (m, ty) ∧
            sig1 = some ⟨S.signSchnorr m (S.tapTweak (S.keypair sk) i.tapMerkleRoot), ty⟩) ∨ (¬ keyDue i x lhs sig ∧ u = [] ∧ sig1 = sig)) →
          (v = if leavesDue x lhs sigs = [] then [] else [S.xonly (S.pub sk)]) →
          ((∀ y lh, (y ≠ x ∨ lh ∉ leavesDue x lhs sigs) → sigs1.get (y, lh) = sigs.get (y, lh)) ∧
            ∀ lh ∈ leavesDue x lhs sigs, ∃ m ty, msg (some lh) = .ok (m, ty) ∧
              sigs1.get (x, lh) = some ⟨S.signSchnorr m (S.keypair sk), ty⟩) →
          (∃ sig' sigs', schnorrLoop S k msg i ds sig1 sigs1 (used ++ u ++ v) =
              .ok (sig', sigs', used ++ ((x, lhs, ks) :: ds).flatMap (usedFor k i sig sigs)) ∧
            Done S k msg i ((x, lhs, ks) :: ds) sig sigs sig' sigs') ∨
          ∃ leaf e, schnorrLoop S k msg i ds sig1 sigs1 (used ++ u ++ v) = .error e ∧ msg leaf = .error e ∧
            Due k i ((x, lhs, ks) :: ds) sig sigs leaf := by
        intro sig1 sigs1 u v hk hv hl
        have hdue : ∀ y l s, (y, l, s) ∈ ds → (keyDue i y l sig1 ↔ keyDue i y l sig) := by
          intro y l s hm
          rcases hk with ⟨h1, -, m, ty, -, h2⟩ | ⟨-, -, h2⟩
          · have : ¬ i.tapInternalKey = some y := by
              rw [h1.1]; intro h; cases h; exact hx _ _ _ hm rfl
            simp [keyDue, this]
          · rw [h2]
        have hget : ∀ y l s, (y, l, s) ∈ ds → ∀ lh, sigs1.get (y, lh) = sigs.get (y, lh) :=
          fun y l s hm lh => hl.1 y lh (.inl (hx y l s hm))
        have hused : used ++ u ++ v ++ ds.flatMap (usedFor k i sig1 sigs1) =
            used ++ ((x, lhs, ks) :: ds).flatMap (usedFor k i sig sigs) := by
          have h1 : ds.flatMap (usedFor k i sig1 sigs1) = ds.flatMap (usedFor k i sig sigs) := by
            simp only [List.flatMap_def]
            congr 1
            apply List.map_congr_left
            rintro ⟨y, l, s⟩ hm
            exact usedFor_congr (hdue y l s hm) (hget y l s hm)
          have h2 : usedFor k i sig sigs (x, lhs, ks) = u ++ v := by
            unfold usedFor
            simp only [ha]
            rcases hk with ⟨h1, h2, -⟩ | ⟨h1, h2, -⟩
            · rw [if_pos h1, h2, hv]
            · rw [if_neg h1, h2, hv]
          rw [h1, List.flatMap_cons, h2]
          simp only [List.append_assoc]
        rcases ih hd2 hsub2 sig1 sigs1 (used ++ u ++ v) with ⟨sig', sigs', h1, h2⟩ | ⟨leaf, e, h1, h2, y, l, s, sk', h3, h4, h5⟩
        · rw [hused] at h1
          refine .inl ⟨sig', sigs', h1, ?_, ?_, ?_, ?_, ?_, ?_⟩
          · intro g hg
            apply h2.keyKept
            rcases hk with ⟨h, -⟩ | ⟨-, -, h⟩
            · rw [h.2.2] at hg; cases hg
            · rw [h, hg]
          · intro h
            rcases hk with ⟨h3, -⟩ | ⟨h3, -, h4⟩
            · exact absurd ha (h x lhs ks sk (by simp) h3)
            · rw [← h4]
              apply h2.keyNone
              intro y l s sk' hm hy
              exact h y l s sk' (by simp [hm]) (h4 ▸ hy)
          · intro y l s sk' hm hy has
            rcases List.mem_cons.mp hm with he | hm
            · cases he
              rw [ha] at has; cases has
              rcases hk with ⟨-, -, m, ty, h3, h4⟩ | ⟨h3, -⟩
              · exact ⟨m, ty, h3, h2.keyKept _ h4⟩
              · exact absurd hy h3
            · exact h2.key y l s sk' hm ((hdue y l s hm).mpr hy) has
          · intro y lh g hg
            apply h2.leafKept
            rw [hl.1 y lh, hg]
            by_cases hy : y = x
            · subst hy; right; rw [mem_leavesDue, hg]; simp
            · exact .inl hy
          · intro y lh h
            rw [h2.leafNone y lh fun l s sk' hm => h l s sk' (by simp [hm])]
            apply hl.1
            by_cases hy : y = x
            · subst hy
              right
              rw [mem_leavesDue]
              intro hc
              exact h lhs ks sk (by simp) hc.1 ha
            · exact .inl hy
          · intro y lh l s sk' hm hin hn has
            rcases List.mem_cons.mp hm with he | hm
            · cases he
              rw [ha] at has; cases has
              obtain ⟨m, ty, h3, h4⟩ := hl.2 lh (mem_leavesDue.mpr ⟨hin, hn⟩)
              exact ⟨m, ty, h3, h2.leafKept _ _ _ h4⟩
            · exact h2.leaf y lh l s sk' hm hin ((hget y l s hm lh).trans hn) has
        · refine .inr ⟨leaf, e, h1, h2, y, l, s, sk', by simp [h3], h4, ?_⟩
          rcases h5 with ⟨h5, h6⟩ | ⟨lh, h5, h6, h7⟩
          · exact .inl ⟨h5, (hdue y l s h3).mp h6⟩
          · exact .inr ⟨lh, h5, h6, (hget y l s h3 lh).symm.trans h7⟩
      -- the script path, after the key path went well
      have script : ∀ (sig1 : Option TapSig) (u : List L.xonly.T),
          ((keyDue i x lhs sig ∧ u = [x] ∧ ∃ m ty, msg none = .ok (m, ty) ∧
            sig1 = some ⟨S.signSchnorr m (S.tapTweak (S.keypair sk) i.tapMerkleRoot), ty⟩) ∨ (¬ keyDue i x lhs sig ∧ u = [] ∧ sig1 = sig)) →
          (∃ sig' sigs', (match (if leavesDue x lhs sigs = [] then Except.ok (sigs, [])
              else (match signLeaves S msg (S.keypair sk) x (leavesDue x lhs sigs) sigs with
                | .ok sigs' => .ok (sigs', [S.xonly (S.pub sk)])
                | .error e => .error e) : Out SignErr _) with
              | Except.error e => Except.error e
              | Except.ok (sigs', v) => schnorrLoop S k msg i ds sig1 sigs' (used ++ u ++ v)) =
              .ok (sig', sigs', used ++ ((x, lhs, ks) :: ds).flatMap (usedFor k i sig sigs)) ∧
            Done S k msg i ((x, lhs, ks) :: ds) sig sigs sig' sigs') ∨
          ∃ leaf e, (match (if leavesDue x lhs sigs = [] then Except.ok (sigs, [])
              else (match signLeaves S msg (S.keypair sk) x (leavesDue x lhs sigs) sigs with
                | .ok sigs' => .ok (sigs', [S.xonly (S.pub sk)])
                | .error e => .error e) : Out SignErr _) with
              | Except.error e => Except.error e
              | Except.ok (sigs', v) => schnorrLoop S k msg i ds sig1 sigs' (used ++ u ++ v)) = .error e ∧ msg leaf = .error e ∧
            Due k i ((x, lhs, ks) :: ds) sig sigs leaf := by
        intro sig1 u hk
        by_cases hn : leavesDue x lhs sigs = []
        · simp only [if_pos hn]
          refine fin sig1 sigs u [] hk (by rw [if_pos hn]) ⟨fun _ _ _ => rfl, ?_⟩
          rw [hn]; simp
        · simp only [if_neg hn]
          cases hs : signLeaves S msg (S.keypair sk) x (leavesDue x lhs sigs) sigs with
          | ok sigs1 => exact fin sig1 sigs1 u _ hk (by rw [if_neg hn]) (signLeaves_ok hs)
          | error e =>
            obtain ⟨lh, h1, h2⟩ := signLeaves_error hs
            refine .inr ⟨some lh, e, rfl, h2, x, lhs, ks, sk, by simp, ha, .inr ⟨lh, rfl, mem_leavesDue.mp h1⟩⟩
      by_cases hdue : keyDue i x lhs sig
      · simp only [if_pos hdue]
        cases hm : msg none with
        | error e => exact .inr ⟨none, e, rfl, hm, x, lhs, ks, sk, by simp, ha, .inl ⟨rfl, hdue⟩⟩
        | ok mt =>
          obtain ⟨m, ty⟩ := mt
          exact script _ _ (.inl ⟨hdue, rfl, m, ty, hm, rfl⟩)
      · simp only [if_neg hdue]
        exact script _ _ (.inr ⟨hdue, rfl, rfl⟩)

end Schnorr

theorem keys_ne {K V : Type} [DecidableEq K] [OrdKey K] (m : BMap K V) : m.l.Pairwise fun a b => a.1 ≠ b.1 := by
  obtain ⟨l, h⟩ := m
  simp only
  induction l with
  | nil => exact .nil
  | cons a l ih => exact .cons (fun b hb => OrdKey.ne_of_lt (h.lt_of_mem b hb)) (ih h.tail)

/-! ### All inputs -/

/-- What the loop of `sign` does with one input. -/
inductive Outcome (L : Lib) where
  | panic (s : String)
  | fail (e : SignErr)
  | signed (i : Input L) (keys : SigningKeys L)

/-- The outcome for input `n`, read off the PSBT signing started with. -/
def outcome (S : SigLib L) (k : Provider S) (tx : Tx) (p : Psbt L) (n : Nat) : Outcome L :=
  match p.signingAlgorithm n with
  | .error (.panic s) => .panic s
  | .error (.err e) => .fail e
  | .ok .ecdsa =>
    match p.inputs[n]? with
    | none => .panic "index out of bounds"
    | some i =>
      match p.sighashEcdsa n tx with
      | .error (.panic s) => .panic s
      | .error (.err e) => if (Spec.V0.keysFor S k i).isEmpty then .signed i (.ecdsa []) else .fail e
      | .ok (m, ty) =>
        .signed { i with partialSigs := Spec.addSigs S m ty (Spec.V0.keysFor S k i) i.partialSigs }
          (.ecdsa ((Spec.V0.keysFor S k i).map S.pub))
  | .ok .schnorr =>
    match p.inputs[n]? with
    | none => .panic "index out of bounds"
    | some i =>
      match schnorrLoop S k (p.sighashTaproot n tx) i i.tapKeyOrigins.l i.tapKeySig i.tapScriptSigs [] with
      | .error (.panic s) => .panic s
      | .error (.err e) => .fail e
      | .ok (sig, sigs, used) => .signed { i with tapKeySig := sig, tapScriptSigs := sigs } (.schnorr used)

/-- The loop state after one input got its outcome. -/
def applyState (s : Signing L) (n : Nat) : Outcome L → Signing L
  | .panic _ => s
  | .fail e => { s with errors := s.errors.insert n e }
  | .signed i keys => { s with psbt := { s.psbt with inputs := s.psbt.inputs.set n i }, used := s.used.insert n keys }

theorem signLoop_v0 (k : Provider S) (res : Except SignErr (Hash32 × EcdsaTy)) (i : Input L) :
    V2.signLoop S k res i.bip32Derivation.l i.partialSigs [] =
      if (Spec.V0.keysFor S k i).isEmpty then .ok (i.partialSigs, [])
      else match res with
        | .error e => .error e
        | .ok (m, ty) => .ok (Spec.addSigs S m ty (Spec.V0.keysFor S k i) i.partialSigs, (Spec.V0.keysFor S k i).map S.pub) := by
  rw [V2.signLoop_eq]
  unfold Spec.V0.keysFor
  generalize i.bip32Derivation.l.filterMap _ = keys
  cases keys with
  | nil => rfl
  | cons a l =>
    cases res with
    | error e => rfl
    | ok mt => rfl

theorem set_self {α : Type} {l : List α} {n : Nat} {a : α} (h : l[n]? = some a) : l.set n a = l := by
  obtain ⟨h1, h2⟩ := List.getElem?_eq_some_iff.mp h
  subst h2
  exact List.set_getElem_self h1

theorem signStep_eq (k : Provider S) (tx : Tx) (s : Signing L) (n : Nat) :
    signStep S k tx s n =
      match outcome S k tx s.psbt n with
      | .panic m => .error (.panic m)
      | o => .ok (applyState s n o) := by
  have hin : ∀ a, s.psbt.signingAlgorithm n = .ok a → ∃ t i, Spec.V0.HasInput s.psbt n t i := by
    intro a ha
    unfold Psbt.signingAlgorithm at ha
    rw [bind_ok] at ha
    obtain ⟨ty, ho, -⟩ := ha
    obtain ⟨t, i, u, h1, -⟩ := (outputType_iff _ n ty).mp ho
    exact ⟨t, i, h1⟩
  unfold signStep outcome
  cases ha : s.psbt.signingAlgorithm n with
  | error e => cases e <;> rfl
  | ok a =>
    obtain ⟨t, i, hi⟩ := hin a ha
    cases a with
    | ecdsa =>
      simp only [hi.2]
      unfold Psbt.bip32SignEcdsa Psbt.signWith
      simp only [hi.2]
      cases hs : s.psbt.sighashEcdsa n tx with
      | error e =>
        cases e with
        | panic m => rfl
        | err e =>
          simp only [signLoop_v0]
          by_cases hk : (Spec.V0.keysFor S k i).isEmpty = true
          · simp only [if_pos hk]; rfl
          · simp only [if_neg hk]; rfl
      | ok mt =>
        obtain ⟨m, ty⟩ := mt
        simp only [signLoop_v0]
        by_cases hk : (Spec.V0.keysFor S k i).isEmpty = true
        · simp only [if_pos hk, List.isEmpty_iff.mp hk]; rfl
        · simp only [if_neg hk]; rfl
    | schnorr =>
      simp only [hi.2]
      unfold Psbt.bip32SignSchnorr
      rw [checkedInput_ok.mpr ⟨t, hi⟩]
      simp only
      cases schnorrLoop S k (s.psbt.sighashTaproot n tx) i i.tapKeyOrigins.l i.tapKeySig i.tapScriptSigs [] with
      | error e => cases e <;> rfl
      | ok r => rfl

theorem outcome_congr {k : Provider S} {tx : Tx} {p q : Psbt L} {n : Nat} (he : Spec.V0.erase q = Spec.V0.erase p)
    (hi : q.inputs[n]? = p.inputs[n]?) : outcome S k tx q n = outcome S k tx p n := by
  have h1 : q.signingAlgorithm n = p.signingAlgorithm n := by rw [← signingAlgorithm_erase, he, signingAlgorithm_erase]
  have h2 : q.sighashEcdsa n tx = p.sighashEcdsa n tx := by rw [← sighashEcdsa_erase, he, sighashEcdsa_erase]
  have h3 : q.sighashTaproot n tx = p.sighashTaproot n tx := by
    funext leaf; rw [← sighashTaproot_erase, he, sighashTaproot_erase]
  unfold outcome
  rw [h1, h2, h3, hi]

theorem outcome_signed {k : Provider S} {tx : Tx} {p : Psbt L} {n : Nat} {i' : Input L} {keys : SigningKeys L}
    (h : outcome S k tx p n = .signed i' keys) : ∃ i, p.inputs[n]? = some i ∧ Spec.V0.eraseInput i' = Spec.V0.eraseInput i := by
  unfold outcome at h
  cases ha : p.signingAlgorithm n with
  | error e => rw [ha] at h; cases e <;> cases h
  | ok a =>
    cases hi : p.inputs[n]? with
    | none => simp only [ha, hi] at h; cases a <;> cases h
    | some i =>
      refine ⟨i, rfl, ?_⟩
      simp only [ha, hi] at h
      cases a with
      | ecdsa =>
        cases hs : p.sighashEcdsa n tx with
        | error e =>
          cases e with
          | panic m => simp only [hs] at h; cases h
          | err e =>
            simp only [hs] at h
            split at h
            · cases h; rfl
            · cases h
        | ok mt => simp only [hs] at h; cases h; rfl
      | schnorr =>
        cases hs : schnorrLoop S k (p.sighashTaproot n tx) i i.tapKeyOrigins.l i.tapKeySig i.tapScriptSigs [] with
        | error e => cases e <;> (simp only [hs] at h; cases h)
        | ok r => simp only [hs] at h; cases h; rfl

theorem erase_set {p : Psbt L} {n : Nat} {i i' : Input L} (h : p.inputs[n]? = some i)
    (e : Spec.V0.eraseInput i' = Spec.V0.eraseInput i) :
    Spec.V0.erase { p with inputs := p.inputs.set n i' } = Spec.V0.erase p := by
  unfold Spec.V0.erase
  simp only [List.map_set, e]
  rw [set_self]
  rw [List.getElem?_map, h]; rfl

/-- Keys reported for an outcome. -/
def Outcome.used : Outcome L → Option (SigningKeys L)
  | .signed _ keys => some keys
  | _ => none
/-- Error reported for an outcome. -/
def Outcome.err : Outcome L → Option SignErr
  | .fail e => some e
  | _ => none
/-- The input after an outcome. -/
def Outcome.input (o : Outcome L) (i : Option (Input L)) : Option (Input L) :=
  match o with
  | .signed i' _ => some i'
  | _ => i

theorem signAll_spec (k : Provider S) (tx : Tx) (p : Psbt L) (ns : List Nat) (hn : ns.Nodup) (s : Signing L)
    (he : Spec.V0.erase s.psbt = Spec.V0.erase p) (hs : ∀ n ∈ ns, s.psbt.inputs[n]? = p.inputs[n]?) :
    ((∀ n ∈ ns, ∀ m, outcome S k tx p n ≠ .panic m) ∧ ∃ s', signAll S k tx s ns = .ok s' ∧ Spec.V0.erase s'.psbt = Spec.V0.erase p ∧
      ∀ j, s'.psbt.inputs[j]? = (if j ∈ ns then (outcome S k tx p j).input (p.inputs[j]?) else s.psbt.inputs[j]?) ∧
        s'.used.get j = (if j ∈ ns then (outcome S k tx p j).used.or (s.used.get j) else s.used.get j) ∧
        s'.errors.get j = (if j ∈ ns then (outcome S k tx p j).err.or (s.errors.get j) else s.errors.get j)) ∨
    ∃ n ∈ ns, ∃ m, outcome S k tx p n = .panic m ∧ signAll S k tx s ns = .error (.panic m) := by
  induction ns generalizing s with
  | nil => exact .inl ⟨by simp, s, rfl, he, fun j => by simp⟩
  | cons n ns ih =>
    obtain ⟨hn1, hn2⟩ := List.nodup_cons.mp hn
    have ho : outcome S k tx s.psbt n = outcome S k tx p n := outcome_congr he (hs n (by simp))
    rw [signAll, signStep_eq, ho]
    have go : ∀ o, outcome S k tx p n = o → (∀ m, o ≠ .panic m) →
        (((∀ j ∈ n :: ns, ∀ m, outcome S k tx p j ≠ .panic m) ∧ ∃ s', signAll S k tx (applyState s n o) ns = .ok s' ∧
          Spec.V0.erase s'.psbt = Spec.V0.erase p ∧
          ∀ j, s'.psbt.inputs[j]? = (if j ∈ n :: ns then (outcome S k tx p j).input (p.inputs[j]?) else s.psbt.inputs[j]?) ∧
            s'.used.get j = (if j ∈ n :: ns then (outcome S k tx p j).used.or (s.used.get j) else s.used.get j) ∧
            s'.errors.get j = (if j ∈ n :: ns then (outcome S k tx p j).err.or (s.errors.get j) else s.errors.get j)) ∨
        ∃ j ∈ n :: ns, ∃ m, outcome S k tx p j = .panic m ∧ signAll S k tx (applyState s n o) ns = .error (.panic m)) := by
      intro o ho' hnp
      have hin : ∀ j, (applyState s n o).psbt.inputs[j]? = if j = n then o.input (p.inputs[j]?) else s.psbt.inputs[j]? := by
        intro j
        cases o with
        | panic m => exact absurd rfl (hnp m)
        | fail e =>
          simp only [applyState, Outcome.input]
          split
          · rename_i h; subst h; exact hs j (by simp)
          · rfl
        | signed i' keys =>
          obtain ⟨i, h1, h2⟩ := outcome_signed ho'
          have h3 := hs n (by simp)
          rw [h1] at h3
          have := (List.getElem?_eq_some_iff.mp h3).1
          simp only [applyState, Outcome.input, List.getElem?_set]
          by_cases hj : n = j
          · subst hj; simp [this]
          · have : ¬ j = n := fun h => hj h.symm
            simp [hj, this]
      have her : Spec.V0.erase (applyState s n o).psbt = Spec.V0.erase p := by
        cases o with
        | panic m => exact he
        | fail e => exact he
        | signed i' keys =>
          obtain ⟨i, h1, h2⟩ := outcome_signed ho'
          have h3 := hs n (by simp)
          rw [h1] at h3
          exact (erase_set h3 h2).trans he
      have hu : ∀ j, (applyState s n o).used.get j = if j = n then o.used.or (s.used.get j) else s.used.get j := by
        intro j
        cases o <;> simp only [applyState, Outcome.used, Option.none_or, ite_self, Option.some_or]
        rw [BMap.get_insert]
      have hr : ∀ j, (applyState s n o).errors.get j = if j = n then o.err.or (s.errors.get j) else s.errors.get j := by
        intro j
        cases o <;> simp only [applyState, Outcome.err, Option.none_or, ite_self, Option.some_or]
        rw [BMap.get_insert]
      rcases ih hn2 (applyState s n o) her (by
        intro j hj
        have : j ≠ n := fun h => hn1 (h ▸ hj)
        rw [hin, if_neg this]; exact hs j (by simp [hj])) with ⟨h1, s', h2, h3, h4⟩ | ⟨j, hj, m, h1, h2⟩
      · refine .inl ⟨?_, s', h2, h3, ?_⟩
        · intro j hj m hm
          rcases List.mem_cons.mp hj with rfl | hj
          · exact hnp m (ho' ▸ hm)
          · exact h1 j hj m hm
        · intro j
          obtain ⟨h5, h6, h7⟩ := h4 j
          rw [h5, h6, h7, hin, hu, hr]
          by_cases hj : j = n
          · subst hj
            simp [hn1, ho']
          · simp [hj]
      · exact .inr ⟨j, by simp [hj], m, h1, h2⟩
    cases e : outcome S k tx p n with
    | panic m => exact .inr ⟨n, by simp, m, e, rfl⟩
    | fail f => exact go _ e (by simp)
    | signed i keys => exact go _ e (by simp)

theorem outcome_no_panic {k : Provider S} {p : Psbt L} (hr : Spec.V0.IndicesInRange p) (n : Nat) (m : String) :
    outcome S k p.unsignedTx p n ≠ .panic m := by
  intro h
  unfold outcome at h
  cases ha : p.signingAlgorithm n with
  | error e =>
    cases e with
    | panic s =>
      obtain ⟨-, t, i, h1, h2⟩ := signingAlgorithm_panic.mp ha
      exact not_dangling hr h1 h2
    | err e => rw [ha] at h; cases h
  | ok a =>
    have ha' := ha
    unfold Psbt.signingAlgorithm at ha'
    rw [bind_ok] at ha'
    obtain ⟨ty, ho, -⟩ := ha'
    obtain ⟨t, i, u, hi, -⟩ := (outputType_iff _ n ty).mp ho
    simp only [ha, hi.2] at h
    cases a with
    | ecdsa =>
      cases hs : p.sighashEcdsa n p.unsignedTx with
      | error e =>
        cases e with
        | panic s => exact sighashEcdsa_no_panic p n _ (List.getElem?_eq_some_iff.mp hi.1).1 (fun t i h => not_dangling hr h) s hs
        | err e => simp only [hs] at h; split at h <;> cases h
      | ok mt => simp only [hs] at h; cases h
    | schnorr =>
      rcases schnorrLoop_spec (S := S) (msg := p.sighashTaproot n p.unsignedTx) k i i.tapKeyOrigins.l
        (keys_ne i.tapKeyOrigins) (fun d hd => BMap.mem_iff_get.mp hd) i.tapKeySig i.tapScriptSigs [] with ⟨sig, sigs, h1, -⟩ | ⟨leaf, e, h1, h2, -⟩
      · simp only [h1] at h; cases h
      · cases e with
        | panic s => exact sighashTaproot_no_panic hr s h2
        | err e => simp only [h1] at h; cases h

end Psbt.V0
