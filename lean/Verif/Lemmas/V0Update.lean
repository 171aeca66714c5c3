/- Facts about filling in a PSBT v0 from a descriptor. -/
import Verif.Spec.V0Update
import Verif.Lemmas.BMap
import Verif.Lemmas.V0Finalize
import Verif.Lemmas.TapRoot
namespace Psbt.Spec.V0
open Psbt.V0 Psbt.Spec

variable {L : Lib} {U : UpdLib L}

theorem leafHash_eq (L : Lib) (s : Bytes) : leafHash L s = tapLeafHash L s TAPSCRIPT := by
  simp [leafHash, tapLeafHash, TAPSCRIPT, taggedHash, blob_fun]

/- Keys. -/
theorem deriveKeys_ok {ks : List U.Key} {pks : List L.pubkey.T} : deriveKeys U ks = .ok pks ↔ KeysAre U ks pks := by
  induction ks generalizing pks with
  | nil =>
    constructor
    · intro h; cases h; exact .nil
    · intro h; cases h; rfl
  | cons k ks ih =>
    simp only [deriveKeys]
    constructor
    · intro h
      obtain ⟨pk, h1, h⟩ := bind_ok.mp h
      obtain ⟨r, h2, h⟩ := bind_ok.mp h
      cases h
      exact .cons h1 (ih.mp h2)
    · intro h
      cases h with
      | cons h1 h2 => rw [h1, ok_bind, ih.mpr h2, ok_bind]

theorem KeysAre.unique {ks : List U.Key} {a b : List L.pubkey.T} (ha : KeysAre U ks a) (hb : KeysAre U ks b) : a = b := by
  have := (deriveKeys_ok.mpr ha).symm.trans (deriveKeys_ok.mpr hb)
  cases this; rfl

theorem MiniIs.unique {m : Mini U.Shape U.Key} {a b} (ha : MiniIs U m a) (hb : MiniIs U m b) : a = b := by
  cases a; cases b
  obtain ⟨h1, h2⟩ := ha
  obtain ⟨h3, h4⟩ := hb
  simp only at *
  rw [← h1, ← h3, h2.unique h4]

theorem deriveLeaves_ok {ls : List (UInt8 × Mini U.Shape U.Key)} {xs} : deriveLeaves U ls = .ok xs ↔ LeavesAre U ls xs := by
  induction ls generalizing xs with
  | nil =>
    constructor
    · intro h; cases h; exact .nil
    · intro h; cases h; rfl
  | cons l ls ih =>
    obtain ⟨d, m⟩ := l
    simp only [deriveLeaves]
    constructor
    · intro h
      obtain ⟨pk, h1, h⟩ := bind_ok.mp h
      obtain ⟨r, h2, h⟩ := bind_ok.mp h
      cases h
      exact .cons ⟨rfl, deriveKeys_ok.mp h1⟩ (ih.mp h2)
    · intro h
      cases h with
      | @cons _ _ x _ xs h1 h2 =>
        rw [deriveKeys_ok.mpr h1.2, ok_bind, ih.mpr h2, ok_bind, h1.1]

theorem LeavesAre.unique {ls : List (UInt8 × Mini U.Shape U.Key)} {a b} (ha : LeavesAre U ls a) (hb : LeavesAre U ls b) : a = b := by
  have := (deriveLeaves_ok.mpr ha).symm.trans (deriveLeaves_ok.mpr hb)
  cases this; rfl

theorem FirstFailure.cons {k : U.Key} {pk ks e} (h : U.derive k = .ok pk) (hf : FirstFailure U ks e) :
    FirstFailure U (k :: ks) e := by
  obtain ⟨a, j, b, rfl, h1, h2⟩ := hf
  exact ⟨k :: a, j, b, rfl, by simpa using ⟨⟨pk, h⟩, h1⟩, h2⟩

theorem FirstFailure.append {as bs : List U.Key} {pks e} (h : KeysAre U as pks) (hf : FirstFailure U bs e) :
    FirstFailure U (as ++ bs) e := by
  induction h with
  | nil => exact hf
  | cons h1 _ ih => exact ih.cons h1

theorem FirstFailure.left {as : List U.Key} {e} (hf : FirstFailure U as e) (bs : List U.Key) : FirstFailure U (as ++ bs) e := by
  obtain ⟨a, j, b, rfl, h1, h2⟩ := hf
  exact ⟨a, j, b ++ bs, by simp, h1, h2⟩

theorem deriveKeys_error {ks : List U.Key} {e} (h : deriveKeys U ks = .error e) : FirstFailure U ks e := by
  induction ks with
  | nil => cases h
  | cons k ks ih =>
    simp only [deriveKeys] at h
    cases h1 : U.derive k with
    | error e' => rw [h1] at h; cases h; exact ⟨[], k, ks, rfl, by simp, h1⟩
    | ok pk =>
      rw [h1, ok_bind] at h
      cases h2 : deriveKeys U ks with
      | error e' => rw [h2] at h; cases h; exact (ih h2).cons h1
      | ok r => rw [h2] at h; cases h

theorem deriveLeaves_error {ls : List (UInt8 × Mini U.Shape U.Key)} {e} (h : deriveLeaves U ls = .error e) :
    FirstFailure U (leafKeys ls) e := by
  induction ls with
  | nil => cases h
  | cons l ls ih =>
    obtain ⟨d, m⟩ := l
    simp only [deriveLeaves] at h
    cases h1 : deriveKeys U m.keys with
    | error e' => rw [h1] at h; cases h; exact (deriveKeys_error h1).left _
    | ok pk =>
      rw [h1, ok_bind] at h
      cases h2 : deriveLeaves U ls with
      | error e' => rw [h2] at h; cases h; exact (ih h2).append (deriveKeys_ok.mp h1)
      | ok r => rw [h2] at h; cases h

theorem LeavesAre.keys {ls : List (UInt8 × Mini U.Shape U.Key)} {xs} (h : LeavesAre U ls xs) :
    KeysAre U (leafKeys ls) (leafKeys xs) := by
  induction h with
  | nil => exact .nil
  | @cons d m x ls xs h1 _ ih =>
    have : ∀ {as : List U.Key} {pas bs pbs}, KeysAre U as pas → KeysAre U bs pbs → KeysAre U (as ++ bs) (pas ++ pbs) := by
      intro as pas bs pbs ha hb
      induction ha with
      | nil => exact hb
      | cons h _ ih => exact .cons h ih
    exact this h1.2 ih

theorem KeysAre.derive {ks : List U.Key} {pks} (h : KeysAre U ks pks) : ∀ k ∈ ks, ∃ pk, U.derive k = .ok pk := by
  induction h with
  | nil => simp
  | cons h1 _ ih => simpa using ⟨⟨_, h1⟩, ih⟩

theorem KeysAre.not_first {ks : List U.Key} {pks e} (h : KeysAre U ks pks) : ¬ FirstFailure U ks e := by
  rintro ⟨a, k, b, rfl, _, h2⟩
  obtain ⟨pk, h3⟩ := h.derive k (by simp)
  rw [h2] at h3; cases h3

theorem FirstFailure.unique {ks : List U.Key} {e e'} (h : FirstFailure U ks e) (h' : FirstFailure U ks e') : e = e' := by
  induction ks with
  | nil => obtain ⟨a, _, _, h, _⟩ := h; cases a <;> cases h
  | cons k ks ih =>
    obtain ⟨a, j, b, h1, h2, h3⟩ := h
    obtain ⟨a', j', b', h1', h2', h3'⟩ := h'
    cases a with
    | nil =>
      cases h1
      cases a' with
      | nil => cases h1'; rw [h3] at h3'; cases h3'; rfl
      | cons _ _ => cases h1'; obtain ⟨pk, hk⟩ := h2' k (by simp); rw [h3] at hk; cases hk
    | cons _ as =>
      cases h1
      cases a' with
      | nil => cases h1'; obtain ⟨pk, hk⟩ := h2 k (by simp); rw [h3'] at hk; cases hk
      | cons _ as' =>
        simp only [List.cons_append, List.cons.injEq] at h1'
        obtain ⟨rfl, h1'⟩ := h1'
        exact ih ⟨as, j, b, rfl, fun x hx => h2 x (by simp [hx]), h3⟩ ⟨as', j', b', h1', fun x hx => h2' x (by simp [hx]), h3'⟩

/- Overwriting maps. -/
section
variable {K V : Type} [OrdKey K] [DecidableEq K]

theorem Overwritten.unique {P : K → V → Prop} {m a b : BMap K V} (ha : Overwritten P m a) (hb : Overwritten P m b) : a = b := by
  apply BMap.ext_get
  intro k
  by_cases h : ∃ v, P k v
  · obtain ⟨v, h⟩ := h; rw [(ha k).1 v h, (hb k).1 v h]
  · have h : ∀ v, ¬ P k v := fun v hv => h ⟨v, hv⟩
    rw [(ha k).2 h, (hb k).2 h]

theorem Overwritten.again {P : K → V → Prop} {m a : BMap K V} (ha : Overwritten P m a) : Overwritten P a a :=
  fun k => ⟨(ha k).1, fun _ => rfl⟩

theorem Overwritten.congr {P Q : K → V → Prop} {m a : BMap K V} (ha : Overwritten P m a) (h : ∀ k v, P k v ↔ Q k v) :
    Overwritten Q m a := by
  intro k
  refine ⟨fun v hv => (ha k).1 v ((h k v).mpr hv), fun hn => (ha k).2 fun v hv => hn v ((h k v).mp hv)⟩

end

/- The sources collected. -/
theorem lookUp_ok {ks : List U.Key} {m m' : BMap L.secpPk.T KeySource} {pks} (h : lookUp U ks m = .ok (pks, m')) :
    KeysAre U ks pks ∧ (∀ k ∈ ks, U.path k ≠ none) ∧ Overwritten (LastOrigin U ks) m m' := by
  induction ks generalizing m pks with
  | nil =>
    cases h
    refine ⟨.nil, by simp, fun k => ⟨?_, fun _ => rfl⟩⟩
    rintro v ⟨a, _, _, _, h, _⟩
    cases a <;> cases h
  | cons k ks ih =>
    simp only [lookUp] at h
    obtain ⟨pk, h1, h⟩ := bind_ok.mp h
    cases h2 : U.path k with
    | none => rw [h2] at h; cases h
    | some path =>
      rw [h2] at h
      obtain ⟨⟨r, m2⟩, h3, h⟩ := bind_ok.mp h
      cases h
      obtain ⟨i1, i2, i3⟩ := ih h3
      refine ⟨.cons h1 i1, by simp [h2]; exact i2, ?_⟩
      intro x
      by_cases hx : ∃ v, LastOrigin U ks x v
      · obtain ⟨v, hv⟩ := hx
        have hget := (i3 x).1 v hv
        obtain ⟨a, j, b, q, e1, e2, e3, e4⟩ := hv
        constructor
        · intro w hw
          rw [hget]
          obtain ⟨a', j', b', q', f1, f2, f3, f4⟩ := hw
          cases a' with
          | nil =>
            exfalso
            cases f1
            exact f4 j (by simp [e1]) q e2.1 e3
          | cons _ as =>
            cases f1
            have := (i3 x).1 w ⟨as, j', b', q', rfl, f2, f3, f4⟩
            rw [hget] at this
            exact this
        · intro hn
          exact absurd ⟨k :: a, j, b, q, by rw [e1]; rfl, e2, e3, e4⟩ (hn v)
      · have hx : ∀ v, ¬ LastOrigin U ks x v := fun v hv => hx ⟨v, hv⟩
        have hget := (i3 x).2 hx
        have hnone : ∀ j ∈ ks, ∀ q, U.derive j = .ok q → U.inner q ≠ x := by
          intro j hj q hq hqx
          -- take the last such key
          have key : ∀ (l : List U.Key), (∀ y ∈ l, y ∈ ks) → (∃ y ∈ l, ∃ q, U.derive y = .ok q ∧ U.inner q = x) →
              ∃ v, LastOrigin U l x v := by
            intro l hl hex
            induction l with
            | nil => obtain ⟨y, hy, _⟩ := hex; cases hy
            | cons y l ihl =>
              by_cases hr : ∃ y ∈ l, ∃ q, U.derive y = .ok q ∧ U.inner q = x
              · obtain ⟨v, a, j, b, q, e1, e2⟩ := ihl (fun z hz => hl z (by simp [hz])) hr
                exact ⟨v, y :: a, j, b, q, by rw [e1]; rfl, e2⟩
              · obtain ⟨z, hz, q, hq, hqx⟩ := hex
                have hzy : z = y := by
                  rcases List.mem_cons.mp hz with rfl | hz
                  · rfl
                  · exact absurd ⟨z, hz, q, hq, hqx⟩ hr
                subst hzy
                cases hp : U.path z with
                | none => exact absurd hp (i2 z (hl z (by simp)))
                | some path =>
                  exact ⟨(U.fingerprint z, path), [], z, l, q, rfl, ⟨hq, hp, rfl⟩, hqx,
                    fun j hj q' hq' hx' => hr ⟨j, hj, q', hq', hx'⟩⟩
          obtain ⟨v, hv⟩ := key ks (fun _ h => h) ⟨j, hj, q, hq, hqx⟩
          exact hx v hv
        rw [BMap.get_insert] at hget
        constructor
        · rintro w ⟨a', j', b', q', f1, f2, f3, f4⟩
          cases a' with
          | nil =>
            cases f1
            obtain ⟨g1, g2, g3⟩ := f2
            rw [h1] at g1; cases g1
            rw [h2] at g2; cases g2
            rw [hget, if_pos f3.symm, g3]
          | cons _ as =>
            cases f1
            exact absurd f3 (hnone j' (by simp) q' f2.1)
        · intro hn
          rw [hget, if_neg]
          intro e
          exact hn (U.fingerprint k, path) ⟨[], k, ks, pk, rfl, ⟨h1, h2, rfl⟩, e.symm, hnone⟩

theorem lookUp_total {ks : List U.Key} {pks} (h : KeysAre U ks pks) (hp : ∀ k ∈ ks, U.path k ≠ none)
    (m : BMap L.secpPk.T KeySource) : ∃ m', lookUp U ks m = .ok (pks, m') := by
  induction h generalizing m with
  | nil => exact ⟨m, rfl⟩
  | @cons k pk ks pks h1 _ ih =>
    cases h2 : U.path k with
    | none => exact absurd h2 (hp k (by simp))
    | some path =>
      obtain ⟨m', h3⟩ := ih (fun j hj => hp j (by simp [hj])) (m.insert (U.inner pk) (U.fingerprint k, path))
      exact ⟨m', by simp only [lookUp, h1, ok_bind, h2, h3]⟩

theorem lookUp_error {ks : List U.Key} {m : BMap L.secpPk.T KeySource} {e} (h : lookUp U ks m = .error e)
    (hd : ∀ k ∈ ks, ∀ pk, U.derive k = .ok pk → U.path k ≠ none) : FirstFailure U ks e := by
  induction ks generalizing m with
  | nil => cases h
  | cons k ks ih =>
    simp only [lookUp] at h
    cases h1 : U.derive k with
    | error e' => rw [h1] at h; cases h; exact ⟨[], k, ks, rfl, by simp, h1⟩
    | ok pk =>
      rw [h1, ok_bind] at h
      cases h2 : U.path k with
      | none => exact absurd h2 (hd k (by simp) pk h1)
      | some path =>
        rw [h2] at h
        simp only at h
        cases h3 : lookUp U ks (m.insert (U.inner pk) (U.fingerprint k, path)) with
        | error e' => rw [h3] at h; cases h; exact (ih h3 fun j hj => hd j (by simp [hj])).cons h1
        | ok r => rw [h3] at h; cases h

theorem lookUpKey_eq (k : U.Key) : lookUpKey U k = (lookUp U [k] .empty).bind fun r =>
    match r.1 with
    | pk :: _ => .ok (pk, r.2)
    | [] => .error .multiKey := by
  simp only [lookUpKey, lookUp]
  cases U.derive k with
  | error e => rfl
  | ok pk => cases U.path k <;> rfl

theorem lookUpKey_ok {k : U.Key} {pk s} (h : lookUpKey U k = .ok (pk, s)) :
    U.derive k = .ok pk ∧ (∀ j ∈ [k], U.path j ≠ none) ∧ Overwritten (LastOrigin U [k]) .empty s := by
  rw [lookUpKey_eq] at h
  cases hl : lookUp U [k] .empty with
  | error e => rw [hl] at h; cases h
  | ok r =>
    obtain ⟨pks, m⟩ := r
    rw [hl] at h
    obtain ⟨h1, h2, h3⟩ := lookUp_ok hl
    cases h1 with
    | cons h1 h4 =>
      cases h
      exact ⟨h1, h2, h3⟩

theorem translate_ok {d : Plain U.Shape U.Key} {x s} (h : translate U d = .ok (x, s)) :
    PlainIs U d x ∧ (∀ k ∈ plainKeys d, U.path k ≠ none) ∧ Overwritten (LastOrigin U (plainKeys d)) .empty s := by
  cases d <;> simp only [translate, lookUpMini] at h
  all_goals
    first
    | (obtain ⟨⟨y, s'⟩, h1, h⟩ := bind_ok.mp h
       cases h
       obtain ⟨⟨ks, s''⟩, h2, h1⟩ := bind_ok.mp h1
       cases h1
       obtain ⟨a, b, c⟩ := lookUp_ok h2
       exact ⟨by constructor; exact ⟨rfl, a⟩, b, c⟩)
    | (obtain ⟨⟨y, s'⟩, h1, h⟩ := bind_ok.mp h
       cases h
       obtain ⟨a, b, c⟩ := lookUpKey_ok h1
       exact ⟨by constructor; exact a, b, c⟩)

theorem lookUpKey_total {k : U.Key} {pk} (h : U.derive k = .ok pk) (hp : U.path k ≠ none) : ∃ s, lookUpKey U k = .ok (pk, s) := by
  cases h2 : U.path k with
  | none => exact absurd h2 hp
  | some path => exact ⟨_, by simp only [lookUpKey, h, ok_bind, h2]; rfl⟩

theorem translate_total {d : Plain U.Shape U.Key} {x} (h : PlainIs U d x) (hp : ∀ k ∈ plainKeys d, U.path k ≠ none) :
    ∃ s, translate U d = .ok (x, s) := by
  cases h with
  | bare h | sh h | shWsh h | wsh h =>
    obtain ⟨s, hs⟩ := lookUp_total h.2 hp .empty
    obtain ⟨h1, _⟩ := h
    exact ⟨s, by simp only [translate, lookUpMini, hs, ok_bind, h1]⟩
  | pkh h | wpkh h | shWpkh h =>
    obtain ⟨s, hs⟩ := lookUpKey_total h (hp _ (by simp [plainKeys]))
    exact ⟨s, by simp only [translate, hs, ok_bind]⟩

theorem translate_error {d : Plain U.Shape U.Key} {e} (h : translate U d = .error e)
    (hd : ∀ k ∈ plainKeys d, ∀ pk, U.derive k = .ok pk → U.path k ≠ none) : FirstFailure U (plainKeys d) e := by
  have mini : ∀ m : Mini U.Shape U.Key, lookUpMini U m = .error e →
      (∀ k ∈ m.keys, ∀ pk, U.derive k = .ok pk → U.path k ≠ none) → FirstFailure U m.keys e := by
    intro m h hd
    simp only [lookUpMini] at h
    cases hl : lookUp U m.keys .empty with
    | error e' => rw [hl] at h; cases h; exact lookUp_error hl hd
    | ok r => rw [hl] at h; cases h
  have key : ∀ k : U.Key, lookUpKey U k = .error e → (∀ pk, U.derive k = .ok pk → U.path k ≠ none) → FirstFailure U [k] e := by
    intro k h hd
    simp only [lookUpKey] at h
    cases hl : U.derive k with
    | error e' => rw [hl] at h; cases h; exact ⟨[], k, [], rfl, by simp, hl⟩
    | ok pk =>
      rw [hl, ok_bind] at h
      cases h2 : U.path k with
      | none => exact absurd h2 (hd pk hl)
      | some p => rw [h2] at h; cases h
  cases d <;> simp only [translate] at h
  case pkh k | wpkh k | shWpkh k =>
    cases hl : lookUpKey U k with
    | error e' => rw [hl] at h; cases h; exact key k hl (hd k (by simp [plainKeys]))
    | ok r => rw [hl] at h; cases h
  case bare m | sh m | shWsh m | wsh m =>
    cases hl : lookUpMini U m with
    | error e' => rw [hl] at h; cases h; exact mini m hl hd
    | ok r => rw [hl] at h; cases h

/- Sorting. -/
theorem mem_insertSorted {h x : Hash32} {l : List Hash32} : x ∈ insertSorted h l ↔ x = h ∨ x ∈ l := by
  induction l with
  | nil => simp [insertSorted]
  | cons a r ih =>
    simp only [insertSorted]
    split
    · simp only [List.mem_cons, ih]; grind
    · simp

theorem mem_sortHashes {x : Hash32} {l : List Hash32} : x ∈ sortHashes l ↔ x ∈ l := by
  induction l with
  | nil => simp [sortHashes]
  | cons a r ih =>
    have : sortHashes (a :: r) = insertSorted a (sortHashes r) := rfl
    rw [this, mem_insertSorted, ih, List.mem_cons]

theorem sorted_insertSorted {h : Hash32} {l : List Hash32} (hl : l.Pairwise fun a b => OrdKey.lt b a = false) :
    (insertSorted h l).Pairwise fun a b => OrdKey.lt b a = false := by
  induction l with
  | nil => simp [insertSorted]
  | cons a r ih =>
    obtain ⟨h1, h2⟩ := List.pairwise_cons.mp hl
    simp only [insertSorted]
    split
    · rename_i hlt
      refine List.pairwise_cons.mpr ⟨?_, ih h2⟩
      intro x hx
      rcases mem_insertSorted.mp hx with rfl | hx
      · exact OrdKey.asymm hlt
      · exact h1 x hx
    · rename_i hlt
      refine List.pairwise_cons.mpr ⟨?_, hl⟩
      intro x hx
      have hah : OrdKey.lt a h = false := by simpa using hlt
      rcases List.mem_cons.mp hx with rfl | hx
      · exact hah
      · have := h1 x hx
        rcases OrdKey.tri x h with e | e | e
        · rcases OrdKey.tri a x with e' | e' | e'
          · rw [OrdKey.trans _ _ _ e' e] at hah; cases hah
          · subst e'; rw [hah] at e; cases e
          · rw [this] at e'; cases e'
        · subst e; exact OrdKey.irrefl _
        · exact OrdKey.asymm e

theorem sorted_sortHashes (l : List Hash32) : (sortHashes l).Pairwise fun a b => OrdKey.lt b a = false := by
  induction l with
  | nil => simp [sortHashes]
  | cons a r ih => exact sorted_insertSorted ih

theorem mem_dedup {x : Hash32} {l : List Hash32} : x ∈ dedup l ↔ x ∈ l := by
  fun_induction dedup l with
  | case1 => simp
  | case2 => simp
  | case3 a r ih => simp only [ih]; simp
  | case4 a b r h ih => simp only [List.mem_cons] at ih ⊢; rw [ih]

theorem dedup_strict {l : List Hash32} (h : l.Pairwise fun a b => OrdKey.lt b a = false) :
    (dedup l).Pairwise fun a b => OrdKey.lt a b = true := by
  fun_induction dedup l with
  | case1 => simp
  | case2 => simp
  | case3 a r ih => exact ih (List.pairwise_cons.mp h).2
  | case4 a b r hne ih =>
    obtain ⟨h1, h2⟩ := List.pairwise_cons.mp h
    refine List.pairwise_cons.mpr ⟨?_, ih h2⟩
    have hab : OrdKey.lt a b = true := by
      rcases OrdKey.tri a b with e | e | e
      · exact e
      · exact absurd e hne
      · rw [h1 b (by simp)] at e; cases e
    intro x hx
    rcases List.mem_cons.mp (mem_dedup.mp hx) with rfl | hx
    · exact hab
    · have h3 := (List.pairwise_cons.mp h2).1 x hx
      rcases OrdKey.tri b x with e | e | e
      · exact OrdKey.trans _ _ _ hab e
      · subst e; exact hab
      · rw [h3] at e; cases e

theorem setOf_sorted (l : List Hash32) : SetOf (dedup (sortHashes l)) (· ∈ l) :=
  ⟨dedup_strict (sorted_sortHashes l), fun h => by rw [mem_dedup, mem_sortHashes]⟩

theorem SetOf.congr {l : List Hash32} {P Q : Hash32 → Prop} (h : SetOf l P) (e : ∀ x, P x ↔ Q x) : SetOf l Q :=
  ⟨h.sorted, fun x => (h.mem x).trans (e x)⟩

theorem SetOf.unique {a b : List Hash32} {P : Hash32 → Prop} (ha : SetOf a P) (hb : SetOf b P) : a = b := by
  obtain ⟨sa, ma⟩ := ha
  obtain ⟨sb, mb⟩ := hb
  have e : ∀ h, h ∈ a ↔ h ∈ b := fun h => (ma h).trans (mb h).symm
  clear ma mb
  induction a generalizing b with
  | nil =>
    cases b with
    | nil => rfl
    | cons y b => have := (e y).mpr (by simp); cases this
  | cons x a ih =>
    cases b with
    | nil => have := (e x).mp (by simp); cases this
    | cons y b =>
      obtain ⟨a1, a2⟩ := List.pairwise_cons.mp sa
      obtain ⟨b1, b2⟩ := List.pairwise_cons.mp sb
      have hxy : x = y := by
        rcases List.mem_cons.mp ((e x).mp (by simp)) with h | h
        · exact h
        · rcases List.mem_cons.mp ((e y).mpr (by simp)) with h' | h'
          · exact h'.symm
          · have := OrdKey.asymm (b1 x h); rw [a1 y h'] at this; cases this
      subst hxy
      rw [ih a2 b2]
      intro h
      constructor
      · intro hh
        rcases List.mem_cons.mp ((e h).mp (by simp [hh])) with rfl | h'
        · have := a1 _ hh; rw [OrdKey.irrefl] at this; cases this
        · exact h'
      · intro hh
        rcases List.mem_cons.mp ((e h).mpr (by simp [hh])) with rfl | h'
        · have := b1 _ hh; rw [OrdKey.irrefl] at this; cases this
        · exact h'

theorem get_mapValues {K V : Type} [OrdKey K] [DecidableEq K] (g : V → V) (m : BMap K V) (k : K) :
    (mapValues g m).get k = (m.get k).map g := by
  obtain ⟨l, h⟩ := m
  simp only [mapValues, BMap.get]
  clear h
  induction l with
  | nil => rfl
  | cons a r ih =>
    obtain ⟨k', v⟩ := a
    simp only [List.map_cons, getL]
    split
    · rfl
    · exact ih

/- Taproot key origins. -/

/-- From `o` to `o'`, the hashes of `P` are added to the entries; new entries have the sources of `F`. -/
def Grow (P : L.xonly.T → Hash32 → Prop) (F : L.xonly.T → KeySource → Prop)
    (o o' : BMap L.xonly.T (List Hash32 × KeySource)) : Prop := ∀ x,
  (∀ hs t, o.get x = some (hs, t) → ∃ hs', o'.get x = some (hs', t) ∧ ∀ h, h ∈ hs' ↔ h ∈ hs ∨ P x h) ∧
  (o.get x = none → (∀ t, F x t → ∃ hs, o'.get x = some (hs, t) ∧ ∀ h, h ∈ hs ↔ P x h) ∧
    ((∀ t, ¬ F x t) → o'.get x = none))

theorem Grow.refl (o : BMap L.xonly.T (List Hash32 × KeySource)) : Grow (fun _ _ => False) (fun _ _ => False) o o := by
  intro x
  refine ⟨fun hs t h => ⟨hs, h, by simp⟩, fun h => ⟨by simp, fun _ => h⟩⟩

theorem Grow.trans {P1 P2 F1 F2} {a b c : BMap L.xonly.T (List Hash32 × KeySource)} (h1 : Grow P1 F1 a b) (h2 : Grow P2 F2 b c)
    (hP : ∀ x h, P1 x h → ∃ t, F1 x t) :
    Grow (fun x h => P1 x h ∨ P2 x h) (fun x t => F1 x t ∨ (∀ t, ¬ F1 x t) ∧ F2 x t) a c := by
  intro x
  constructor
  · intro hs t h
    obtain ⟨hs', e1, e2⟩ := (h1 x).1 hs t h
    obtain ⟨hs'', e3, e4⟩ := (h2 x).1 hs' t e1
    exact ⟨hs'', e3, fun h => by rw [e4, e2, or_assoc]⟩
  · intro h
    constructor
    · rintro t (ht | ⟨hn, ht⟩)
      · obtain ⟨hs, e1, e2⟩ := ((h1 x).2 h).1 t ht
        obtain ⟨hs', e3, e4⟩ := (h2 x).1 hs t e1
        exact ⟨hs', e3, fun h => by rw [e4, e2]⟩
      · have e1 := ((h1 x).2 h).2 hn
        obtain ⟨hs, e2, e3⟩ := ((h2 x).2 e1).1 t ht
        refine ⟨hs, e2, fun h => ?_⟩
        rw [e3]
        constructor
        · exact .inr
        · rintro (h | h)
          · obtain ⟨t, ht⟩ := hP x _ h; exact absurd ht (hn t)
          · exact h
    · intro hn
      have n1 : ∀ t, ¬ F1 x t := fun t ht => hn t (.inl ht)
      exact ((h2 x).2 (((h1 x).2 h).2 n1)).2 fun t ht => hn t (.inr ⟨n1, ht⟩)

theorem Grow.congr {P P' F F'} {a b : BMap L.xonly.T (List Hash32 × KeySource)} (h : Grow P F a b)
    (hP : ∀ x h, P x h ↔ P' x h) (hF : ∀ x t, F x t ↔ F' x t) : Grow P' F' a b := by
  have e1 : P = P' := by funext x h; exact propext (hP x h)
  have e2 : F = F' := by funext x t; exact propext (hF x t)
  rw [← e1, ← e2]; exact h

theorem grow_addOrigin (o : BMap L.xonly.T (List Hash32 × KeySource)) (x : L.xonly.T) (h : Hash32) (s : KeySource) :
    Grow (fun y h' => h' = h ∧ x = y) (fun y t => x = y ∧ t = s) o (addOrigin o x h s) := by
  intro y
  simp only [addOrigin]
  by_cases hy : y = x
  · subst hy
    constructor
    · intro hs t e
      rw [e]
      simp only [BMap.get_insert_self]
      refine ⟨_, rfl, fun h' => ?_⟩
      split
      · simp
      · rename_i hl
        have hl : hs.getLast? = some h := by simpa using hl
        have := List.mem_of_getLast? hl
        constructor
        · exact .inl
        · rintro (h | ⟨rfl, _⟩)
          · exact h
          · exact this
    · intro e
      rw [e]
      simp only [BMap.get_insert_self]
      exact ⟨by rintro t ⟨_, rfl⟩; exact ⟨[h], rfl, by simp⟩, fun hn => by simpa using hn s⟩
  · have hget : (addOrigin o x h s).get y = o.get y := by
      simp only [addOrigin]
      split <;> rw [BMap.get_insert_ne _ hy]
    simp only [addOrigin] at hget
    rw [hget]
    refine ⟨fun hs t e => ⟨hs, e, fun h' => ?_⟩, fun e => ⟨?_, fun _ => e⟩⟩
    · constructor
      · exact .inl
      · rintro (h | ⟨_, h⟩)
        · exact h
        · exact absurd h.symm hy
    · rintro t ⟨h, _⟩; exact absurd h.symm hy

theorem firstOrigin_cons {k : U.Key} {pk ks x t path} (h : U.derive k = .ok pk) (hp : U.path k = some path) :
    FirstOrigin U (k :: ks) x t ↔
      (U.xonly pk = x ∧ t = (U.fingerprint k, path)) ∨ (∀ t, ¬ (U.xonly pk = x ∧ t = (U.fingerprint k, path))) ∧ FirstOrigin U ks x t := by
  constructor
  · rintro ⟨a, j, b, q, e1, e2, e3, e4⟩
    cases a with
    | nil =>
      cases e1
      obtain ⟨g1, g2, g3⟩ := e2
      rw [h] at g1; cases g1
      rw [hp] at g2; cases g2
      exact .inl ⟨e3, by rw [g3]⟩
    | cons _ a =>
      cases e1
      exact .inr ⟨fun t ht => e4 k (by simp) pk h ht.1, a, j, b, q, rfl, e2, e3, fun y hy => e4 y (by simp [hy])⟩
  · rintro (⟨h1, rfl⟩ | ⟨h1, a, j, b, q, e1, e2, e3, e4⟩)
    · exact ⟨[], k, ks, pk, rfl, ⟨h, hp, rfl⟩, h1, by simp⟩
    · refine ⟨k :: a, j, b, q, by rw [e1]; rfl, e2, e3, ?_⟩
      intro y hy q' hq'
      rcases List.mem_cons.mp hy with rfl | hy
      · rw [h] at hq'; cases hq'
        intro e
        exact h1 _ ⟨e, rfl⟩
      · exact e4 y hy q' hq'

theorem not_firstOrigin_nil {x t} : ¬ FirstOrigin U [] x t := by
  rintro ⟨a, _, _, _, h, _⟩; cases a <;> cases h

theorem firstOrigin_of_mem {ks : List U.Key} {pks x} (h : KeysAre U ks pks) (hp : ∀ k ∈ ks, U.path k ≠ none)
    (hx : ∃ pk ∈ pks, U.xonly pk = x) : ∃ t, FirstOrigin U ks x t := by
  induction h with
  | nil => obtain ⟨_, h, _⟩ := hx; cases h
  | @cons k pk ks pks h1 h2 ih =>
    cases hk : U.path k with
    | none => exact absurd hk (hp k (by simp))
    | some path =>
      by_cases e : U.xonly pk = x
      · exact ⟨_, (firstOrigin_cons h1 hk).mpr (.inl ⟨e, rfl⟩)⟩
      · obtain ⟨q, hq, hqx⟩ := hx
        rcases List.mem_cons.mp hq with rfl | hq
        · exact absurd hqx e
        · obtain ⟨t, ht⟩ := ih (fun j hj => hp j (by simp [hj])) ⟨q, hq, hqx⟩
          exact ⟨t, (firstOrigin_cons h1 hk).mpr (.inr ⟨fun _ h => e h.1, ht⟩)⟩

theorem firstOrigin_append {as bs : List U.Key} {pas x t} (h : KeysAre U as pas) (hp : ∀ k ∈ as, U.path k ≠ none) :
    FirstOrigin U (as ++ bs) x t ↔ FirstOrigin U as x t ∨ (∀ t, ¬ FirstOrigin U as x t) ∧ FirstOrigin U bs x t := by
  induction h with
  | nil => simp [not_firstOrigin_nil]
  | @cons k pk ks pks h1 h2 ih =>
    cases hk : U.path k with
    | none => exact absurd hk (hp k (by simp))
    | some path =>
      have ih := ih fun j hj => hp j (by simp [hj])
      rw [List.cons_append, firstOrigin_cons h1 hk, ih]
      simp only [firstOrigin_cons h1 hk]
      by_cases e : U.xonly pk = x
      · simp [e]
      · simp [e]

theorem addKeys_ok {ks : List U.Key} {pks} (h : KeysAre U ks pks) (hp : ∀ k ∈ ks, U.path k ≠ none) (hash : Hash32)
    (o : BMap L.xonly.T (List Hash32 × KeySource)) : ∃ o', addKeys U hash (pks.zip ks) o = (o', .ok ()) ∧
      Grow (fun x h => h = hash ∧ ∃ pk ∈ pks, U.xonly pk = x) (FirstOrigin U ks) o o' := by
  induction h generalizing o with
  | nil => exact ⟨o, rfl, (Grow.refl o).congr (by simp) (fun x t => by simp [not_firstOrigin_nil])⟩
  | @cons k pk ks pks h1 h2 ih =>
    cases hk : U.path k with
    | none => exact absurd hk (hp k (by simp))
    | some path =>
      obtain ⟨o', e1, e2⟩ := ih (fun j hj => hp j (by simp [hj])) (addOrigin o (U.xonly pk) hash (U.fingerprint k, path))
      refine ⟨o', by simp only [List.zip_cons_cons, addKeys, hk, e1], ?_⟩
      refine ((grow_addOrigin o (U.xonly pk) hash (U.fingerprint k, path)).trans e2 ?_).congr ?_ ?_
      · rintro x h ⟨_, e⟩; exact ⟨_, e, rfl⟩
      · intro x h; simp only [List.mem_cons, exists_eq_or_imp]; grind
      · intro x t; rw [firstOrigin_cons h1 hk]

/-- The last leaf with this control block, for given spend information. -/
def LastBlockIn (U : UpdLib L) (x : L.xonly.T) (info : Option NodeInfo) (xs : List (UInt8 × Mini U.Shape L.pubkey.T)) (cb : L.ctrl.T)
    (v : Bytes × LeafVersion) : Prop :=
  ∃ a l b, xs = a ++ l :: b ∧ U.controlBlock x info (U.tapEncode l.2) = some cb ∧ v.1 = U.tapEncode l.2 ∧
    v.2.1 = 0xc0 ∧ ∀ j ∈ b, U.controlBlock x info (U.tapEncode j.2) ≠ some cb

theorem lastBlock_cons {x : L.xonly.T} {info l xs cb v} :
    LastBlockIn U x info (l :: xs) cb v ↔ LastBlockIn U x info xs cb v ∨
      (∀ j ∈ xs, U.controlBlock x info (U.tapEncode j.2) ≠ some cb) ∧ U.controlBlock x info (U.tapEncode l.2) = some cb ∧
        v = (U.tapEncode l.2, TAPSCRIPT) := by
  constructor
  · rintro ⟨a, j, b, e1, e2, e3, e4, e5⟩
    cases a with
    | nil =>
      cases e1
      exact .inr ⟨e5, e2, Prod.ext e3 (Subtype.ext e4)⟩
    | cons _ a => cases e1; exact .inl ⟨a, j, b, rfl, e2, e3, e4, e5⟩
  · rintro (⟨a, j, b, e1, e2⟩ | ⟨e1, e2, rfl⟩)
    · exact ⟨l :: a, j, b, by rw [e1]; rfl, e2⟩
    · exact ⟨[], l, xs, rfl, e2, rfl, rfl, e1⟩

theorem lastBlock_of_mem {x : L.xonly.T} {info xs cb} (h : ∃ j ∈ xs, U.controlBlock x info (U.tapEncode j.2) = some cb) :
    ∃ v, LastBlockIn U x info xs cb v := by
  induction xs with
  | nil => obtain ⟨_, h, _⟩ := h; cases h
  | cons l xs ih =>
    by_cases hr : ∃ j ∈ xs, U.controlBlock x info (U.tapEncode j.2) = some cb
    · obtain ⟨v, hv⟩ := ih hr; exact ⟨v, lastBlock_cons.mpr (.inl hv)⟩
    · obtain ⟨j, hj, e⟩ := h
      rcases List.mem_cons.mp hj with rfl | hj
      · exact ⟨_, lastBlock_cons.mpr (.inr ⟨fun i hi e => hr ⟨i, hi, e⟩, e, rfl⟩)⟩
      · exact absurd ⟨j, hj, e⟩ hr

theorem overwritten_block {x : L.xonly.T} {info l xs cb} {m m' : BMap L.ctrl.T (Bytes × LeafVersion)}
    (hcb : U.controlBlock x info (U.tapEncode l.2) = some cb)
    (h : Overwritten (LastBlockIn U x info xs) (m.insert cb (U.tapEncode l.2, TAPSCRIPT)) m') :
    Overwritten (LastBlockIn U x info (l :: xs)) m m' := by
  intro c
  constructor
  · intro v hv
    rcases lastBlock_cons.mp hv with hv | ⟨h1, h2, rfl⟩
    · exact (h c).1 v hv
    · rw [hcb] at h2; cases h2
      rw [(h cb).2, BMap.get_insert_self]
      rintro v ⟨a, j, b, e1, e2, _⟩
      exact h1 j (by simp [e1]) e2
  · intro hn
    rw [(h c).2 fun v hv => hn v (lastBlock_cons.mpr (.inl hv)), BMap.get_insert_ne]
    rintro rfl
    by_cases hr : ∃ j ∈ xs, U.controlBlock x info (U.tapEncode j.2) = some c
    · obtain ⟨v, hv⟩ := lastBlock_of_mem hr; exact hn v (lastBlock_cons.mpr (.inl hv))
    · exact hn _ (lastBlock_cons.mpr (.inr ⟨fun j hj e => hr ⟨j, hj, e⟩, hcb, rfl⟩))

theorem inLeaf_cons {d m x ls} {y : L.xonly.T} {h} (hm : MiniIs U m x) :
    InLeaf U ((d, m) :: ls) y h ↔ (h = tapLeafHash L (U.tapEncode x) TAPSCRIPT ∧ ∃ pk ∈ x.keys, U.xonly pk = y) ∨ InLeaf U ls y h := by
  constructor
  · rintro ⟨l, hl, z, h1, h2, h3⟩
    rcases List.mem_cons.mp hl with rfl | hl
    · cases hm.unique h1
      exact .inl ⟨by rw [h2, leafHash_eq], h3⟩
    · exact .inr ⟨l, hl, z, h1, h2, h3⟩
  · rintro (⟨h1, h2⟩ | ⟨l, hl, z, h1⟩)
    · exact ⟨(d, m), by simp, x, hm, by rw [h1, leafHash_eq], h2⟩
    · exact ⟨l, by simp [hl], z, h1⟩

theorem addLeaves_ok {ls : List (UInt8 × Mini U.Shape U.Key)} {xs} (h : LeavesAre U ls xs)
    (hp : ∀ k ∈ leafKeys ls, U.path k ≠ none) (x : L.xonly.T) (info : Option NodeInfo) (f : Fields L)
    (hb : f.tapScripts ≠ none → ∀ l ∈ xs, U.controlBlock x info (U.tapEncode l.2) ≠ none) :
    ∃ o ts, addLeaves U x info (xs.zip ls) f = .ok ({ f with tapKeyOrigins := o, tapScripts := ts }, .ok ()) ∧
      Grow (InLeaf U ls) (FirstOrigin U (leafKeys ls)) f.tapKeyOrigins o ∧
      (f.tapScripts = none → ts = none) ∧
      ∀ m, f.tapScripts = some m → ∃ m', ts = some m' ∧ Overwritten (LastBlockIn U x info xs) m m' := by
  induction h generalizing f with
  | nil =>
    refine ⟨f.tapKeyOrigins, f.tapScripts, rfl, (Grow.refl _).congr ?_ ?_, fun h => h, fun m h => ⟨m, h, ?_⟩⟩
    · intro x h; simp [InLeaf]
    · intro x t; simp [leafKeys, not_firstOrigin_nil]
    · intro c
      refine ⟨?_, fun _ => rfl⟩
      rintro v ⟨a, _, _, h, _⟩; cases a <;> cases h
  | @cons d m y ls xs h1 h2 ih =>
    have hp1 : ∀ k ∈ m.keys, U.path k ≠ none := fun k hk => hp k (by simp [leafKeys, hk])
    have hp2 : ∀ k ∈ leafKeys ls, U.path k ≠ none := fun k hk => hp k (by
      simp only [leafKeys, List.flatMap_cons, List.mem_append]; exact .inr hk)
    have hF : ∀ y h, (h = tapLeafHash L (U.tapEncode ‹Mini U.Shape L.pubkey.T›) TAPSCRIPT ∧
        ∃ pk ∈ (‹Mini U.Shape L.pubkey.T› : Mini U.Shape L.pubkey.T).keys, U.xonly pk = y) → ∃ t, FirstOrigin U m.keys y t :=
      fun y h hh => firstOrigin_of_mem h1.2 hp1 hh.2
    obtain ⟨o', e1, e2⟩ := addKeys_ok h1.2 hp1 (tapLeafHash L (U.tapEncode y) TAPSCRIPT) f.tapKeyOrigins
    cases hs : f.tapScripts with
    | none =>
      obtain ⟨o, ts, i1, i2, i3, i4⟩ := ih hp2 { f with tapKeyOrigins := o' } (by simp [hs])
      refine ⟨o, ts, ?_, ?_, fun _ => i3 hs, by simp⟩
      · simp only [hs] at i1
        simp only [List.zip_cons_cons, addLeaves, hs, ok_bind, e1, i1]
      · refine (e2.trans i2 hF).congr ?_ ?_
        · intro z h; rw [inLeaf_cons h1]
        · intro z t
          have : leafKeys ((d, m) :: ls) = m.keys ++ leafKeys ls := rfl
          rw [this, firstOrigin_append h1.2 hp1]
    | some sc =>
      have hb := hb (by simp [hs])
      cases hcb : U.controlBlock x info (U.tapEncode y) with
      | none => exact absurd hcb (hb (d, y) (by simp))
      | some cb =>
        obtain ⟨o, ts, i1, i2, i3, i4⟩ := ih hp2
          { f with tapKeyOrigins := o', tapScripts := some (sc.insert cb (U.tapEncode y, TAPSCRIPT)) }
          (fun _ l hl => hb l (by simp [hl]))
        refine ⟨o, ts, ?_, ?_, by simp, ?_⟩
        · simp only [List.zip_cons_cons, addLeaves, hs, hcb, ok_bind, e1, i1]
        · refine (e2.trans i2 hF).congr ?_ ?_
          · intro z h; rw [inLeaf_cons h1]
          · intro z t
            have : leafKeys ((d, m) :: ls) = m.keys ++ leafKeys ls := rfl
            rw [this, firstOrigin_append h1.2 hp1]
        · intro m0 hm0
          cases hm0
          obtain ⟨m', j1, j2⟩ := i4 _ rfl
          exact ⟨m', j1, overwritten_block (l := (d, y)) hcb j2⟩

theorem lastBlockIn_iff {x : L.xonly.T} {info xs cb v} (h : InfoIs L (treeOf U xs) info) :
    LastBlockIn U x info xs cb v ↔ LastBlock U x xs cb v := by
  simp only [LastBlockIn, LastBlock, ne_eq, controlBlock_iff h]

/- One item. -/

theorem treeOf_eq (xs : List (UInt8 × Mini U.Shape L.pubkey.T)) : xs.map (leafOf U) = treeOf U xs := rfl

def ofFields (f : Fields L) : Common L :=
  ⟨f.redeemScript, f.witnessScript, f.bip32Derivation, f.tapInternalKey, f.tapKeyOrigins⟩

/-- The fields after updating. -/
structure FieldsUpdated (U : UpdLib L) (d : Descriptor U.Shape U.Key) (f g : Fields L) : Prop where
  plain : ∀ e, d = .plain e → PlainUpdated U e (ofFields f) (ofFields g) ∧ g.tapScripts = f.tapScripts ∧
    g.tapMerkleRoot = f.tapMerkleRoot ∧ g.tapTree = f.tapTree
  tr : ∀ ik ls, d = .tr ik ls → TrUpdated U ik ls (ofFields f) (ofFields g) ∧
    ∀ pk xs, U.derive ik = .ok pk → LeavesAre U ls xs →
      (∃ r, MerkleRoot L (treeOf U xs) r ∧ g.tapMerkleRoot = f.tapMerkleRoot.map fun _ => r) ∧
      (f.tapScripts = none → g.tapScripts = none) ∧
      (∀ m, f.tapScripts = some m → ∃ m', g.tapScripts = some m' ∧ Overwritten (LastBlock U (U.xonly pk) xs) m m') ∧
      (f.tapTree = none ∨ ls = [] → g.tapTree = f.tapTree) ∧
      (f.tapTree ≠ none → ls ≠ [] → ∃ (t : TapTree L) (T : Tree), g.tapTree = some (some t) ∧ T.height ≤ 128 ∧
        treeOf U xs = T.list 0 ∧ t.leaves = (T.sorted L).list 0)

theorem DescrIs.keys {d : Descriptor U.Shape U.Key} {x} (h : DescrIs U d x) : ∃ pks, KeysAre U (allKeys d) pks := by
  cases h with
  | plain h =>
    cases h with
    | bare h | sh h | shWsh h | wsh h => exact ⟨_, h.2⟩
    | pkh h | wpkh h | shWpkh h => exact ⟨_, .cons h .nil⟩
  | @tr ik pk ls xs h1 h2 =>
    refine ⟨leafKeys xs ++ [pk], ?_⟩
    have : ∀ {as : List U.Key} {pas}, KeysAre U as pas → KeysAre U (as ++ [ik]) (pas ++ [pk]) := by
      intro as pas ha
      induction ha with
      | nil => exact .cons h2 .nil
      | cons h _ ih => exact .cons h ih
    exact this h1.keys

theorem DescrIs.paths {d : Descriptor U.Shape U.Key} {x} (h : DescrIs U d x) (hd : Definite U d) : HavePaths U d := by
  obtain ⟨pks, hk⟩ := h.keys
  intro k hk'
  obtain ⟨pk, e⟩ := hk.derive k hk'
  exact hd k hk' pk e

theorem PlainIs.unique {d : Plain U.Shape U.Key} {x y} (h : PlainIs U d x) (h' : PlainIs U d y) : x = y := by
  cases h <;> cases h' <;> rename_i a _ b
  all_goals
    first
    | rw [MiniIs.unique a b]
    | (have := a.symm.trans b; cases this; rfl)

theorem DescrIs.unique {d : Descriptor U.Shape U.Key} {x y} (h : DescrIs U d x) (h' : DescrIs U d y) : x = y := by
  cases h with
  | plain h => cases h' with | plain h' => rw [h.unique h']
  | tr h1 h2 =>
    cases h' with
    | tr h3 h4 =>
      rw [h1.unique h3]
      have := h2.symm.trans h4; cases this; rfl

/-- The output script of a descriptor. -/
inductive SpkOf (U : UpdLib L) : Descriptor U.Shape L.pubkey.T → Bytes → Prop
  | plain {d s} : d.scriptPubkey U = some s → SpkOf U (.plain d) s
  | tr {pk xs r} : MerkleRoot L (treeOf U xs) r → SpkOf U (.tr pk xs) ([0x51, 0x20] ++ (U.outputKey (U.xonly pk) r).bytes)

theorem SpkOf.unique {x : Descriptor U.Shape L.pubkey.T} {s t} (h : SpkOf U x s) (h' : SpkOf U x t) : s = t := by
  cases h with
  | plain h => cases h' with | plain h' => exact Option.some.inj (h.symm.trans h')
  | tr h => cases h' with | tr h' => rw [h.unique h']

theorem scriptOf_iff {d : Descriptor U.Shape U.Key} {s} : ScriptOf U d s ↔ ∃ x, DescrIs U d x ∧ SpkOf U x s := by
  constructor
  · intro h
    cases h with
    | bare h => exact ⟨_, .plain (.bare h), .plain rfl⟩
    | pkh h => exact ⟨_, .plain (.pkh h), .plain rfl⟩
    | wpkh h hl => exact ⟨_, .plain (.wpkh h), .plain (by simp [Plain.scriptPubkey, p2wpkhOf, hl])⟩
    | sh h => exact ⟨_, .plain (.sh h), .plain rfl⟩
    | shWpkh h hl => exact ⟨_, .plain (.shWpkh h), .plain (by simp [Plain.scriptPubkey, p2wpkhOf, hl, toP2sh])⟩
    | shWsh h => exact ⟨_, .plain (.shWsh h), .plain rfl⟩
    | wsh h => exact ⟨_, .plain (.wsh h), .plain rfl⟩
    | tr h1 h2 h3 => exact ⟨_, .tr h1 h2, .tr h3⟩
  · rintro ⟨x, h, hs⟩
    cases h with
    | tr h1 h2 => cases hs with | tr h3 => exact .tr h1 h2 h3
    | plain h =>
      cases hs with | plain hs => ?_
      cases h with
      | bare h => cases hs; exact .bare h
      | pkh h => cases hs; exact .pkh h
      | wpkh h =>
        simp only [Plain.scriptPubkey, p2wpkhOf] at hs
        split at hs
        · cases hs; exact .wpkh h ‹_›
        · cases hs
      | sh h => cases hs; exact .sh h
      | shWpkh h =>
        simp only [Plain.scriptPubkey, p2wpkhOf] at hs
        split at hs
        · cases hs; exact .shWpkh h ‹_›
        · cases hs
      | shWsh h => cases hs; exact .shWsh h
      | wsh h => cases hs; exact .wsh h

theorem ScriptOf.unique {d : Descriptor U.Shape U.Key} {s t} (h : ScriptOf U d s) (h' : ScriptOf U d t) : s = t := by
  obtain ⟨x, h1, h2⟩ := scriptOf_iff.mp h
  obtain ⟨y, h3, h4⟩ := scriptOf_iff.mp h'
  rw [h1.unique h3] at h2
  exact h2.unique h4

/-- What becomes of the fields. -/
inductive ItemCase (U : UpdLib L) (f : Fields L) (d : Descriptor U.Shape U.Key) (check : Option Bytes) :
    Out Empty (Fields L × Except ConvErr (Descriptor U.Shape L.pubkey.T × Bool)) → Prop
  | fails {e} : FirstFailure U (allKeys d) e → ItemCase U f d check (.ok (f, .error e))
  | differs {x s s'} : DescrIs U d x → ScriptOf U d s → check = some s' → s ≠ s' → ItemCase U f d check (.ok (f, .ok (x, false)))
  | panics {x w} : DescrIs U d x → (∀ s, ScriptOf U d s → check = none ∨ check = some s) →
      ¬ (Compressed U d ∧ TreeValid U d) →
      ItemCase U f d check (.error (.panic w))
  | updated {x s g} : DescrIs U d x → ScriptOf U d s → check = none ∨ check = some s → Compressed U d →
      TreeValid U d → FieldsUpdated U d f g →
      ItemCase U f d check (.ok (g, .ok (x, true)))

theorem overwritten_extend {ks : List U.Key} {m s : BMap L.secpPk.T KeySource}
    (h : Overwritten (LastOrigin U ks) .empty s) : Overwritten (LastOrigin U ks) m (m.extend s) := by
  intro k
  rw [BMap.get_extend]
  constructor
  · intro v hv; rw [(h k).1 v hv]; rfl
  · intro hn; rw [(h k).2 hn]; rfl

theorem check_cases (check : Option Bytes) (s : Bytes) :
    (mismatch check s = true ∧ ∃ s', check = some s' ∧ s ≠ s') ∨
    (mismatch check s = false ∧ (check = none ∨ check = some s)) := by
  cases check with
  | none => exact .inr ⟨rfl, .inl rfl⟩
  | some t =>
    by_cases h : t = s
    · exact .inr ⟨by simp [mismatch, h], .inr (by rw [h])⟩
    · exact .inl ⟨by simp [mismatch, h], t, rfl, fun e => h e.symm⟩

theorem plain_case {f : Fields L} {d : Plain U.Shape U.Key} {check : Option Bytes} (hd : Definite U (.plain d)) :
    ItemCase U f (.plain d) check (updatePlain U f d check) := by
  simp only [updatePlain]
  cases ht : translate U d with
  | error e => exact .fails (translate_error ht hd)
  | ok r =>
    obtain ⟨x, src⟩ := r
    obtain ⟨h1, h2, h3⟩ := translate_ok ht
    simp only
    cases hs : x.scriptPubkey U with
    | none =>
      refine .panics (.plain h1) ?_ ?_
      · intro s hS
        obtain ⟨x', h', hs'⟩ := scriptOf_iff.mp hS
        have := h'.unique (.plain h1)
        subst this
        cases hs' with | plain hs' => rw [hs] at hs'; cases hs'
      rintro ⟨hc, -⟩
      cases h1 with
      | bare h | pkh h | sh h | shWsh h | wsh h => cases hs
      | wpkh h | shWpkh h => simp [Plain.scriptPubkey, p2wpkhOf, hc _ _ (by simp) h] at hs
    | some s =>
      simp only
      have hS : ScriptOf U (.plain d) s := scriptOf_iff.mpr ⟨_, .plain h1, .plain hs⟩
      rcases check_cases check s with ⟨hc, s', hc', hne⟩ | ⟨hc, hc'⟩
      · rw [if_pos hc]; exact .differs (.plain h1) hS hc' hne
      · rw [if_neg (by rw [hc]; simp)]
        refine .updated (.plain h1) hS hc' ?_ ?_ ⟨?_, by simp⟩
        · intro k pk hk hpk
          rcases hk with hk | hk <;> cases hk <;> cases hS <;> rename_i hl h <;>
            (have := h.symm.trans hpk; cases this; exact hl)
        · intro ik ls xs h; cases h
        · intro e he
          cases he
          cases h1 with
          | bare h => exact ⟨⟨.bare, overwritten_extend h3, rfl, rfl⟩, rfl, rfl, rfl⟩
          | pkh h => exact ⟨⟨.pkh, overwritten_extend h3, rfl, rfl⟩, rfl, rfl, rfl⟩
          | wpkh h => exact ⟨⟨.wpkh, overwritten_extend h3, rfl, rfl⟩, rfl, rfl, rfl⟩
          | sh h => exact ⟨⟨.sh h, overwritten_extend h3, rfl, rfl⟩, rfl, rfl, rfl⟩
          | @shWpkh k pk h =>
            refine ⟨⟨?_, overwritten_extend h3, rfl, rfl⟩, rfl, rfl, rfl⟩
            simp only [Plain.setScripts, ofFields]
            simp only [Plain.scriptPubkey] at hs
            cases hp : p2wpkhOf pk with
            | none => rw [hp] at hs; cases hs
            | some b =>
              simp only [p2wpkhOf] at hp
              split at hp
              · cases hp; exact .shWpkh h
              · cases hp
          | shWsh h => exact ⟨⟨.shWsh h, overwritten_extend h3, rfl, rfl⟩, rfl, rfl, rfl⟩
          | wsh h => exact ⟨⟨.wsh h, overwritten_extend h3, rfl, rfl⟩, rfl, rfl, rfl⟩

theorem originAfter_of_grow {old o : BMap L.xonly.T (List Hash32 × KeySource)} {ls : List (UInt8 × Mini U.Shape U.Key)}
    {ik : L.xonly.T} {s : KeySource}
    (h : Grow (InLeaf U ls) (FirstOrigin U (leafKeys ls)) (old.insert ik ([], s)) o) (x : L.xonly.T) :
    OriginAfter U old ls ik s x ((mapValues (fun v => (dedup (sortHashes v.1), v.2)) o).get x) := by
  rw [get_mapValues]
  by_cases hx : x = ik
  · subst hx
    obtain ⟨hs, e1, e2⟩ := (h x).1 [] s (by simp)
    rw [e1]
    exact .internal rfl ((setOf_sorted hs).congr fun h => by rw [e2]; simp)
  · have hget : (old.insert ik ([], s)).get x = old.get x := BMap.get_insert_ne _ hx _
    cases ho : old.get x with
    | some v =>
      obtain ⟨hs, t⟩ := v
      obtain ⟨hs', e1, e2⟩ := (h x).1 hs t (by rw [hget, ho])
      rw [e1]
      exact .known hx ho ((setOf_sorted hs').congr fun h => e2 h)
    | none =>
      have hn := (h x).2 (by rw [hget, ho])
      by_cases hf : ∃ t, FirstOrigin U (leafKeys ls) x t
      · obtain ⟨t, ht⟩ := hf
        obtain ⟨hs', e1, e2⟩ := hn.1 t ht
        rw [e1]
        exact .fresh hx ho ht ((setOf_sorted hs').congr fun h => e2 h)
      · have hf : ∀ t, ¬ FirstOrigin U (leafKeys ls) x t := fun t ht => hf ⟨t, ht⟩
        rw [hn.2 hf]
        exact .absent hx ho hf

theorem setTree_empty (f : Fields L) : setTree [] f = .ok f := by
  unfold setTree; cases f.tapTree <;> rfl

theorem setTree_ok {T : Tree} (hT : T.height ≤ 128) (f : Fields L) :
    ∃ tt, setTree (T.list 0) f = .ok { f with tapTree := tt } ∧ (f.tapTree = none → tt = none) ∧
      (f.tapTree ≠ none → ∃ t : TapTree L, tt = some (some t) ∧ t.leaves = (T.sorted L).list 0) := by
  simp only [setTree]
  cases ht : f.tapTree with
  | none => exact ⟨none, by simp only; rw [← ht], by simp, by simp⟩
  | some t0 =>
    simp only
    rw [if_neg (by simp [list_ne_nil])]
    have hb : L.tapBuild (T.list 0) = some ((T.arrange L.sha256).list 0) := (tapBuildOf_iff L.sha256).mpr ⟨T, hT, rfl, rfl⟩
    split
    · rename_i h; rw [hb] at h; cases h
    · rename_i t h
      rw [hb] at h; cases h
      exact ⟨_, rfl, by simp, fun _ => ⟨_, rfl, by rw [sorted_eq]⟩⟩

theorem write_case {f : Fields L} {ik : U.Key} {ls : List (UInt8 × Mini U.Shape U.Key)} {pk xs path info} (hls : LeavesAre U ls xs)
    (hk : U.derive ik = .ok pk) (hpath : U.path ik = some path) (hpl : ∀ k ∈ leafKeys ls, U.path k ≠ none)
    (hi : InfoIs L (treeOf U xs) info) :
    ∃ g, writeTr U f ik ls pk xs info = .ok (g, .ok ()) ∧ FieldsUpdated U (.tr ik ls) f g := by
  simp only [writeTr, treeOf_eq, hpath]
  have hb : ∀ l ∈ xs, U.controlBlock (U.xonly pk) info (U.tapEncode l.2) ≠ none := fun l hl =>
    controlBlock_some (l := leafOf U l) hi (List.mem_map.mpr ⟨l, hl, rfl⟩) rfl
  obtain ⟨o, ts, e1, e2, e3, e4⟩ := addLeaves_ok hls hpl (U.xonly pk) info
    { f with
      tapMerkleRoot := f.tapMerkleRoot.map fun _ => rootOf info, tapInternalKey := some (U.xonly pk)
      tapKeyOrigins := f.tapKeyOrigins.insert (U.xonly pk) ([], (U.fingerprint ik, path)) } (fun _ => hb)
  rw [e1, ok_bind]
  simp only
  have hempty : treeOf U xs = [] ↔ ls = [] := by
    cases hls <;> simp [treeOf]
  have main : ∃ tt, setTree (treeOf U xs)
      { redeemScript := f.redeemScript, witnessScript := f.witnessScript, bip32Derivation := f.bip32Derivation
        tapInternalKey := some (U.xonly pk), tapKeyOrigins := mapValues (fun v => (dedup (sortHashes v.1), v.2)) o
        tapTree := f.tapTree, tapScripts := ts
        tapMerkleRoot := f.tapMerkleRoot.map fun _ => rootOf info } = .ok
      { redeemScript := f.redeemScript, witnessScript := f.witnessScript, bip32Derivation := f.bip32Derivation
        tapInternalKey := some (U.xonly pk), tapKeyOrigins := mapValues (fun v => (dedup (sortHashes v.1), v.2)) o
        tapTree := tt, tapScripts := ts
        tapMerkleRoot := f.tapMerkleRoot.map fun _ => rootOf info } ∧
      (f.tapTree = none ∨ ls = [] → tt = f.tapTree) ∧
      (f.tapTree ≠ none → ls ≠ [] → ∃ (t : TapTree L) (T : Tree), tt = some (some t) ∧ T.height ≤ 128 ∧
        treeOf U xs = T.list 0 ∧ t.leaves = (T.sorted L).list 0) := by
    generalize ht : treeOf U xs = tree at hi hempty ⊢
    cases hi with
    | empty => exact ⟨f.tapTree, setTree_empty _, fun _ => rfl, fun _ h => absurd (hempty.mp rfl) h⟩
    | @tree T hT =>
      obtain ⟨tt, t1, t2, t3⟩ := setTree_ok hT
        { redeemScript := f.redeemScript, witnessScript := f.witnessScript, bip32Derivation := f.bip32Derivation
          tapInternalKey := some (U.xonly pk), tapKeyOrigins := mapValues (fun v => (dedup (sortHashes v.1), v.2)) o
          tapTree := f.tapTree, tapScripts := ts
          tapMerkleRoot := f.tapMerkleRoot.map fun _ => rootOf (some (T.info L.sha256)) }
      refine ⟨tt, t1, ?_, ?_⟩
      · rintro (h | h)
        · rw [h, t2 h]
        · exact absurd (hempty.mpr h) (list_ne_nil T 0)
      · intro h _
        obtain ⟨t, h1, h2⟩ := t3 h
        exact ⟨t, T, h1, hT, rfl, h2⟩
  obtain ⟨tt, t1, t2, t3⟩ := main
  rw [t1, ok_bind]
  refine ⟨_, rfl, (by intro e h; cases h), fun ik' ls' e => ?_⟩
  cases e
  refine ⟨⟨rfl, rfl, rfl, pk, (U.fingerprint ik, path), ⟨hk, hpath, rfl⟩, rfl, originAfter_of_grow e2⟩, ?_⟩
  intro pk' xs' hk' hls'
  have := hk.symm.trans hk'; cases this
  cases hls'.unique hls
  refine ⟨⟨_, hi.root, rfl⟩, e3, ?_, t2, t3⟩
  intro m hm
  obtain ⟨m', h1, h2⟩ := e4 m hm
  exact ⟨m', h1, by simpa only [Overwritten, lastBlockIn_iff hi] using h2⟩

theorem tr_case {f : Fields L} {ik : U.Key} {ls : List (UInt8 × Mini U.Shape U.Key)} {check : Option Bytes}
    (hd : Definite U (.tr ik ls)) : ItemCase U f (.tr ik ls) check (updateTr U f ik ls check) := by
  simp only [updateTr]
  cases hl : deriveLeaves U ls with
  | error e => exact .fails ((deriveLeaves_error hl).left _)
  | ok xs =>
    have hls := deriveLeaves_ok.mp hl
    cases hk : U.derive ik with
    | error e => exact .fails (FirstFailure.append hls.keys ⟨[], ik, [], rfl, by simp, hk⟩)
    | ok pk =>
      have hx : DescrIs U (.tr ik ls) (.tr pk xs) := .tr hls hk
      have hp := hx.paths hd
      simp only [treeOf_eq]
      rcases spendInfo_cases (L := L) (treeOf U xs) with ⟨info, hi, hI⟩ | ⟨⟨w, hw⟩, hne, hT⟩
      · rw [hi, ok_bind]
        have hS : ScriptOf U (.tr ik ls) _ := .tr hls hk hI.root
        rcases check_cases check ([0x51, 0x20] ++ (U.outputKey (U.xonly pk) (rootOf info)).bytes) with
          ⟨hc, s', hc', hne⟩ | ⟨hc, hc'⟩
        · simp only [hc, ↓reduceIte]; exact .differs hx hS hc' hne
        · simp only [hc, Bool.false_eq_true, ↓reduceIte]
          have hcomp : Compressed U (.tr ik ls) := by rintro k pk (h | h) <;> cases h
          cases hpath : U.path ik with
          | none => exact absurd hpath (hp ik (by simp [allKeys]))
          | some path =>
            obtain ⟨g, e, h1⟩ := write_case (f := f) hls hk hpath (fun k hk => hp k (by simp [allKeys, hk])) hI
            rw [e]
            refine .updated hx hS hc' hcomp ?_ h1
            intro ik' ls' xs' e hne hls'
            cases e
            cases hls'.unique hls
            generalize htr : treeOf U xs = tree at hI
            cases hI with
            | empty => cases hls <;> first | exact absurd rfl hne | cases htr
            | @tree T hT => exact ⟨T, hT, rfl⟩
      · rw [hw]
        refine .panics hx ?_ ?_
        · intro s hs
          cases hs with
          | tr h1 h2 h3 =>
            cases h1.unique hls
            generalize htr : treeOf U xs = tree at h3 hne hT
            cases h3 with
            | empty => exact absurd rfl hne
            | @tree T h => exact absurd ⟨T, h, rfl⟩ hT
        · rintro ⟨-, h⟩
          exact hT (h ik ls xs rfl (by rintro rfl; cases hls; exact hne rfl) hls)

theorem item_case {f : Fields L} {d : Descriptor U.Shape U.Key} {check : Option Bytes} (hd : Definite U d) :
    ItemCase U f d check (updateItem U f d check) := by
  cases d with
  | tr ik ls => exact tr_case hd
  | plain d => exact plain_case hd

/-! ### From fields to inputs and outputs -/

theorem FieldsUpdated.input {d : Descriptor U.Shape U.Key} {i : Input L} {g : Fields L} (h : FieldsUpdated U d i.fields g) :
    InputUpdated U d i (i.setFields g) where
  plain e he := by
    obtain ⟨h1, h2, h3, -⟩ := h.plain e he
    exact ⟨h1, by simp [Input.setFields, h2, Input.fields], by simp [Input.setFields, h3, Input.fields]⟩
  tr ik ls e := by
    obtain ⟨h1, h2⟩ := h.tr ik ls e
    refine ⟨h1, fun pk xs hk hx => ?_⟩
    obtain ⟨⟨r, a1, a2⟩, -, b, -⟩ := h2 pk xs hk hx
    obtain ⟨m, b1, b2⟩ := b i.tapScripts rfl
    exact ⟨by simpa [Input.setFields, a2, Input.fields] using a1, by simpa [Input.setFields, b1] using b2⟩
  rest := rfl

theorem FieldsUpdated.output {d : Descriptor U.Shape U.Key} {i : Output L} {g : Fields L} (h : FieldsUpdated U d i.fields g)
    (hx : ∃ x, DescrIs U d x) : OutputUpdated U d i (i.setFields g) where
  plain e he := by
    obtain ⟨h1, -, -, h2⟩ := h.plain e he
    exact ⟨h1, by simp [Output.setFields, h2, Output.fields]⟩
  tr ik ls e := by
    obtain ⟨h1, h2⟩ := h.tr ik ls e
    obtain ⟨x, hx⟩ := hx
    subst e
    cases hx with
    | tr hl hk =>
      refine ⟨h1, fun e => ?_, fun hne xs hx => ?_⟩
      · obtain ⟨-, -, -, a, -⟩ := h2 _ _ hk hl
        simp [Output.setFields, a (.inr e), Output.fields]
      · obtain ⟨-, -, -, -, a⟩ := h2 _ _ hk hx
        obtain ⟨t, T, a1, a2⟩ := a (by simp [Output.fields]) hne
        exact ⟨t, T, by simp [Output.setFields, a1], a2⟩
  rest := rfl

theorem FirstOrigin.unique {ks : List U.Key} {x : L.xonly.T} {s t} (h : FirstOrigin U ks x s) (h' : FirstOrigin U ks x t) :
    s = t := by
  induction ks with
  | nil => exact absurd h not_firstOrigin_nil
  | cons k ks ih =>
    obtain ⟨a, j, b, q, e1, e2, e3, e4⟩ := h
    obtain ⟨a', j', b', q', e1', e2', e3', e4'⟩ := h'
    cases a with
    | nil =>
      cases e1
      cases a' with
      | nil =>
        cases e1'
        obtain ⟨-, f1, f2⟩ := e2
        obtain ⟨-, f1', f2'⟩ := e2'
        have := f1.symm.trans f1'
        obtain ⟨s1, s2⟩ := s
        obtain ⟨t1, t2⟩ := t
        simp_all
      | cons c a' =>
        cases e1'
        exact absurd e3 (e4' _ (by simp) q e2.1)
    | cons c a =>
      obtain ⟨rfl, f1⟩ := List.cons.inj e1
      cases a' with
      | nil =>
        obtain ⟨rfl, -⟩ := List.cons.inj e1'
        exact absurd e3' (e4 _ (by simp) q' e2'.1)
      | cons c' a' =>
        obtain ⟨-, f1'⟩ := List.cons.inj e1'
        exact ih ⟨a, j, b, q, f1, e2, e3, fun y hy => e4 y (by simp [hy])⟩
          ⟨a', j', b', q', f1', e2', e3', fun y hy => e4' y (by simp [hy])⟩

theorem OriginAfter.unique {old : BMap L.xonly.T (List Hash32 × KeySource)} {ls : List (UInt8 × Mini U.Shape U.Key)} {ik s x a b}
    (ha : OriginAfter U old ls ik s x a) (hb : OriginAfter U old ls ik s x b) : a = b := by
  cases ha with
  | internal h1 h2 =>
    cases hb with
    | internal _ h2' => rw [h2.unique h2']
    | known h | fresh h | absent h => exact absurd h1 h
  | known h1 h2 h3 =>
    cases hb with
    | internal h => exact absurd h h1
    | known _ h2' h3' => have := h2.symm.trans h2'; cases this; rw [h3.unique h3']
    | fresh _ h | absent _ h => rw [h2] at h; cases h
  | fresh h1 h2 h3 h4 =>
    cases hb with
    | internal h => exact absurd h h1
    | known _ h => rw [h2] at h; cases h
    | fresh _ _ h3' h4' => rw [h3.unique h3', h4.unique h4']
    | absent _ _ h => exact absurd h3 (h _)
  | absent h1 h2 h3 =>
    cases hb with
    | internal h => exact absurd h h1
    | known _ h => rw [h2] at h; cases h
    | fresh _ _ h => exact absurd h (h3 _)
    | absent => rfl

theorem ScriptsSet.unique {r w : Option Bytes} {d : Plain U.Shape U.Key} {a b a' b'} (h : ScriptsSet U r w d a b)
    (h' : ScriptsSet U r w d a' b') : a = a' ∧ b = b' := by
  cases h <;> cases h'
  all_goals first
    | exact ⟨rfl, rfl⟩
    | (rename_i x hx y hy; rw [MiniIs.unique hx hy]; exact ⟨rfl, rfl⟩)
    | (rename_i x hx y hy; have := hx.symm.trans hy; cases this; exact ⟨rfl, rfl⟩)

theorem PlainUpdated.unique {d : Plain U.Shape U.Key} {a b c : Common L} (hb : PlainUpdated U d a b) (hc : PlainUpdated U d a c) :
    b = c := by
  obtain ⟨b1, b2, b3, b4⟩ := hb
  obtain ⟨c1, c2, c3, c4⟩ := hc
  have := b1.unique c1
  have := b2.unique c2
  cases b; cases c
  simp_all

theorem TrUpdated.unique {ik : U.Key} {ls : List (UInt8 × Mini U.Shape U.Key)} {a b c : Common L} (hb : TrUpdated U ik ls a b)
    (hc : TrUpdated U ik ls a c) : b = c := by
  obtain ⟨b1, b2, b3, pk, s, ⟨b4, b5, b6⟩, b7, b8⟩ := hb
  obtain ⟨c1, c2, c3, pk', s', ⟨c4, c5, c6⟩, c7, c8⟩ := hc
  have := b4.symm.trans c4; cases this
  have hs : s = s' := by
    have := b5.symm.trans c5
    obtain ⟨s1, s2⟩ := s
    obtain ⟨t1, t2⟩ := s'
    simp_all
  cases hs
  have : b.tapKeyOrigins = c.tapKeyOrigins := BMap.ext_get fun x => (b8 x).unique (c8 x)
  cases b; cases c
  simp_all

theorem InputUpdated.unique {d : Descriptor U.Shape U.Key} {i j k : Input L} (hx : ∃ x, DescrIs U d x) (hj : InputUpdated U d i j)
    (hk : InputUpdated U d i k) : j = k := by
  have key : ofInput j = ofInput k ∧ j.tapScripts = k.tapScripts ∧ j.tapMerkleRoot = k.tapMerkleRoot := by
    obtain ⟨x, hx⟩ := hx
    cases hx with
    | plain h =>
      obtain ⟨a1, a2, a3⟩ := hj.plain _ rfl
      obtain ⟨b1, b2, b3⟩ := hk.plain _ rfl
      exact ⟨a1.unique b1, a2.trans b2.symm, a3.trans b3.symm⟩
    | tr h1 h2 =>
      obtain ⟨a1, a2⟩ := hj.tr _ _ rfl
      obtain ⟨b1, b2⟩ := hk.tr _ _ rfl
      obtain ⟨a2, a3⟩ := a2 _ _ h2 h1
      obtain ⟨b2, b3⟩ := b2 _ _ h2 h1
      exact ⟨a1.unique b1, a3.unique b3, a2.unique b2⟩
  have r1 := hj.rest
  have r2 := hk.rest
  obtain ⟨k1, k2, k3⟩ := key
  obtain ⟨k4, k5, k6, k7, k8⟩ := Common.mk.inj k1
  cases i; cases j; cases k
  simp_all

theorem OutputUpdated.unique {d : Descriptor U.Shape U.Key} {i j k : Output L} (hx : ∃ x, DescrIs U d x) (hj : OutputUpdated U d i j)
    (hk : OutputUpdated U d i k) : j = k := by
  have key : ofOutput j = ofOutput k ∧ j.tapTree = k.tapTree := by
    obtain ⟨x, hx⟩ := hx
    cases hx with
    | plain h =>
      obtain ⟨a1, a2⟩ := hj.plain _ rfl
      obtain ⟨b1, b2⟩ := hk.plain _ rfl
      exact ⟨a1.unique b1, a2.trans b2.symm⟩
    | @tr _ _ ls xs h1 h2 =>
      obtain ⟨a1, a2, a3⟩ := hj.tr _ _ rfl
      obtain ⟨b1, b2, b3⟩ := hk.tr _ _ rfl
      refine ⟨a1.unique b1, ?_⟩
      by_cases hl : ls = []
      · rw [a2 hl, b2 hl]
      · obtain ⟨t, T, a4, a5, a6, a7⟩ := a3 hl _ h1
        obtain ⟨t', T', b4, b5, b6, b7⟩ := b3 hl _ h1
        rw [a4, b4]
        have hi := list_inj (L := L) a5 b5 (a6.symm.trans b6)
        have : t.leaves = t'.leaves := by
          rw [a7, b7, sorted_eq, sorted_eq, ← info_leaves, ← info_leaves, hi]
        cases t; cases t'
        simp_all
  have r1 := hj.rest
  have r2 := hk.rest
  obtain ⟨k1, k2⟩ := key
  obtain ⟨k4, k5, k6, k7, k8⟩ := Common.mk.inj k1
  cases i; cases j; cases k
  simp_all

/-! ### The UTXO checks -/

theorem segwit_iff {T K : Type} (d : Descriptor T K) : d.isSegwit = true ↔ Segwit d := by
  cases d with
  | tr => simp [Descriptor.isSegwit, Segwit]
  | plain d => cases d <;> simp [Descriptor.isSegwit, Segwit]

theorem UtxoAgree.unique {sw : Prop} {t : TxIn} {i : Input L} {u v : TxOut} (hu : UtxoAgree sw t i u) (hv : UtxoAgree sw t i v) : u = v := by
  obtain ⟨a1, a2, a3⟩ := hu
  obtain ⟨b1, b2, b3⟩ := hv
  rcases a1 with a1 | ⟨a1, a4⟩
  · rcases b1 with b1 | ⟨b1, -⟩ <;> rw [a1] at b1 <;> cases b1; rfl
  · cases h : i.nonWitnessUtxo with
    | none => exact absurd h a4
    | some tx =>
      have := (a2 tx h).2.symm.trans (b2 tx h).2
      cases this; rfl

theorem expected_cases (i : Input L) (t : TxIn) (b : Bool) :
    (∃ u, UtxoAgree (b = true) t i u ∧ i.expectedSpk t b = .ok u.scriptPubkey) ∨
    ((∀ u, ¬ UtxoAgree (b = true) t i u) ∧ i.expectedSpk t b = .error .utxoCheck) := by
  unfold Input.expectedSpk
  cases hn : i.nonWitnessUtxo with
  | none =>
    simp only [Bool.false_eq_true, ↓reduceIte]
    cases hw : i.witnessUtxo with
    | none => exact .inr ⟨fun u h => by rcases h.1 with h | h <;> simp_all, rfl⟩
    | some w =>
      cases b with
      | true => exact .inl ⟨w, ⟨.inl hw, by simp [hn], fun _ => rfl⟩, rfl⟩
      | false => exact .inr ⟨fun u h => absurd (h.2.2 hn) (by simp), rfl⟩
  | some tx =>
    simp only [decide_eq_true_eq]
    rw [← V2.txid_fun]
    by_cases ht : t.previousOutput.txid = txid L tx
    · rw [if_neg (by simp [ht])]
      cases hw : i.witnessUtxo with
      | none =>
        simp only
        cases ho : tx.output[t.previousOutput.vout.toNat]? with
        | none => exact .inr ⟨fun u h => by simpa [ho] using (h.2.1 tx hn).2, rfl⟩
        | some u =>
          refine .inl ⟨u, ⟨.inr ⟨hw, by simp [hn]⟩, fun tx' h => ?_, by simp [hn]⟩, rfl⟩
          rw [hn] at h; cases h
          exact ⟨ht.symm, ho⟩
      | some w =>
        simp only
        cases ho : tx.output[t.previousOutput.vout.toNat]? with
        | none => exact .inr ⟨fun u h => by simpa [ho] using (h.2.1 tx hn).2, rfl⟩
        | some u =>
          by_cases hwu : w = u
          · subst hwu
            refine .inl ⟨w, ⟨.inl hw, fun tx' h => ?_, by simp [hn]⟩, by simp⟩
            rw [hn] at h; cases h
            exact ⟨ht.symm, ho⟩
          · refine .inr ⟨fun v h => ?_, by simp [hwu]⟩
            have h1 := (h.2.1 tx hn).2
            rw [ho] at h1; cases h1
            rcases h.1 with h | ⟨h, -⟩ <;> rw [hw] at h <;> cases h
            exact hwu rfl
    · rw [if_pos ht]
      exact .inr ⟨fun u h => ht (h.2.1 tx hn).1.symm, rfl⟩

/-! ### Updating inputs and outputs of a PSBT -/

theorem setFields_input (i : Input L) : i.setFields i.fields = i := rfl
theorem setFields_output (o : Output L) : o.setFields o.fields = o := rfl

theorem FirstFailure.not_descr {d : Descriptor U.Shape U.Key} {e x} (h : FirstFailure U (allKeys d) e) (hx : DescrIs U d x) : False := by
  obtain ⟨pks, hk⟩ := hx.keys
  exact hk.not_first h

/-- The ways in which updating an input can end. -/
inductive InputCase (U : UpdLib L) (p : Psbt L) (n : Nat) (d : Descriptor U.Shape U.Key) : Out Empty (Psbt L × Except UpdateErr Unit) → Prop
  | refused {e} : InputRefusal U p n d e → InputCase U p n d (.ok (p, .error e))
  | panics {w t i u x} : HasInput p n t i → UtxoAgree (Segwit d) t i u → DescrIs U d x →
      (∀ s, ScriptOf U d s → s = u.scriptPubkey) → ¬ (Compressed U d ∧ TreeValid U d) → InputCase U p n d (.error (.panic w))
  | updated {t i u j x} : HasInput p n t i → UtxoAgree (Segwit d) t i u → DescrIs U d x → ScriptOf U d u.scriptPubkey →
      Compressed U d → TreeValid U d → InputUpdated U d i j → InputCase U p n d (.ok (withInput p n j, .ok ()))

theorem set_self {α : Type} {l : List α} {n : Nat} {a : α} (h : l[n]? = some a) : l.set n a = l := by
  obtain ⟨h1, h2⟩ := List.getElem?_eq_some_iff.mp h
  rw [← h2, List.set_getElem_self]

theorem input_case {p : Psbt L} {n : Nat} {d : Descriptor U.Shape U.Key} (hd : Definite U d) :
    InputCase U p n d (p.updateInput U n d) := by
  unfold Psbt.updateInput
  cases hi : p.inputs[n]? with
  | none => exact .refused (.bounds (by simpa using hi))
  | some i =>
    have hlt : n < p.inputs.length := (List.getElem?_eq_some_iff.mp hi).1
    cases ht : p.unsignedTx.input[n]? with
    | none => exact .refused (.noInput hlt (by simpa using ht))
    | some t =>
      simp only
      have hI : HasInput p n t i := ⟨ht, hi⟩
      have hsame : ({ p with inputs := p.inputs.set n i } : Psbt L) = p := by rw [set_self hi]
      have hsw : (d.isSegwit = true) = Segwit d := propext (segwit_iff d)
      rcases expected_cases i t d.isSegwit with ⟨u, hu, he⟩ | ⟨hu, he⟩
      · rw [hsw] at hu
        rw [he]
        simp only
        have hc := item_case (f := i.fields) (check := some u.scriptPubkey) hd
        generalize updateItem U i.fields d (some u.scriptPubkey) = r at hc ⊢
        cases hc with
        | fails h =>
          change InputCase U p n d (.ok ({ p with inputs := p.inputs.set n i }, .error (.derivation _)))
          rw [hsame]; exact .refused (.derivation hI hu h)
        | differs hx hs h hne =>
          cases h
          change InputCase U p n d (.ok ({ p with inputs := p.inputs.set n i }, .error .mismatchedScriptPubkey))
          rw [hsame]; exact .refused (.script hI hu hs hne)
        | panics hx hs h =>
          refine .panics hI hu hx (fun s h' => by simpa [eq_comm] using hs s h') h
        | updated hx hs h hc hb hf =>
          rcases h with h | h <;> cases h
          exact .updated hI hu hx hs hc hb hf.input
      · rw [hsw] at hu
        rw [he]
        exact .refused (.utxo hI hu)

theorem InputRefusal.unique {p : Psbt L} {n : Nat} {d : Descriptor U.Shape U.Key} {e e'} (h : InputRefusal U p n d e)
    (h' : InputRefusal U p n d e') : e = e' := by
  have lt : ∀ {t i}, HasInput p n t i → n < p.inputs.length ∧ n < p.unsignedTx.input.length := fun h =>
    ⟨(List.getElem?_eq_some_iff.mp h.2).1, (List.getElem?_eq_some_iff.mp h.1).1⟩
  cases h with
  | bounds h =>
    cases h' with
    | bounds => rfl
    | noInput h' => omega
    | utxo h' | derivation h' | script h' => have := lt h'; omega
  | noInput h1 h2 =>
    cases h' with
    | bounds => omega
    | noInput h' => rfl
    | utxo h' | derivation h' | script h' => have := lt h'; omega
  | utxo h1 h2 =>
    cases h' with
    | bounds | noInput => have := lt h1; omega
    | utxo h' => rfl
    | derivation h' hu | script h' hu =>
      obtain ⟨rfl, rfl⟩ := hasInput_unique h1 h'
      exact absurd hu (h2 _)
  | derivation h1 h2 h3 =>
    cases h' with
    | bounds | noInput => have := lt h1; omega
    | utxo h' hu =>
      obtain ⟨rfl, rfl⟩ := hasInput_unique h1 h'
      exact absurd h2 (hu _)
    | derivation h' hu hf => rw [h3.unique hf]
    | script h' hu hs => obtain ⟨x, hx, -⟩ := scriptOf_iff.mp hs; exact (h3.not_descr hx).elim
  | script h1 h2 h3 h4 =>
    cases h' with
    | bounds | noInput => have := lt h1; omega
    | utxo h' hu =>
      obtain ⟨rfl, rfl⟩ := hasInput_unique h1 h'
      exact absurd h2 (hu _)
    | derivation h' hu hf => obtain ⟨x, hx, -⟩ := scriptOf_iff.mp h3; exact (hf.not_descr hx).elim
    | script => rfl

theorem InputRefusal.not_updated {p : Psbt L} {n : Nat} {d : Descriptor U.Shape U.Key} {e t i u} (h : InputRefusal U p n d e)
    (h1 : HasInput p n t i) (h2 : UtxoAgree (Segwit d) t i u) (h3 : ScriptOf U d u.scriptPubkey) : False := by
  have h4 := (List.getElem?_eq_some_iff.mp h1.2).1
  have h5 := (List.getElem?_eq_some_iff.mp h1.1).1
  cases h with
  | bounds => omega
  | noInput => omega
  | utxo h' hu =>
    obtain ⟨rfl, rfl⟩ := hasInput_unique h1 h'
    exact hu _ h2
  | derivation h' hu hf => obtain ⟨x, hx, -⟩ := scriptOf_iff.mp h3; exact hf.not_descr hx
  | script h' hu hs hne =>
    obtain ⟨rfl, rfl⟩ := hasInput_unique h1 h'
    exact hne (by rw [h2.unique hu] at h3; exact hs.unique h3)

theorem InputRefusal.not_panics {p : Psbt L} {n : Nat} {d : Descriptor U.Shape U.Key} {e t i u x} (h : InputRefusal U p n d e)
    (h1 : HasInput p n t i) (h2 : UtxoAgree (Segwit d) t i u) (h3 : DescrIs U d x)
    (h4 : ∀ s, ScriptOf U d s → s = u.scriptPubkey) : False := by
  have h5 := (List.getElem?_eq_some_iff.mp h1.2).1
  have h6 := (List.getElem?_eq_some_iff.mp h1.1).1
  cases h with
  | bounds => omega
  | noInput => omega
  | utxo h' hu =>
    obtain ⟨rfl, rfl⟩ := hasInput_unique h1 h'
    exact hu _ h2
  | derivation h' hu hf => exact hf.not_descr h3
  | script h' hu hs hne =>
    obtain ⟨rfl, rfl⟩ := hasInput_unique h1 h'
    exact hne (h2.unique hu ▸ h4 _ hs)

/-- The ways in which updating an output can end. -/
inductive OutputCase (U : UpdLib L) (p : Psbt L) (n : Nat) (d : Descriptor U.Shape U.Key) : Out Empty (Psbt L × Except UpdateErr Unit) → Prop
  | refused {e} : OutputRefusal U p n d e → OutputCase U p n d (.ok (p, .error e))
  | panics {w t o x} : p.outputs[n]? = some o → p.unsignedTx.output[n]? = some t → DescrIs U d x →
      (∀ s, ScriptOf U d s → s = t.scriptPubkey) → ¬ (Compressed U d ∧ TreeValid U d) → OutputCase U p n d (.error (.panic w))
  | updated {t o j x} : p.outputs[n]? = some o → p.unsignedTx.output[n]? = some t → DescrIs U d x → ScriptOf U d t.scriptPubkey →
      Compressed U d → TreeValid U d → OutputUpdated U d o j →
      OutputCase U p n d (.ok ({ p with outputs := p.outputs.set n j }, .ok ()))

theorem output_case {p : Psbt L} {n : Nat} {d : Descriptor U.Shape U.Key} (hd : Definite U d) :
    OutputCase U p n d (p.updateOutput U n d) := by
  unfold Psbt.updateOutput
  cases hi : p.outputs[n]? with
  | none => exact .refused (.bounds (by simpa using hi))
  | some o =>
    have hlt : n < p.outputs.length := (List.getElem?_eq_some_iff.mp hi).1
    cases ht : p.unsignedTx.output[n]? with
    | none => exact .refused (.noOutput hlt (by simpa using ht))
    | some t =>
      simp only
      have hsame : ({ p with outputs := p.outputs.set n o } : Psbt L) = p := by rw [set_self hi]
      have hc := item_case (f := o.fields) (check := some t.scriptPubkey) hd
      generalize updateItem U o.fields d (some t.scriptPubkey) = r at hc ⊢
      cases hc with
      | fails h =>
        change OutputCase U p n d (.ok ({ p with outputs := p.outputs.set n o }, .error (.derivation _)))
        rw [hsame]; exact .refused (.derivation hi ht h)
      | differs hx hs h hne =>
        cases h
        change OutputCase U p n d (.ok ({ p with outputs := p.outputs.set n o }, .error .mismatchedScriptPubkey))
        rw [hsame]; exact .refused (.script hi ht hs hne)
      | panics hx hs h =>
        refine .panics hi ht hx (fun s h' => by simpa [eq_comm] using hs s h') h
      | updated hx hs h hc hb hf =>
        rcases h with h | h <;> cases h
        exact .updated hi ht hx hs hc hb (hf.output ⟨_, hx⟩)

theorem OutputRefusal.unique {p : Psbt L} {n : Nat} {d : Descriptor U.Shape U.Key} {e e'} (h : OutputRefusal U p n d e)
    (h' : OutputRefusal U p n d e') : e = e' := by
  have lt : ∀ {o : Output L}, p.outputs[n]? = some o → n < p.outputs.length := fun h => (List.getElem?_eq_some_iff.mp h).1
  have lt' : ∀ {o : TxOut}, p.unsignedTx.output[n]? = some o → n < p.unsignedTx.output.length := fun h => (List.getElem?_eq_some_iff.mp h).1
  cases h with
  | bounds h =>
    cases h' with
    | bounds => rfl
    | noOutput h' => omega
    | derivation h' | script h' => have := lt h'; omega
  | noOutput h1 h2 =>
    cases h' with
    | bounds => omega
    | noOutput h' => rfl
    | derivation _ h' | script _ h' => have := lt' h'; omega
  | derivation h1 h2 h3 =>
    cases h' with
    | bounds => have := lt h1; omega
    | noOutput => have := lt' h2; omega
    | derivation h' hu hf => rw [h3.unique hf]
    | script h' hu hs => obtain ⟨x, hx, -⟩ := scriptOf_iff.mp hs; exact (h3.not_descr hx).elim
  | script h1 h2 h3 h4 =>
    cases h' with
    | bounds => have := lt h1; omega
    | noOutput => have := lt' h2; omega
    | derivation h' hu hf => obtain ⟨x, hx, -⟩ := scriptOf_iff.mp h3; exact (hf.not_descr hx).elim
    | script => rfl

theorem OutputRefusal.not_updated {p : Psbt L} {n : Nat} {d : Descriptor U.Shape U.Key} {e t o} (h : OutputRefusal U p n d e)
    (h1 : p.outputs[n]? = some o) (h2 : p.unsignedTx.output[n]? = some t) (h3 : ScriptOf U d t.scriptPubkey) : False := by
  have h4 := (List.getElem?_eq_some_iff.mp h1).1
  have h5 := (List.getElem?_eq_some_iff.mp h2).1
  cases h with
  | bounds => omega
  | noOutput => omega
  | derivation h' hu hf => obtain ⟨x, hx, -⟩ := scriptOf_iff.mp h3; exact hf.not_descr hx
  | script h' hu hs hne =>
    have := h2.symm.trans hu; cases this
    exact hne (hs.unique h3)

theorem OutputRefusal.not_panics {p : Psbt L} {n : Nat} {d : Descriptor U.Shape U.Key} {e t o x} (h : OutputRefusal U p n d e)
    (h1 : p.outputs[n]? = some o) (h2 : p.unsignedTx.output[n]? = some t) (h3 : DescrIs U d x)
    (h4 : ∀ s, ScriptOf U d s → s = t.scriptPubkey) : False := by
  have h5 := (List.getElem?_eq_some_iff.mp h1).1
  have h6 := (List.getElem?_eq_some_iff.mp h2).1
  cases h with
  | bounds => omega
  | noOutput => omega
  | derivation h' hu hf => exact hf.not_descr h3
  | script h' hu hs hne =>
    have := h2.symm.trans hu; cases this
    exact hne (h4 _ hs)

/-- A script is there unless a key that should be compressed is not, or the leaves are not those of a tree. -/
theorem scriptOf_exists {d : Descriptor U.Shape U.Key} {x} (h : DescrIs U d x) (hc : Compressed U d) (ht : TreeValid U d) :
    ∃ s, ScriptOf U d s := by
  cases h with
  | @tr ik pk ls xs h1 h2 =>
    by_cases hl : ls = []
    · subst hl; cases h1; exact ⟨_, .tr .nil h2 .empty⟩
    · obtain ⟨T, h3, h4⟩ := ht ik ls xs rfl hl h1
      exact ⟨_, .tr h1 h2 (by rw [h4]; exact .tree h3)⟩
  | plain h =>
    cases h with
    | bare h => exact ⟨_, .bare h⟩
    | pkh h => exact ⟨_, .pkh h⟩
    | wpkh h => exact ⟨_, .wpkh h (hc _ _ (.inl rfl) h)⟩
    | sh h => exact ⟨_, .sh h⟩
    | shWpkh h => exact ⟨_, .shWpkh h (hc _ _ (.inr rfl) h)⟩
    | shWsh h => exact ⟨_, .shWsh h⟩
    | wsh h => exact ⟨_, .wsh h⟩

theorem ScriptOf.treeValid {d : Descriptor U.Shape U.Key} {s} (h : ScriptOf U d s) : TreeValid U d := by
  intro ik ls xs e hne hls
  subst e
  cases h with
  | tr h1 h2 h3 =>
    cases h1.unique hls
    generalize htr : treeOf U xs = tree at h3
    cases h3 with
    | empty => cases hls <;> first | exact absurd rfl hne | cases htr
    | @tree T hT => exact ⟨T, hT, rfl⟩

theorem ScriptOf.compressed {d : Descriptor U.Shape U.Key} {s} (h : ScriptOf U d s) : Compressed U d := by
  rintro k pk (rfl | rfl) hk <;> cases h <;> rename_i hl h <;> (have := h.symm.trans hk; cases this; exact hl)

/-! ### Updating again -/

theorem OriginAfter.again {old new : BMap L.xonly.T (List Hash32 × KeySource)} {ls : List (UInt8 × Mini U.Shape U.Key)} {ik s x}
    (h : OriginAfter U old ls ik s x (new.get x)) : OriginAfter U new ls ik s x (new.get x) := by
  generalize hv : new.get x = v at h ⊢
  cases h with
  | internal h1 h2 => exact .internal h1 h2
  | known h1 h2 h3 =>
    refine .known h1 hv ⟨h3.sorted, fun h => ⟨.inl, ?_⟩⟩
    rintro (h' | h')
    · exact h'
    · exact (h3.mem h).mpr (.inr h')
  | fresh h1 h2 h3 h4 =>
    refine .known h1 hv ⟨h4.sorted, fun h => ⟨.inl, ?_⟩⟩
    rintro (h' | h')
    · exact h'
    · exact (h4.mem h).mpr h'
  | absent h1 h2 h3 => exact .absent h1 hv h3

theorem ScriptsSet.again {r w r' w' : Option Bytes} {d : Plain U.Shape U.Key} (h : ScriptsSet U r w d r' w') :
    ScriptsSet U r' w' d r' w' := by
  cases h
  case bare => exact .bare
  case pkh => exact .pkh
  case wpkh => exact .wpkh
  case sh h => exact .sh h
  case shWpkh h => exact .shWpkh h
  case shWsh h => exact .shWsh h
  case wsh h => exact .wsh h

theorem PlainUpdated.again {d : Plain U.Shape U.Key} {a b : Common L} (h : PlainUpdated U d a b) : PlainUpdated U d b b :=
  ⟨h.scripts.again, h.derivation.again, rfl, rfl⟩

theorem TrUpdated.again {ik : U.Key} {ls : List (UInt8 × Mini U.Shape U.Key)} {a b : Common L} (h : TrUpdated U ik ls a b) :
    TrUpdated U ik ls b b := by
  obtain ⟨-, -, -, pk, s, h1, h2, h3⟩ := h
  exact ⟨rfl, rfl, rfl, pk, s, h1, h2, fun x => (h3 x).again⟩

theorem InputUpdated.again {d : Descriptor U.Shape U.Key} {i j : Input L} (h : InputUpdated U d i j) : InputUpdated U d j j where
  plain e he := ⟨(h.plain e he).1.again, rfl, rfl⟩
  tr ik ls e := ⟨(h.tr ik ls e).1.again, fun pk xs h1 h2 => ⟨((h.tr ik ls e).2 pk xs h1 h2).1, ((h.tr ik ls e).2 pk xs h1 h2).2.again⟩⟩
  rest := rfl

theorem OutputUpdated.again {d : Descriptor U.Shape U.Key} {i j : Output L} (h : OutputUpdated U d i j) : OutputUpdated U d j j where
  plain e he := ⟨(h.plain e he).1.again, rfl⟩
  tr ik ls e := ⟨(h.tr ik ls e).1.again, fun _ => rfl, (h.tr ik ls e).2.2⟩
  rest := rfl

theorem InputUpdated.utxo {d : Descriptor U.Shape U.Key} {i j : Input L} (h : InputUpdated U d i j) :
    j.witnessUtxo = i.witnessUtxo ∧ j.nonWitnessUtxo = i.nonWitnessUtxo := by
  have := h.rest
  constructor
  · rw [← this]
  · rw [← this]

end Psbt.Spec.V0
