/-
A key-value map of a PSBT is a record of independent fields ("slots"), each fed by the pairs of its own key types.
This file proves, once for all maps, that decoding decomposes into the slots, and derives round-trip, stability,
order independence and duplicate detection from per-slot facts.
-/
import Verif.Lemmas.Raw
namespace Psbt

/-- A map type `M` whose fields are indexed by `S`. -/
structure SlotSys (M S ε : Type) where
  F : S → Type
  get : (s : S) → M → F s
  set : (s : S) → F s → M → M
  get_set : ∀ s f m, get s (set s f m) = f
  get_set_ne : ∀ s t f m, s ≠ t → get s (set t f m) = get s m
  ext : ∀ m m', (∀ s, get s m = get s m') → m = m'
  slotOf : Pair → S
  step : (s : S) → F s → Pair → Except ε (F s)

namespace SlotSys
variable {M S ε : Type} [DecidableEq S] (Y : SlotSys M S ε)

def ins (m : M) (p : Pair) : Except ε M := do
  let f ← Y.step (Y.slotOf p) (Y.get _ m) p
  .ok (Y.set _ f m)

/-- The pairs of one slot. -/
def ofSlot (s : S) (ps : List Pair) : List Pair := ps.filter (fun p => decide (Y.slotOf p = s))

theorem mem_ofSlot {s : S} {ps : List Pair} {p : Pair} : p ∈ Y.ofSlot s ps ↔ p ∈ ps ∧ Y.slotOf p = s := by
  simp [ofSlot]

theorem ofSlot_cons_self (p : Pair) (ps : List Pair) :
    Y.ofSlot (Y.slotOf p) (p :: ps) = p :: Y.ofSlot (Y.slotOf p) ps := by simp [ofSlot]

theorem ofSlot_cons_ne {s : S} {p : Pair} (h : s ≠ Y.slotOf p) (ps : List Pair) :
    Y.ofSlot s (p :: ps) = Y.ofSlot s ps := by simp [ofSlot, Ne.symm h]

/-- Decoding decomposes into the slots. -/
theorem foldlM_iff {ps : List Pair} {m m' : M} :
    ps.foldlM Y.ins m = .ok m' ↔
      ∀ s, (Y.ofSlot s ps).foldlM (Y.step s) (Y.get s m) = .ok (Y.get s m') := by
  induction ps generalizing m with
  | nil =>
    simp only [ofSlot, List.filter_nil, List.foldlM_nil, pure, Except.pure, Except.ok.injEq]
    exact ⟨fun h s => by rw [h], fun h => Y.ext _ _ h⟩
  | cons p ps ih =>
    constructor
    · intro h s
      simp only [List.foldlM_cons, bind_ok, ins] at h
      obtain ⟨m1, ⟨f, h1, h2⟩, h3⟩ := h
      cases h2
      have h4 := ih.mp h3 s
      by_cases hs : s = Y.slotOf p
      · subst hs
        rw [ofSlot_cons_self, List.foldlM_cons, h1, ok_bind]
        rwa [Y.get_set] at h4
      · rw [Y.ofSlot_cons_ne hs]
        rwa [Y.get_set_ne _ _ _ _ hs] at h4
    · intro h
      have h0 := h (Y.slotOf p)
      rw [ofSlot_cons_self, List.foldlM_cons, bind_ok] at h0
      obtain ⟨f, h1, h2⟩ := h0
      simp only [List.foldlM_cons, ins, h1, ok_bind]
      rw [ih]
      intro s
      by_cases hs : s = Y.slotOf p
      · subst hs
        rw [Y.get_set]; exact h2
      · rw [Y.get_set_ne _ _ _ _ hs]
        have := h s
        rwa [Y.ofSlot_cons_ne hs] at this

end SlotSys

/-! ### Lawful slots -/

/-- What one slot must satisfy for round trips. -/
structure LawfulSlot {F ε : Type} (isSlot : Pair → Prop) (step : F → Pair → Except ε F) (init : F)
    (emit : F → List Pair) (Inv : F → Prop) : Prop where
  inv_init : Inv init
  inv_step : ∀ f p f', Inv f → PairFits p → isSlot p → step f p = .ok f' → Inv f'
  emit_fits : ∀ f, Inv f → ∀ p ∈ emit f, PairFits p
  emit_slot : ∀ f, Inv f → ∀ p ∈ emit f, isSlot p
  rt : ∀ f, Inv f → (emit f).foldlM step init = .ok f

theorem LawfulSlot.inv_fold {F ε : Type} {isSlot : Pair → Prop} {step : F → Pair → Except ε F} {init : F}
    {emit : F → List Pair} {Inv : F → Prop} (h : LawfulSlot isSlot step init emit Inv) {ps : List Pair}
    (hp : ∀ p ∈ ps, PairFits p ∧ isSlot p) {f f' : F} (hf : Inv f) (e : ps.foldlM step f = .ok f') : Inv f' := by
  induction ps generalizing f with
  | nil => cases e; exact hf
  | cons p ps ih =>
    simp only [List.foldlM_cons, bind_ok] at e
    obtain ⟨f1, h1, h2⟩ := e
    have := hp p (by simp)
    exact ih (fun q hq => hp q (by simp [hq])) (h.inv_step _ _ _ hf this.1 this.2 h1) h2

namespace SlotSys
variable {M S ε : Type} [DecidableEq S] (Y : SlotSys M S ε)

/-- Emission of all slots in a fixed order. -/
def pairs (order : List S) (emit : (s : S) → Y.F s → List Pair) (m : M) : List Pair :=
  order.flatMap fun s => emit s (Y.get s m)

theorem ofSlot_pairs {order : List S} (hn : order.Nodup) {emit : (s : S) → Y.F s → List Pair} {m : M}
    (he : ∀ s, ∀ p ∈ emit s (Y.get s m), Y.slotOf p = s) (s : S) :
    Y.ofSlot s (Y.pairs order emit m) = if s ∈ order then emit s (Y.get s m) else [] := by
  induction order with
  | nil => rfl
  | cons t ts ih =>
    have h1 : Y.ofSlot s (Y.pairs (t :: ts) emit m) =
        (emit t (Y.get t m)).filter (fun p => decide (Y.slotOf p = s)) ++ Y.ofSlot s (Y.pairs ts emit m) := by
      simp [ofSlot, pairs]
    rw [h1, ih (List.nodup_cons.mp hn).2]
    by_cases hst : s = t
    · subst hst
      have h2 : (emit s (Y.get s m)).filter (fun p => decide (Y.slotOf p = s)) = emit s (Y.get s m) := by
        rw [List.filter_eq_self]
        intro p hp
        simpa using he s p hp
      rw [h2, if_neg (List.nodup_cons.mp hn).1]
      simp
    · have h2 : (emit t (Y.get t m)).filter (fun p => decide (Y.slotOf p = s)) = [] := by
        rw [List.filter_eq_nil_iff]
        intro p hp
        have := he t p hp
        simp only [decide_eq_true_eq]
        intro h3
        exact hst (by rw [← h3, this])
      rw [h2]
      simp [hst]

variable {order : List S} {emit : (s : S) → Y.F s → List Pair} {Inv : (s : S) → Y.F s → Prop} {m0 : M}

/-- Round trip of a whole map. -/
theorem rt (hn : order.Nodup) (hc : ∀ s, s ∈ order)
    (hl : ∀ s, LawfulSlot (fun p => Y.slotOf p = s) (Y.step s) (Y.get s m0) (emit s) (Inv s))
    {m : M} (hm : ∀ s, Inv s (Y.get s m)) : (Y.pairs order emit m).foldlM Y.ins m0 = .ok m := by
  rw [Y.foldlM_iff]
  intro s
  rw [Y.ofSlot_pairs hn (fun s => (hl s).emit_slot _ (hm s)), if_pos (hc s)]
  exact (hl s).rt _ (hm s)

theorem fits (hl : ∀ s, LawfulSlot (fun p => Y.slotOf p = s) (Y.step s) (Y.get s m0) (emit s) (Inv s))
    {m : M} (hm : ∀ s, Inv s (Y.get s m)) : ∀ p ∈ Y.pairs order emit m, PairFits p := by
  intro p hp
  obtain ⟨s, _, hs⟩ := List.mem_flatMap.mp hp
  exact (hl s).emit_fits _ (hm s) p hs

/-- Everything decoded satisfies the invariants. -/
theorem inv (hl : ∀ s, LawfulSlot (fun p => Y.slotOf p = s) (Y.step s) (Y.get s m0) (emit s) (Inv s))
    {ps : List Pair} (hp : ∀ p ∈ ps, PairFits p) {m : M} (h : ps.foldlM Y.ins m0 = .ok m) :
    ∀ s, Inv s (Y.get s m) := by
  intro s
  refine (hl s).inv_fold (ps := Y.ofSlot s ps) ?_ (hl s).inv_init (Y.foldlM_iff.mp h s)
  intro p hp'
  rw [Y.mem_ofSlot] at hp'
  exact ⟨hp p hp'.1, hp'.2⟩

end SlotSys

/-! ### Order independence and duplicates -/

/-- What one slot must satisfy, on pairs satisfying `Q`, for order independence and duplicate detection. -/
structure CommSlot {F ε : Type} (Q : Pair → Prop) (step : F → Pair → Except ε F) : Prop where
  swap : ∀ f p q f1 f2, Q p → Q q → step f p = .ok f1 → step f1 q = .ok f2 →
    ∃ g, step f q = .ok g ∧ step g p = .ok f2
  dup : ∀ f p q f1 f2, Q p → Q q → p.key = q.key → step f p = .ok f1 → step f1 q ≠ .ok f2

theorem CommSlot.perm {F ε : Type} {Q : Pair → Prop} {step : F → Pair → Except ε F} (h : CommSlot Q step)
    {ps qs : List Pair} (hpq : List.Perm ps qs) (hQ : ∀ p ∈ ps, Q p) {f f' : F}
    (e : ps.foldlM step f = .ok f') : qs.foldlM step f = .ok f' := by
  induction hpq generalizing f with
  | nil => exact e
  | cons x _ ih =>
    simp only [List.foldlM_cons, bind_ok] at e ⊢
    obtain ⟨f1, h1, h2⟩ := e
    exact ⟨f1, h1, ih (fun p hp => hQ p (by simp [hp])) h2⟩
  | swap x y l =>
    simp only [List.foldlM_cons, bind_ok] at e ⊢
    obtain ⟨f1, h1, f2, h2, h3⟩ := e
    obtain ⟨g, h4, h5⟩ := h.swap _ _ _ _ _ (hQ _ (by simp)) (hQ _ (by simp)) h1 h2
    exact ⟨g, h4, f2, h5, h3⟩
  | trans h1 _ ih1 ih2 =>
    exact ih2 (fun p hp => hQ p (h1.mem_iff.mpr hp)) (ih1 hQ e)

theorem CommSlot.nodup {F ε : Type} {Q : Pair → Prop} {step : F → Pair → Except ε F} (h : CommSlot Q step)
    {ps : List Pair} (hQ : ∀ p ∈ ps, Q p) {f f' : F} (e : ps.foldlM step f = .ok f') : (ps.map Pair.key).Nodup := by
  induction ps generalizing f with
  | nil => simp
  | cons p ps ih =>
    have e' := e
    simp only [List.foldlM_cons, bind_ok] at e
    obtain ⟨f1, h1, h2⟩ := e
    rw [List.map_cons, List.nodup_cons]
    refine ⟨?_, ih (fun q hq => hQ q (by simp [hq])) h2⟩
    intro hmem
    obtain ⟨q, hq, hk⟩ := List.mem_map.mp hmem
    have hp : List.Perm ps (q :: ps.erase q) := List.perm_cons_erase hq
    have h3 := h.perm hp (fun q hq => hQ q (by simp [hq])) h2
    simp only [List.foldlM_cons, bind_ok] at h3
    obtain ⟨f2, h4, -⟩ := h3
    exact h.dup f p q f1 f2 (hQ _ (by simp)) (hQ _ (by simp [hq])) hk.symm h1 h4

theorem CommSlot.mono {F ε : Type} {Q Q' : Pair → Prop} {step : F → Pair → Except ε F} (h : CommSlot Q step)
    (hQ : ∀ p, Q' p → Q p) : CommSlot Q' step where
  swap f p q f1 f2 hp hq := h.swap f p q f1 f2 (hQ _ hp) (hQ _ hq)
  dup f p q f1 f2 hp hq := h.dup f p q f1 f2 (hQ _ hp) (hQ _ hq)

namespace SlotSys
variable {M S ε : Type} [DecidableEq S] (Y : SlotSys M S ε)

/-- Order independence of a whole map. -/
theorem perm {Q : Pair → Prop} (hc : ∀ s, CommSlot (fun p => Q p ∧ Y.slotOf p = s) (Y.step s)) {ps qs : List Pair}
    (hpq : List.Perm ps qs) (hQ : ∀ p ∈ ps, Q p) {m m' : M} (e : ps.foldlM Y.ins m = .ok m') :
    qs.foldlM Y.ins m = .ok m' := by
  rw [Y.foldlM_iff] at e ⊢
  intro s
  refine (hc s).perm (hpq.filter _) ?_ (e s)
  intro p hp
  have := Y.mem_ofSlot.mp hp
  exact ⟨hQ p this.1, this.2⟩

/-- Order independence when the order within some slots is kept. -/
theorem perm_of {Q : Pair → Prop} {ps qs : List Pair} (hpq : List.Perm ps qs)
    (hc : ∀ s, CommSlot (fun p => Q p ∧ Y.slotOf p = s) (Y.step s) ∨ Y.ofSlot s ps = Y.ofSlot s qs)
    (hQ : ∀ p ∈ ps, Q p) {m m' : M} (e : ps.foldlM Y.ins m = .ok m') :
    qs.foldlM Y.ins m = .ok m' := by
  rw [Y.foldlM_iff] at e ⊢
  intro s
  rcases hc s with h | h
  · refine h.perm (hpq.filter _) ?_ (e s)
    intro p hp
    have := Y.mem_ofSlot.mp hp
    exact ⟨hQ p this.1, this.2⟩
  · rw [← h]; exact e s

theorem nodup_of_slots (hk : ∀ p q, p.key = q.key → Y.slotOf p = Y.slotOf q) {ps : List Pair}
    (h1 : ∀ s, ((Y.ofSlot s ps).map Pair.key).Nodup) : (ps.map Pair.key).Nodup := by
  rw [List.Nodup, List.pairwise_map]
  induction ps with
  | nil => simp
  | cons p ps ih =>
    rw [List.pairwise_cons]
    constructor
    · intro q hq hpq
      have h2 := h1 (Y.slotOf p)
      rw [ofSlot_cons_self, List.map_cons, List.nodup_cons] at h2
      apply h2.1
      rw [hpq]
      apply List.mem_map_of_mem
      rw [Y.mem_ofSlot]
      exact ⟨hq, (hk _ _ hpq).symm⟩
    · apply ih
      intro s
      have h2 := h1 s
      by_cases hs : s = Y.slotOf p
      · subst hs
        rw [ofSlot_cons_self, List.map_cons, List.nodup_cons] at h2
        exact h2.2
      · rwa [Y.ofSlot_cons_ne hs] at h2

/-- Duplicate detection among the pairs of the slots that satisfy `good`; slots are determined by the key. -/
theorem nodup_good {Q : Pair → Prop} (good : S → Bool)
    (hc : ∀ s, good s = true → CommSlot (fun p => Q p ∧ Y.slotOf p = s) (Y.step s))
    (hk : ∀ p q, p.key = q.key → Y.slotOf p = Y.slotOf q) {ps : List Pair} (hQ : ∀ p ∈ ps, Q p) {m m' : M}
    (e : ps.foldlM Y.ins m = .ok m') : ((ps.filter fun p => good (Y.slotOf p)).map Pair.key).Nodup := by
  apply Y.nodup_of_slots hk
  rw [Y.foldlM_iff] at e
  intro s
  have h0 : Y.ofSlot s (ps.filter fun p => good (Y.slotOf p)) = if good s = true then Y.ofSlot s ps else [] := by
    simp only [ofSlot, List.filter_filter]
    split
    · rename_i h
      apply List.filter_congr
      intro p _
      by_cases hs : Y.slotOf p = s
      · simp [hs, h]
      · simp [hs]
    · rename_i h
      rw [List.filter_eq_nil_iff]
      intro p _
      by_cases hs : Y.slotOf p = s
      · simp [hs, h]
      · simp [hs]
  rw [h0]
  split
  · rename_i h
    refine (hc s h).nodup ?_ (e s)
    intro p hp
    have := Y.mem_ofSlot.mp hp
    exact ⟨hQ p this.1, this.2⟩
  · simp

/-- Duplicate detection of a whole map. -/
theorem nodup {Q : Pair → Prop} (hc : ∀ s, CommSlot (fun p => Q p ∧ Y.slotOf p = s) (Y.step s))
    (hk : ∀ p q, p.key = q.key → Y.slotOf p = Y.slotOf q) {ps : List Pair} (hQ : ∀ p ∈ ps, Q p) {m m' : M}
    (e : ps.foldlM Y.ins m = .ok m') : (ps.map Pair.key).Nodup := by
  have := Y.nodup_good (fun _ => true) (fun s _ => hc s) hk hQ e
  rw [List.filter_eq_self.mpr (by simp)] at this
  exact this

end SlotSys

/-! ### Kinds of slots -/

/-- An optional field: filled by the first pair that parses, never twice. -/
def IsOpt {α ε : Type} (isSlot : Pair → Prop) (step : Option α → Pair → Except ε (Option α))
    (parse : Pair → Option α) : Prop :=
  ∀ o p o', isSlot p → (step o p = .ok o' ↔ o = none ∧ ∃ v, parse p = some v ∧ o' = some v)

theorem IsOpt.comm {α ε : Type} {isSlot : Pair → Prop} {step : Option α → Pair → Except ε (Option α)}
    {parse : Pair → Option α} (h : IsOpt isSlot step parse) : CommSlot isSlot step where
  swap f p q f1 f2 hp hq h1 h2 := by
    rw [h _ _ _ hp] at h1
    rw [h _ _ _ hq] at h2
    obtain ⟨-, v, -, rfl⟩ := h1
    cases h2.1
  dup f p q f1 f2 hp hq _ h1 h2 := by
    rw [h _ _ _ hp] at h1
    rw [h _ _ _ hq] at h2
    obtain ⟨-, v, -, rfl⟩ := h1
    cases h2.1

theorem IsOpt.lawful {α ε : Type} {isSlot : Pair → Prop} {step : Option α → Pair → Except ε (Option α)}
    {parse : Pair → Option α} (h : IsOpt isSlot step parse) {emit1 : α → Pair} {emit : Option α → List Pair}
    (he0 : emit none = []) (he1 : ∀ v, emit (some v) = [emit1 v]) {Extra : α → Prop}
    (h1 : ∀ p v, PairFits p → isSlot p → parse p = some v → PairFits (emit1 v) ∧ Extra v)
    (h2 : ∀ v, PairFits (emit1 v) → Extra v → isSlot (emit1 v) ∧ parse (emit1 v) = some v) :
    LawfulSlot isSlot step none emit (fun o => (∀ p ∈ emit o, PairFits p) ∧ ∀ v, o = some v → Extra v) where
  inv_init := by simp [he0]
  inv_step f p f' _ hp hs hstep := by
    rw [h _ _ _ hs] at hstep
    obtain ⟨-, v, hv, rfl⟩ := hstep
    have := h1 p v hp hs hv
    rw [he1]
    simp only [List.mem_singleton, forall_eq, Option.some.injEq, forall_eq']
    exact this
  emit_fits f hf := hf.1
  emit_slot f hf p hp := by
    cases f with
    | none => rw [he0] at hp; simp at hp
    | some v =>
      have h3 := hf.1
      rw [he1] at hp h3
      simp only [List.mem_singleton, forall_eq] at hp h3
      subst hp
      exact (h2 v h3 (hf.2 v rfl)).1
  rt f hf := by
    cases f with
    | none => rw [he0]; rfl
    | some v =>
      have h3 := hf.1
      rw [he1] at h3 ⊢
      simp only [List.mem_singleton, forall_eq] at h3
      obtain ⟨h4, h5⟩ := h2 v h3 (hf.2 v rfl)
      have h6 : step none (emit1 v) = .ok (some v) := (h _ _ _ h4).mpr ⟨rfl, v, h5, rfl⟩
      simp [List.foldlM_cons, h6, pure, Except.pure]

/-- A map field: each pair parses to an entry whose key must be new. -/
def IsKeyed {K V ε : Type} [OrdKey K] [DecidableEq K] (isSlot : Pair → Prop)
    (step : BMap K V → Pair → Except ε (BMap K V)) (parse : Pair → Option (K × V)) : Prop :=
  ∀ m p m', isSlot p →
    (step m p = .ok m' ↔ ∃ k v, parse p = some (k, v) ∧ m.get k = none ∧ m' = m.insert k v)

section
variable {K V ε : Type} [OrdKey K] [DecidableEq K] {isSlot : Pair → Prop}
  {step : BMap K V → Pair → Except ε (BMap K V)} {parse : Pair → Option (K × V)}

theorem IsKeyed.comm (h : IsKeyed isSlot step parse)
    (hk : ∀ p q k v k' v', parse p = some (k, v) → parse q = some (k', v') → p.key = q.key → k = k') :
    CommSlot isSlot step where
  swap f p q f1 f2 hp hq h1 h2 := by
    rw [h _ _ _ hp] at h1
    rw [h _ _ _ hq] at h2
    obtain ⟨k, v, e1, e2, rfl⟩ := h1
    obtain ⟨k', v', e3, e4, rfl⟩ := h2
    have hne : k' ≠ k := by
      rintro rfl
      rw [BMap.get_insert_self] at e4
      cases e4
    rw [BMap.get_insert_ne _ hne] at e4
    refine ⟨f.insert k' v', (h _ _ _ hq).mpr ⟨k', v', e3, e4, rfl⟩, (h _ _ _ hp).mpr ⟨k, v, e1, ?_, ?_⟩⟩
    · rw [BMap.get_insert_ne _ hne.symm]; exact e2
    · exact BMap.insert_comm f hne.symm v v'
  dup f p q f1 f2 hp hq hkey h1 h2 := by
    rw [h _ _ _ hp] at h1
    rw [h _ _ _ hq] at h2
    obtain ⟨k, v, e1, e2, rfl⟩ := h1
    obtain ⟨k', v', e3, e4, rfl⟩ := h2
    have := hk _ _ _ _ _ _ e1 e3 hkey
    subst this
    rw [BMap.get_insert_self] at e4
    cases e4

theorem IsKeyed.fold (h : IsKeyed isSlot step parse) {emit1 : K × V → Pair} {l : List (K × V)}
    (hl : ∀ a ∈ l, isSlot (emit1 a) ∧ parse (emit1 a) = some a) (hs : KSorted l) {acc : BMap K V}
    (ha : ∀ a ∈ l, acc.get a.1 = none) :
    (l.map emit1).foldlM step acc = .ok (l.foldl (fun m a => m.insert a.1 a.2) acc) := by
  induction l generalizing acc with
  | nil => rfl
  | cons a l ih =>
    have h0 := hl a (by simp)
    have h1 : step acc (emit1 a) = .ok (acc.insert a.1 a.2) :=
      (h _ _ _ h0.1).mpr ⟨a.1, a.2, h0.2, ha a (by simp), rfl⟩
    simp only [List.map_cons, List.foldlM_cons, h1, ok_bind, List.foldl_cons]
    apply ih (fun b hb => hl b (by simp [hb])) hs.tail
    intro b hb
    have hne : b.1 ≠ a.1 := (OrdKey.ne_of_lt (hs.lt_of_mem b hb)).symm
    rw [BMap.get_insert_ne _ hne]
    exact ha b (by simp [hb])

theorem IsKeyed.lawful (h : IsKeyed isSlot step parse) {emit1 : K × V → Pair} {emit : BMap K V → List Pair}
    (he : ∀ m, emit m = m.l.map emit1) {Extra : K → V → Prop}
    (h1 : ∀ p k v, PairFits p → isSlot p → parse p = some (k, v) → PairFits (emit1 (k, v)) ∧ Extra k v)
    (h2 : ∀ k v, PairFits (emit1 (k, v)) → Extra k v → isSlot (emit1 (k, v)) ∧ parse (emit1 (k, v)) = some (k, v)) :
    LawfulSlot isSlot step BMap.empty emit
      (fun m => (∀ p ∈ emit m, PairFits p) ∧ ∀ k v, m.get k = some v → Extra k v) where
  inv_init := by
    rw [he]
    exact ⟨by simp [BMap.empty], fun k v h => by simp at h⟩
  inv_step f p f' hf hp hs hstep := by
    rw [h _ _ _ hs] at hstep
    obtain ⟨k, v, hkv, hn, rfl⟩ := hstep
    have h3 := h1 p k v hp hs hkv
    have hf1 := hf.1
    rw [he] at hf1
    constructor
    · rw [he]
      intro q hq
      obtain ⟨⟨k', v'⟩, hm, rfl⟩ := List.mem_map.mp hq
      rw [BMap.mem_iff_get, BMap.get_insert] at hm
      split at hm
      · rename_i hk; subst hk; cases hm; exact h3.1
      · apply hf1
        apply List.mem_map_of_mem
        rw [BMap.mem_iff_get]; exact hm
    · intro k' v' hm
      rw [BMap.get_insert] at hm
      split at hm
      · rename_i hk; subst hk; cases hm; exact h3.2
      · exact hf.2 k' v' hm
  emit_fits f hf := hf.1
  emit_slot f hf p hp := by
    have hf1 := hf.1
    rw [he] at hp hf1
    obtain ⟨⟨k, v⟩, hm, rfl⟩ := List.mem_map.mp hp
    exact (h2 k v (hf1 _ (List.mem_map_of_mem hm)) (hf.2 k v (BMap.mem_iff_get.mp hm))).1
  rt f hf := by
    have hf1 := hf.1
    rw [he] at hf1 ⊢
    rw [h.fold _ f.sorted (fun a _ => by simp)]
    · have := BMap.empty_extend f
      simp only [BMap.extend] at this
      rw [this]
    · intro a ha
      exact h2 a.1 a.2 (hf1 _ (List.mem_map_of_mem ha)) (hf.2 a.1 a.2 (BMap.mem_iff_get.mp ha))

end

/-- A slot that never accepts anything and never emits (excluded key types). -/
theorem lawful_never {F ε : Type} {isSlot : Pair → Prop} {step : F → Pair → Except ε F} {init : F}
    (h : ∀ f p f', isSlot p → step f p ≠ .ok f') : LawfulSlot isSlot step init (fun _ => []) (fun f => f = init) where
  inv_init := rfl
  inv_step f p f' _ _ hs e := absurd e (h f p f' hs)
  emit_fits := by simp
  emit_slot := by simp
  rt f hf := by simp [hf, pure, Except.pure]

theorem comm_never {F ε : Type} {isSlot : Pair → Prop} {step : F → Pair → Except ε F}
    (h : ∀ f p f', isSlot p → step f p ≠ .ok f') : CommSlot isSlot step where
  swap f p q f1 f2 hp _ h1 _ := absurd h1 (h f p f1 hp)
  dup f p q f1 f2 hp _ _ h1 _ := absurd h1 (h f p f1 hp)

end Psbt
