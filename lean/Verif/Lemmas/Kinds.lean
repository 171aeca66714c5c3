/- The insertion helpers are instances of the slot kinds. -/
import Verif.Lemmas.Slots
import Verif.Model.V2.Global
import Verif.Model.V2.Input
import Verif.Model.V2.Output
namespace Psbt

section
variable {ε : Type} [MapErr ε]

/-! ### Optional fields -/

def parseOpt {α : Type} (c : Codec α) (p : Pair) : Option α :=
  if p.key.key = [] then (match c.deser p.value with | .ok v => some v | .error _ => none) else none

theorem parseOpt_some {α : Type} {c : Codec α} {p : Pair} {v : α} :
    parseOpt c p = some v ↔ p.key.key = [] ∧ c.deser p.value = .ok v := by
  unfold parseOpt
  split
  · rename_i h
    cases hd : c.deser p.value <;> simp [h]
  · rename_i h; simp [h]

theorem isOpt_insOpt {α : Type} (c : Codec α) (isSlot : Pair → Prop) :
    IsOpt isSlot (insOpt (ε := ε) c) (parseOpt c) := by
  intro o p o' _
  simp only [parseOpt_some, insOpt]
  split
  · rename_i hk
    cases o with
    | some w => simp
    | none =>
      simp only [bind_ok, mapErr_ok, Except.ok.injEq, true_and]
      constructor
      · rintro ⟨v, h1, rfl⟩; exact ⟨v, ⟨hk, h1⟩, rfl⟩
      · rintro ⟨v, ⟨_, h1⟩, rfl⟩; exact ⟨v, h1, rfl⟩
  · rename_i hk; simp [hk]

theorem PairFits.mk' {t : UInt8} {k v : Bytes} (h1 : k.length ≤ MAX_VEC_SIZE) (h2 : VecFits v) :
    PairFits ⟨⟨t, k⟩, v⟩ := ⟨h1, h2⟩

theorem PairFits.bare {t : UInt8} {v : Bytes} (h : VecFits v) : PairFits (bare t v) :=
  ⟨by simp [Psbt.bare], h⟩

theorem lawful_insOpt {α : Type} {c : Codec α} (hc : LawfulCodec c) (t : UInt8) {isSlot : Pair → Prop}
    (hs : ∀ v, isSlot (bare t v)) :
    LawfulSlot isSlot (insOpt (ε := ε) c) none (emitOpt t c)
      (fun o => (∀ p ∈ emitOpt t c o, PairFits p) ∧ ∀ v, o = some v → True) := by
  apply (isOpt_insOpt c isSlot).lawful (emit1 := fun v => bare t (c.ser v)) rfl (fun _ => rfl) (Extra := fun _ => True)
  · intro p v hp _ hpar
    rw [parseOpt_some] at hpar
    exact ⟨PairFits.bare (hp.2.mono (hc.shrink _ _ hpar.2)), trivial⟩
  · intro v hf _
    refine ⟨hs _, ?_⟩
    rw [parseOpt_some]
    exact ⟨rfl, hc.rt v (Nat.le_of_lt hf.2.lt)⟩

/-! ### Keyed maps -/

def parseMap {K V : Type} (ck : Codec K) (cv : Codec V) (p : Pair) : Option (K × V) :=
  if p.key.key = [] then none
  else
    match ck.deser p.key.key, cv.deser p.value with
    | .ok k, .ok v => some (k, v)
    | _, _ => none

theorem parseMap_some {K V : Type} {ck : Codec K} {cv : Codec V} {p : Pair} {k : K} {v : V} :
    parseMap ck cv p = some (k, v) ↔ p.key.key ≠ [] ∧ ck.deser p.key.key = .ok k ∧ cv.deser p.value = .ok v := by
  unfold parseMap
  split
  · rename_i h; simp [h]
  · rename_i h
    cases hk : ck.deser p.key.key <;> cases hv : cv.deser p.value <;> simp [h]

theorem isKeyed_insMap {K V : Type} [OrdKey K] [DecidableEq K] (ck : Codec K) (cv : Codec V) (isSlot : Pair → Prop) :
    IsKeyed isSlot (insMap (ε := ε) ck cv) (parseMap ck cv) := by
  intro m p m' _
  simp only [parseMap_some, insMap]
  split
  · rename_i hk; simp [hk]
  · rename_i hk
    simp only [bind_ok, mapErr_ok]
    constructor
    · rintro ⟨k, h1, h2⟩
      split at h2
      · rename_i hn
        simp only [bind_ok, mapErr_ok] at h2
        obtain ⟨v, h3, h4⟩ := h2
        cases h4
        exact ⟨k, v, ⟨hk, h1, h3⟩, hn, rfl⟩
      · cases h2
    · rintro ⟨k, v, ⟨_, h1, h2⟩, h3, rfl⟩
      refine ⟨k, h1, ?_⟩
      simp only [h3, h2, mapErr_of_ok, ok_bind]

theorem parseMap_key {K V : Type} {ck : Codec K} {cv : Codec V} :
    ∀ p q k v k' v', parseMap ck cv p = some (k, v) → parseMap ck cv q = some (k', v') → p.key = q.key → k = k' := by
  intro p q k v k' v' h1 h2 h3
  rw [parseMap_some] at h1 h2
  rw [h3] at h1
  rw [h1.2.1] at h2
  cases h2.2.1; rfl

theorem lawful_insMap {K V : Type} [OrdKey K] [DecidableEq K] {ck : Codec K} {cv : Codec V} (hk : LawfulCodec ck)
    (hv : LawfulCodec cv) (hne : ∀ k, ck.ser k ≠ []) (t : UInt8) {isSlot : Pair → Prop}
    (hs : ∀ k v, isSlot ⟨⟨t, k⟩, v⟩) :
    LawfulSlot isSlot (insMap (ε := ε) ck cv) BMap.empty (emitMap t ck cv)
      (fun m => (∀ p ∈ emitMap t ck cv m, PairFits p) ∧ ∀ k v, m.get k = some v → True) := by
  apply (isKeyed_insMap ck cv isSlot).lawful (emit1 := fun kv => ⟨⟨t, ck.ser kv.1⟩, cv.ser kv.2⟩) (fun _ => rfl)
    (Extra := fun _ _ => True)
  · intro p k v hp _ hpar
    rw [parseMap_some] at hpar
    exact ⟨⟨Nat.le_trans (hk.shrink _ _ hpar.2.1) hp.1, hp.2.mono (hv.shrink _ _ hpar.2.2)⟩, trivial⟩
  · intro k v hf _
    refine ⟨hs _ _, ?_⟩
    rw [parseMap_some]
    exact ⟨hne k, hk.rt k hf.1, hv.rt v (Nat.le_of_lt hf.2.lt)⟩

/-! ### Hash preimages -/

def parseHash {n : Nat} (h : Bytes → FixedBytes n) (p : Pair) : Option (FixedBytes n × Bytes) :=
  if hk : p.key.key.length = n then
    (if p.key.key ≠ [] ∧ h p.value = ⟨p.key.key, hk⟩ then some (⟨p.key.key, hk⟩, p.value) else none)
  else none

theorem parseHash_some {n : Nat} {h : Bytes → FixedBytes n} {p : Pair} {k : FixedBytes n} {v : Bytes} :
    parseHash h p = some (k, v) ↔ p.key.key ≠ [] ∧ p.key.key = k.1 ∧ p.value = v ∧ h v = k := by
  unfold parseHash
  split
  · rename_i hk
    split
    · rename_i hc
      simp only [Option.some.injEq, Prod.mk.injEq]
      constructor
      · rintro ⟨rfl, rfl⟩; exact ⟨hc.1, rfl, rfl, hc.2⟩
      · rintro ⟨_, h1, h2, _⟩; exact ⟨Subtype.ext h1, h2⟩
    · rename_i hc
      constructor
      · intro h; cases h
      · rintro ⟨h0, h1, rfl, h3⟩
        exact absurd ⟨h0, by rw [h3]; exact Subtype.ext h1.symm⟩ hc
  · rename_i hk
    constructor
    · intro h; cases h
    · rintro ⟨h0, h1, rfl, h3⟩
      exact absurd (by rw [h1]; exact k.2) hk

theorem hashCodec_deser_ok {n : Nat} {b : Bytes} {k : FixedBytes n} :
    (hashCodec n).deser b = .ok k ↔ b = k.1 := by
  simp only [hashCodec]
  split
  · rename_i h
    simp only [Except.ok.injEq]
    constructor
    · rintro rfl; rfl
    · intro e; exact Subtype.ext e
  · rename_i h
    constructor
    · intro e; cases e
    · rintro rfl; exact absurd k.2 h

theorem isKeyed_insHash {n : Nat} (h : Bytes → FixedBytes n) (ty : HashTy) (isSlot : Pair → Prop) :
    IsKeyed isSlot (insHash (ε := ε) h ty) (parseHash h) := by
  intro m p m' _
  simp only [parseHash_some, insHash]
  split
  · rename_i hk; simp [hk]
  · rename_i hk
    simp only [bind_ok, mapErr_ok, hashCodec_deser_ok]
    constructor
    · rintro ⟨k, h1, h2⟩
      split at h2
      · rename_i hn
        split at h2
        · cases h2
        · rename_i hh
          cases h2
          exact ⟨k, p.value, ⟨hk, h1, rfl, by simpa using hh⟩, hn, rfl⟩
      · cases h2
    · rintro ⟨k, v, ⟨_, h1, rfl, h4⟩, h3, rfl⟩
      refine ⟨k, h1, ?_⟩
      simp only [h3, h4, ne_eq, not_true_eq_false, if_false]

theorem parseHash_key {n : Nat} {h : Bytes → FixedBytes n} :
    ∀ p q k v k' v', parseHash h p = some (k, v) → parseHash h q = some (k', v') → p.key = q.key → k = k' := by
  intro p q k v k' v' h1 h2 h3
  rw [parseHash_some] at h1 h2
  exact Subtype.ext (by rw [← h1.2.1, ← h2.2.1, h3])

theorem lawful_insHash {n : Nat} (hn : 0 < n) (h : Bytes → FixedBytes n) (ty : HashTy) (t : UInt8)
    {isSlot : Pair → Prop} (hs : ∀ k v, isSlot ⟨⟨t, k⟩, v⟩) :
    LawfulSlot isSlot (insHash (ε := ε) h ty) BMap.empty (emitMap t (hashCodec n) rawCodec)
      (fun m => (∀ p ∈ emitMap t (hashCodec n) rawCodec m, PairFits p) ∧ ∀ k v, m.get k = some v → h v = k) := by
  apply (isKeyed_insHash h ty isSlot).lawful (emit1 := fun kv => ⟨⟨t, kv.1.1⟩, kv.2⟩) (fun _ => rfl)
    (Extra := fun k v => h v = k)
  · intro p k v hp _ hpar
    rw [parseHash_some] at hpar
    obtain ⟨h0, h1, h2, h3⟩ := hpar
    exact ⟨⟨by rw [← h1]; exact hp.1, by rw [← h2]; exact hp.2⟩, h3⟩
  · intro k v hf he
    refine ⟨hs _ _, ?_⟩
    rw [parseHash_some]
    refine ⟨?_, rfl, rfl, he⟩
    intro e
    have := k.2
    simp only at e
    rw [e] at this
    simp at this; omega

/-! ### Proprietary and unknown -/

def parseProp (p : Pair) : Option (PropKey × Bytes) :=
  match PropKey.ofKey p.key with
  | .ok k => some (k, p.value)
  | .error _ => none

theorem parseProp_some {p : Pair} {k : PropKey} {v : Bytes} :
    parseProp p = some (k, v) ↔ PropKey.ofKey p.key = .ok k ∧ p.value = v := by
  unfold parseProp
  cases PropKey.ofKey p.key <;> simp

theorem isKeyed_insProp (isSlot : Pair → Prop) : IsKeyed isSlot (insProp (ε := ε)) parseProp := by
  intro m p m' _
  simp only [parseProp_some, insProp, bind_ok, mapErr_ok]
  constructor
  · rintro ⟨k, h1, h2⟩
    split at h2
    · rename_i hn
      cases h2
      exact ⟨k, p.value, ⟨h1, rfl⟩, hn, rfl⟩
    · cases h2
  · rintro ⟨k, v, ⟨h1, rfl⟩, h3, rfl⟩
    exact ⟨k, h1, by simp only [h3]⟩

theorem parseProp_key :
    ∀ p q k v k' v', parseProp p = some (k, v) → parseProp q = some (k', v') → p.key = q.key → k = k' := by
  intro p q k v k' v' h1 h2 h3
  rw [parseProp_some] at h1 h2
  rw [h3, h2.1] at h1
  cases h1.1; rfl

theorem lawful_prop {step : BMap PropKey Bytes → Pair → Except ε (BMap PropKey Bytes)} {isSlot : Pair → Prop}
    (hk : IsKeyed isSlot step parseProp) (hs : ∀ k v, isSlot ⟨⟨0xFC, k⟩, v⟩) :
    LawfulSlot isSlot step BMap.empty emitProp
      (fun m => (∀ p ∈ emitProp m, PairFits p) ∧ ∀ k v, m.get k = some v → PropFits k) := by
  apply hk.lawful (emit1 := fun kv => ⟨kv.1.toKey, kv.2⟩) (fun _ => rfl) (Extra := fun k _ => PropFits k)
  · intro p k v hp _ hpar
    rw [parseProp_some] at hpar
    obtain ⟨h1, h2⟩ := hpar
    obtain ⟨h3, h4⟩ := PropKey.ofKey_ok h1
    exact ⟨⟨by rw [← h3]; exact hp.1, by rw [← h2]; exact hp.2⟩, h4⟩
  · intro k v hf he
    refine ⟨hs _ _, ?_⟩
    rw [parseProp_some]
    exact ⟨PropKey.ofKey_toKey he, rfl⟩

def parseUnknown (p : Pair) : Option (RawKey × Bytes) := some (p.key, p.value)

theorem isKeyed_insUnknown (isSlot : Pair → Prop) : IsKeyed isSlot (insUnknown (ε := ε)) parseUnknown := by
  intro m p m' _
  simp only [parseUnknown, insUnknown, Option.some.injEq, Prod.mk.injEq]
  constructor
  · intro h
    split at h
    · rename_i hn
      cases h
      exact ⟨_, _, ⟨rfl, rfl⟩, hn, rfl⟩
    · cases h
  · rintro ⟨k, v, ⟨rfl, rfl⟩, h3, rfl⟩
    simp only [h3]

theorem parseUnknown_key :
    ∀ p q k v k' v', parseUnknown p = some (k, v) → parseUnknown q = some (k', v') → p.key = q.key → k = k' := by
  intro p q k v k' v' h1 h2 h3
  simp only [parseUnknown, Option.some.injEq, Prod.mk.injEq] at h1 h2
  rw [← h1.1, ← h2.1, h3]

theorem lawful_unknown {isT : UInt8 → Prop} :
    LawfulSlot (fun p => isT p.key.ty) (insUnknown (ε := ε)) BMap.empty emitUnknown
      (fun m => (∀ p ∈ emitUnknown m, PairFits p) ∧ ∀ k v, m.get k = some v → isT k.ty) := by
  apply (isKeyed_insUnknown _).lawful (emit1 := fun kv => ⟨kv.1, kv.2⟩) (fun _ => rfl)
    (Extra := fun k _ => isT k.ty)
  · intro p k v hp hs hpar
    simp only [parseUnknown, Option.some.injEq, Prod.mk.injEq] at hpar
    obtain ⟨rfl, rfl⟩ := hpar
    exact ⟨hp, hs⟩
  · intro k v hf he
    exact ⟨he, rfl⟩

end

/-! ### v2 specific -/

def parseSp {V : Type} (L : Lib) (parseV : Bytes → Option V) (p : Pair) : Option (L.compressed.T × V) :=
  match L.compressed.parse p.key.key, parseV p.value with
  | some k, some v => some (k, v)
  | _, _ => none

theorem parseSp_some {V : Type} {L : Lib} {parseV : Bytes → Option V} {p : Pair} {k : L.compressed.T} {v : V} :
    parseSp L parseV p = some (k, v) ↔ L.compressed.parse p.key.key = some k ∧ parseV p.value = some v := by
  unfold parseSp
  cases L.compressed.parse p.key.key <;> cases parseV p.value <;> simp

theorem Foreign.parse_nil (F : Foreign) : F.parse [] = none := by
  unfold Foreign.parse
  split
  · rename_i c hc
    have h1 := F.shrink _ _ hc
    have h2 := F.nonempty _ _ hc
    simp only [List.length_nil, Nat.le_zero, List.length_eq_zero_iff] at h1
    exact absurd h1 h2
  · rfl

theorem isKeyed_insSp {V : Type} (L : Lib) (parseV : Bytes → Option V) (w : Nat) (isSlot : Pair → Prop) :
    IsKeyed isSlot (insSp L parseV w) (parseSp L parseV) := by
  intro m p m' _
  simp only [parseSp_some, insSp]
  split
  · rename_i hk
    rw [hk, Foreign.parse_nil]; simp
  · rename_i hk
    cases hp : L.compressed.parse p.key.key with
    | none => simp
    | some k =>
      cases hv : parseV p.value with
      | none => simp
      | some v =>
        simp only [Option.some.injEq]
        constructor
        · intro h
          split at h
          · rename_i hn
            cases h
            exact ⟨k, v, ⟨rfl, rfl⟩, hn, rfl⟩
          · cases h
        · rintro ⟨k', v', ⟨rfl, rfl⟩, h3, rfl⟩
          simp only [h3]

theorem parseSp_key {V : Type} {L : Lib} {parseV : Bytes → Option V} :
    ∀ p q k v k' v', parseSp L parseV p = some (k, v) → parseSp L parseV q = some (k', v') → p.key = q.key →
      k = k' := by
  intro p q k v k' v' h1 h2 h3
  rw [parseSp_some] at h1 h2
  rw [h3, h2.1] at h1
  cases h1.1; rfl

theorem Foreign.bytes_length_le {F : Foreign} {b : Bytes} {a : F.T} (h : F.parse b = some a) :
    a.bytes.length ≤ b.length := F.shrink _ _ (Foreign.parse_some h)

theorem lawful_insSp {V : Type} (L : Lib) {parseV : Bytes → Option V} {ser : V → Bytes} (w : Nat)
    (h1 : ∀ b v, parseV b = some v → (ser v).length ≤ b.length) (h2 : ∀ v, parseV (ser v) = some v) (t : UInt8)
    {isSlot : Pair → Prop} (hs : L.sp = true → ∀ k v, isSlot ⟨⟨t, k⟩, v⟩) (hs' : L.sp = false → ∀ p, ¬ isSlot p) :
    LawfulSlot isSlot (insSp L parseV w) BMap.empty (emitSp L t ser)
      (fun m => (∀ p ∈ emitSp L t ser m, PairFits p) ∧ (L.sp = false → m = BMap.empty)) := by
  cases hsp : L.sp with
  | true =>
    have he : ∀ m, emitSp L t ser m = m.l.map (fun kv => (⟨⟨t, kv.1.bytes⟩, ser kv.2⟩ : Pair)) := by
      intro m; simp [emitSp, hsp]
    have := (isKeyed_insSp L parseV w isSlot).lawful he (Extra := fun _ _ => True)
      (by
        intro p k v hp _ hpar
        rw [parseSp_some] at hpar
        exact ⟨⟨Nat.le_trans (Foreign.bytes_length_le hpar.1) hp.1, hp.2.mono (h1 _ _ hpar.2)⟩, trivial⟩)
      (by
        intro k v hf _
        refine ⟨hs hsp _ _, ?_⟩
        rw [parseSp_some]
        exact ⟨Foreign.parse_bytes _ _, h2 v⟩)
    simpa using this
  | false =>
    have he : emitSp L t ser = fun _ => [] := by
      funext m; simp [emitSp, hsp]
    have := lawful_never (isSlot := isSlot) (step := insSp L parseV w) (init := BMap.empty)
      (fun f p f' hp => absurd hp (hs' hsp p))
    rw [he]
    simpa using this

theorem dleq?_some {b : Bytes} {v : FixedBytes 64} : dleq? b = some v ↔ b = v.1 := by
  unfold dleq?
  split
  · simp only [Option.some.injEq]
    constructor
    · rintro rfl; rfl
    · intro e; exact Subtype.ext e
  · rename_i h
    constructor
    · intro e; cases e
    · rintro rfl; exact absurd v.2 h

/-! ### Placeholder fields -/

/-- A field that always exists, whose "missing" state is a placeholder value: a pair is accepted exactly while the
field holds the placeholder. -/
def IsSentinel {α ε : Type} (z : α) (isSlot : Pair → Prop) (step : α → Pair → Except ε α) (parse : Pair → Option α) :
    Prop :=
  ∀ f p f', isSlot p → (step f p = .ok f' ↔ f = z ∧ parse p = some f')

theorem IsSentinel.lawful {α ε : Type} {z : α} {isSlot : Pair → Prop} {step : α → Pair → Except ε α}
    {parse : Pair → Option α} (h : IsSentinel z isSlot step parse) {emit1 : α → Pair}
    (hz : PairFits (emit1 z))
    (h1 : ∀ p v, PairFits p → isSlot p → parse p = some v → PairFits (emit1 v))
    (h2 : ∀ v, PairFits (emit1 v) → isSlot (emit1 v) ∧ parse (emit1 v) = some v) :
    LawfulSlot isSlot step z (fun v => [emit1 v]) (fun v => ∀ p ∈ [emit1 v], PairFits p) where
  inv_init := by simpa using hz
  inv_step f p f' _ hp hs e := by
    rw [h _ _ _ hs] at e
    simpa using h1 p f' hp hs e.2
  emit_fits f hf := hf
  emit_slot f hf p hp := by
    simp only [List.mem_singleton, forall_eq] at hp hf
    subst hp
    exact (h2 f hf).1
  rt f hf := by
    simp only [List.mem_singleton, forall_eq] at hf
    obtain ⟨h3, h4⟩ := h2 f hf
    have : step z (emit1 f) = .ok f := (h _ _ _ h3).mpr ⟨rfl, h4⟩
    simp [this, pure, Except.pure]

/-- Placeholder fields detect duplicates and ignore order only among pairs that do not carry the placeholder. -/
theorem IsSentinel.comm {α ε : Type} {z : α} {isSlot Q : Pair → Prop} {step : α → Pair → Except ε α}
    {parse : Pair → Option α} (h : IsSentinel z isSlot step parse) (hQ : ∀ p, Q p → isSlot p → parse p ≠ some z) :
    CommSlot (fun p => Q p ∧ isSlot p) step where
  swap f p q f1 f2 hp hq e1 e2 := by
    rw [h _ _ _ hp.2] at e1
    rw [h _ _ _ hq.2] at e2
    exact absurd (by rw [e1.2, e2.1]) (hQ p hp.1 hp.2)
  dup f p q f1 f2 hp hq _ e1 e2 := by
    rw [h _ _ _ hp.2] at e1
    rw [h _ _ _ hq.2] at e2
    exact absurd (by rw [e1.2, e2.1]) (hQ p hp.1 hp.2)

/-! ### Shared by the v2 maps -/

theorem foldlM_mapErr {M ε ε' : Type} (w : ε → ε') (f : M → Pair → Except ε M) (ps : List Pair) (m m' : M) :
    ps.foldlM (fun m p => mapErr w (f m p)) m = .ok m' ↔ ps.foldlM f m = .ok m' := by
  induction ps generalizing m with
  | nil => simp [pure, Except.pure]
  | cons p ps ih =>
    simp only [List.foldlM_cons, bind_ok, mapErr_ok, ih]

theorem LawfulSlot.congr {F ε : Type} {isSlot : Pair → Prop} {step : F → Pair → Except ε F} {init : F}
    {emit : F → List Pair} {Inv Inv' : F → Prop} (h : LawfulSlot isSlot step init emit Inv)
    (hi : ∀ f, Inv f ↔ Inv' f) : LawfulSlot isSlot step init emit Inv' := by
  have : Inv = Inv' := funext fun f => propext (hi f)
  rwa [← this]

theorem lawful_insOpt' {α ε : Type} [MapErr ε] {c : Codec α} (hc : LawfulCodec c) (t : UInt8) {isSlot : Pair → Prop}
    (hs : ∀ v, isSlot (bare t v)) :
    LawfulSlot isSlot (insOpt (ε := ε) c) none (emitOpt t c) (fun o => ∀ p ∈ emitOpt t c o, PairFits p) :=
  LawfulSlot.congr (lawful_insOpt hc t hs) (by simp)

theorem lawful_insMap' {K V ε : Type} [MapErr ε] [OrdKey K] [DecidableEq K] {ck : Codec K} {cv : Codec V}
    (hk : LawfulCodec ck) (hv : LawfulCodec cv) (hne : ∀ k, ck.ser k ≠ []) (t : UInt8) {isSlot : Pair → Prop}
    (hs : ∀ k v, isSlot ⟨⟨t, k⟩, v⟩) :
    LawfulSlot isSlot (insMap (ε := ε) ck cv) BMap.empty (emitMap t ck cv)
      (fun m => ∀ p ∈ emitMap t ck cv m, PairFits p) :=
  LawfulSlot.congr (lawful_insMap hk hv hne t hs) (by simp)

/-- The value of a pair, key data ignored. -/
def parseVal {α : Type} (c : Codec α) (p : Pair) : Option α :=
  match c.deser p.value with
  | .ok v => some v
  | .error _ => none

theorem parseVal_some {α : Type} {c : Codec α} {p : Pair} {v : α} :
    parseVal c p = some v ↔ c.deser p.value = .ok v := by
  unfold parseVal
  cases c.deser p.value <;> simp

theorem forall_u8 {P : UInt8 → Prop} (h : ∀ n : Fin 256, P (UInt8.ofFin n)) (t : UInt8) : P t := by
  have := h t.toFin
  simpa using this

theorem vecFits_of_short {v : Bytes} (h : v.length ≤ 100) : VecFits v := by
  have : (encVar v.length).length = 1 := by
    unfold encVar; rw [if_pos (by omega)]; rfl
  simp only [VecFits, encVec, List.length_append, MAX_VEC_SIZE]; omega

theorem pairFits_bare_short (t : UInt8) {v : Bytes} (h : v.length ≤ 100) : PairFits (bare t v) :=
  PairFits.bare (vecFits_of_short h)

theorem u32_ser_length (n : UInt32) : (u32Codec.ser n).length = 4 := leEnc_length _ _

theorem u32Codec_exact {b : Bytes} {v : UInt32} (h : u32Codec.deser b = .ok v) : b = u32Codec.ser v :=
  consensusCodec_exact (fun _ _ _ h => decU32_ok h) h

end Psbt
