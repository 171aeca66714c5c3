/- Lemmas about raw pairs, proprietary keys and the decode loop. -/
import Verif.Lemmas.Ser
import Verif.Lemmas.BMap
import Verif.Model.Maps
namespace Psbt

/-! ### Keys and pairs -/

/-- Exactly the pairs that can be read back. -/
def PairFits (p : Pair) : Prop := p.key.key.length ≤ MAX_VEC_SIZE ∧ VecFits p.value

instance (p : Pair) : Decidable (PairFits p) := inferInstanceAs (Decidable (_ ∧ _))

theorem decKey_enc {k : RawKey} (h : k.key.length ≤ MAX_VEC_SIZE) (r : Bytes) :
    decKey (encKey k ++ r) = .ok (k, r) := by
  have h' := h
  simp only [MAX_VEC_SIZE] at h'
  simp only [decKey, encKey, List.append_assoc]
  rw [decVar_enc (by omega)]
  simp only [mapErr_of_ok, ok_bind]
  rw [if_neg (by omega), if_neg (by omega)]
  simp only [List.cons_append, decU8_cons, mapErr_of_ok, ok_bind, Nat.add_sub_cancel]
  rw [readN_append rfl]
  rfl

theorem decKey_ok {b : Bytes} {k : RawKey} {r : Bytes} (h : decKey b = .ok (k, r)) :
    b = encKey k ++ r ∧ k.key.length ≤ MAX_VEC_SIZE := by
  simp only [decKey, bind_ok, mapErr_ok] at h
  obtain ⟨⟨n, r1⟩, h1, h⟩ := h
  simp only at h
  split at h
  · cases h
  · split at h
    · cases h
    · rename_i hn0 hn
      simp only [bind_ok, mapErr_ok] at h
      obtain ⟨⟨t, r2⟩, h2, ⟨d, r3⟩, h3, h4⟩ := h
      cases h4
      simp only at h2 h3
      obtain ⟨rfl, -⟩ := decVar_ok h1
      have := decU8_ok h2
      subst this
      obtain ⟨rfl, hl⟩ := readN_ok h3
      have hn' : n = d.length + 1 := by omega
      subst hn'
      exact ⟨by simp [encKey], by simp only; omega⟩

theorem decPair_enc {p : Pair} (h : PairFits p) (r : Bytes) : decPair (encPair p ++ r) = .ok (p, r) := by
  simp only [decPair, encPair, List.append_assoc]
  rw [decKey_enc h.1]
  simp only [ok_bind]
  rw [decVec_enc h.2]
  rfl

theorem decPair_ok {b : Bytes} {p : Pair} {r : Bytes} (h : decPair b = .ok (p, r)) :
    b = encPair p ++ r ∧ PairFits p := by
  simp only [decPair, bind_ok, mapErr_ok] at h
  obtain ⟨⟨k, r1⟩, h1, ⟨v, r2⟩, h2, h3⟩ := h
  cases h3
  obtain ⟨rfl, hk⟩ := decKey_ok h1
  obtain ⟨h4, hv⟩ := decVec_ok h2
  simp only at h4
  subst h4
  exact ⟨by simp [encPair], hk, hv⟩

theorem decPair_zero (r : Bytes) : decPair (0 :: r) = .error .noMorePairs := rfl

theorem encVar_head_ne_zero {n : Nat} (h : 0 < n) (h2 : n < 2 ^ 64) : ∃ a t, encVar n = a :: t ∧ a ≠ 0 := by
  unfold encVar
  split
  · refine ⟨_, _, rfl, ?_⟩
    intro e
    have := congrArg UInt8.toNat e
    rw [UInt8.toNat_ofNat'] at this
    simp at this; omega
  · split
    · exact ⟨_, _, rfl, by decide⟩
    · split
      · exact ⟨_, _, rfl, by decide⟩
      · exact ⟨_, _, rfl, by decide⟩

theorem decVec_ne_noMore {b : Bytes} : (mapErr SerErr.consensus (decVec b)) ≠ .error .noMorePairs := by
  cases decVec b <;> simp [mapErr]

/-- The separator is exactly a zero byte. -/
theorem decPair_noMore {b : Bytes} (h : decPair b = .error .noMorePairs) : ∃ r, b = 0 :: r := by
  simp only [decPair] at h
  cases hk : decKey b with
  | ok x =>
    rw [hk] at h
    simp only [ok_bind] at h
    cases hv : mapErr SerErr.consensus (decVec x.2) with
    | ok y => rw [hv] at h; cases h
    | error e => rw [hv] at h; cases h; exact absurd hv decVec_ne_noMore
  | error e =>
    rw [hk] at h
    cases h
    simp only [decKey] at hk
    cases h1 : decVar b with
    | error e => rw [h1] at hk; simp [mapErr] at hk
    | ok x =>
      obtain ⟨n, r⟩ := x
      rw [h1] at hk
      simp only [mapErr_of_ok, ok_bind] at hk
      split at hk
      · rename_i h0
        subst h0
        obtain ⟨rfl, -⟩ := decVar_ok h1
        exact ⟨r, rfl⟩
      · split at hk
        · cases hk
        · exfalso
          cases h2 : decU8 r with
          | error e => rw [h2] at hk; simp [mapErr] at hk
          | ok y =>
            rw [h2] at hk
            simp only [mapErr_of_ok, ok_bind] at hk
            cases h3 : readN (n - 1) y.2 with
            | error e => rw [h3] at hk; simp [mapErr] at hk
            | ok z => rw [h3] at hk; simp [mapErr] at hk

theorem encPair_pos (p : Pair) : 0 < (encPair p).length := by
  have := encVar_length_pos (p.key.key.length + 1)
  simp only [encPair, encKey, List.length_append]
  omega

/-! ### Proprietary keys -/

/-- Exactly the proprietary keys that can be read back. -/
def PropFits (k : PropKey) : Prop := VecFits k.pre ∧ k.key.length ≤ PROP_KEY_LIMIT

instance (p : PropKey) : Decidable (PropFits p) := inferInstanceAs (Decidable (_ ∧ _))

theorem PropKey.ofKey_toKey {k : PropKey} (h : PropFits k) : PropKey.ofKey k.toKey = .ok k := by
  simp only [PropKey.ofKey, PropKey.toKey, ne_eq, not_true_eq_false, if_false, consensusDeser, decProp, encProp]
  rw [decVec_enc h.1]
  simp only [ok_bind, decU8_cons]
  rw [List.take_of_length_le h.2, List.drop_eq_nil_of_le h.2]
  rfl

theorem PropKey.ofKey_ok {r : RawKey} {k : PropKey} (h : PropKey.ofKey r = .ok k) : r = k.toKey ∧ PropFits k := by
  simp only [PropKey.ofKey] at h
  split at h
  · cases h
  · rename_i ht
    simp only [ne_eq, Decidable.not_not] at ht
    rw [mapErr_ok] at h
    have := consensusDeser_ok h
    simp only [decProp, bind_ok] at this
    obtain ⟨⟨p, r1⟩, h1, ⟨s, r2⟩, h2, h3⟩ := this
    simp only [Except.ok.injEq, Prod.mk.injEq] at h3
    obtain ⟨rfl, h4⟩ := h3
    have h5 := List.drop_eq_nil_iff.mp h4
    obtain ⟨e1, f1⟩ := decVec_ok h1
    have e2 := decU8_ok h2
    simp only at e2
    subst e2
    refine ⟨?_, f1, by simp only [List.length_take]; omega⟩
    obtain ⟨t, d⟩ := r
    simp only at ht e1
    subst ht; subst e1
    simp [PropKey.toKey, encProp, List.take_of_length_le h5]

theorem PropKey.toKey_inj {a b : PropKey} (ha : PropFits a) (h : a.toKey = b.toKey) (hb : PropFits b) : a = b := by
  have h1 := PropKey.ofKey_toKey ha
  rw [h, PropKey.ofKey_toKey hb] at h1
  cases h1; rfl

/-! ### The decode loop -/

section
variable {M ε : Type} {ins : M → Pair → Except ε M} {w : SerErr → ε}

theorem decodeLoop_enc (ps : List Pair) (h : ∀ p ∈ ps, PairFits p) (r : Bytes) (m : M) {fuel : Nat}
    (hf : ps.length < fuel) :
    decodeLoop ins w fuel m (ps.flatMap encPair ++ 0 :: r) = (ps.foldlM ins m).map (·, r) := by
  induction ps generalizing m fuel with
  | nil =>
    cases fuel with
    | zero => omega
    | succ fuel => simp [decodeLoop, decPair_zero, pure, Except.pure, Except.map]
  | cons p ps ih =>
    cases fuel with
    | zero => omega
    | succ fuel =>
      simp only [List.flatMap_cons, List.append_assoc, decodeLoop]
      rw [decPair_enc (h p (by simp))]
      simp only [List.foldlM_cons]
      cases hi : ins m p with
      | error e => rfl
      | ok m' =>
        simp only [ok_bind]
        exact ih (fun q hq => h q (by simp [hq])) m' (by simpa using hf)

theorem decodeLoop_ok {fuel : Nat} {m m' : M} {b r : Bytes} (h : decodeLoop ins w fuel m b = .ok (m', r)) :
    ∃ ps : List Pair, b = ps.flatMap encPair ++ 0 :: r ∧ (∀ p ∈ ps, PairFits p) ∧ ps.foldlM ins m = .ok m' := by
  induction fuel generalizing m b with
  | zero => cases h
  | succ fuel ih =>
    simp only [decodeLoop] at h
    split at h
    · rename_i p r1 hp
      simp only [bind_ok] at h
      obtain ⟨m1, h1, h2⟩ := h
      obtain ⟨ps, h3, h4, h5⟩ := ih h2
      obtain ⟨rfl, h6⟩ := decPair_ok hp
      subst h3
      refine ⟨p :: ps, by simp, ?_, by simp [h1, h5]⟩
      intro q hq
      rcases List.mem_cons.mp hq with rfl | hq
      · exact h6
      · exact h4 q hq
    · rename_i e he
      split at h
      · rename_i hn
        subst hn
        cases h
        obtain ⟨r, rfl⟩ := decPair_noMore he
        exact ⟨[], by simp, by simp, rfl⟩
      · cases h

/-- The decode loop on a well-formed sequence of pairs is the fold of the insertions. -/
theorem decodeMap_enc (ps : List Pair) (h : ∀ p ∈ ps, PairFits p) (r : Bytes) (m : M) :
    decodeMap ins w m (ps.flatMap encPair ++ 0 :: r) = (ps.foldlM ins m).map (·, r) := by
  apply decodeLoop_enc ps h
  have := length_le_flatMap (f := encPair) (l := ps) (fun a _ => encPair_pos a)
  simp only [List.length_append, List.length_cons]
  omega

/-- A map is accepted only if its bytes are a sequence of pairs, a zero byte, and the insertions succeed. -/
theorem decodeMap_ok {m m' : M} {b r : Bytes} :
    decodeMap ins w m b = .ok (m', r) ↔
      ∃ ps : List Pair, b = ps.flatMap encPair ++ 0 :: r ∧ (∀ p ∈ ps, PairFits p) ∧ ps.foldlM ins m = .ok m' := by
  constructor
  · exact decodeLoop_ok
  · rintro ⟨ps, rfl, h1, h2⟩
    rw [decodeMap_enc ps h1, h2]; rfl

theorem serializeMap_append (ps : List Pair) (r : Bytes) :
    serializeMap ps ++ r = ps.flatMap encPair ++ 0 :: r := by simp [serializeMap]

/-- The bytes of a map determine its pairs and where it ends. -/
theorem pairs_unique {ps qs : List Pair} {r s : Bytes} (hp : ∀ p ∈ ps, PairFits p) (hq : ∀ p ∈ qs, PairFits p)
    (h : ps.flatMap encPair ++ 0 :: r = qs.flatMap encPair ++ 0 :: s) : ps = qs ∧ r = s := by
  induction ps generalizing qs with
  | nil =>
    cases qs with
    | nil => simpa using h
    | cons q qs =>
      exfalso
      have h1 := decPair_zero r
      simp only [List.flatMap_nil, List.nil_append, List.flatMap_cons, List.append_assoc] at h
      rw [h, decPair_enc (hq q (by simp))] at h1
      cases h1
  | cons p ps ih =>
    cases qs with
    | nil =>
      exfalso
      have h1 := decPair_zero s
      simp only [List.flatMap_nil, List.nil_append, List.flatMap_cons, List.append_assoc] at h
      rw [← h, decPair_enc (hp p (by simp))] at h1
      cases h1
    | cons q qs =>
      simp only [List.flatMap_cons, List.append_assoc] at h
      have h1 := decPair_enc (hp p (by simp)) (ps.flatMap encPair ++ 0 :: r)
      rw [h, decPair_enc (hq q (by simp))] at h1
      simp only [Except.ok.injEq, Prod.mk.injEq] at h1
      obtain ⟨rfl, h2⟩ := h1
      obtain ⟨rfl, rfl⟩ := ih (fun x hx => hp x (by simp [hx])) (fun x hx => hq x (by simp [hx])) h2.symm
      exact ⟨rfl, rfl⟩

end

end Psbt
