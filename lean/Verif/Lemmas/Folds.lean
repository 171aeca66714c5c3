/- What a successful fold over the pairs of one slot says about the pairs. -/
import Verif.Lemmas.V2Psbt
namespace Psbt

section
variable {K V ε : Type} [OrdKey K] [DecidableEq K] {isSlot : Pair → Prop}
  {step : BMap K V → Pair → Except ε (BMap K V)} {parse : Pair → Option (K × V)}

/-- Entries are never overwritten. -/
theorem IsKeyed.keep (h : IsKeyed isSlot step parse) {ps : List Pair} (hs : ∀ p ∈ ps, isSlot p) {m m' : BMap K V}
    (e : ps.foldlM step m = .ok m') {k : K} {v : V} (hk : m.get k = some v) : m'.get k = some v := by
  induction ps generalizing m with
  | nil => cases e; exact hk
  | cons p ps ih =>
    simp only [List.foldlM_cons, bind_ok] at e
    obtain ⟨m1, h1, h2⟩ := e
    rw [h _ _ _ (hs p (by simp))] at h1
    obtain ⟨k', v', _, h4, rfl⟩ := h1
    apply ih (fun q hq => hs q (by simp [hq])) h2
    have : k ≠ k' := by rintro rfl; rw [hk] at h4; cases h4
    rw [BMap.get_insert_ne _ this]
    exact hk

/-- Every pair ends up as an entry. -/
theorem IsKeyed.get_of_mem (h : IsKeyed isSlot step parse) {ps : List Pair} (hs : ∀ p ∈ ps, isSlot p) {m m' : BMap K V}
    (e : ps.foldlM step m = .ok m') {p : Pair} (hp : p ∈ ps) :
    ∃ k v, parse p = some (k, v) ∧ m'.get k = some v := by
  induction ps generalizing m with
  | nil => cases hp
  | cons q ps ih =>
    simp only [List.foldlM_cons, bind_ok] at e
    obtain ⟨m1, h1, h2⟩ := e
    rcases List.mem_cons.mp hp with rfl | hp
    · rw [h _ _ _ (hs p (by simp))] at h1
      obtain ⟨k, v, h3, _, rfl⟩ := h1
      exact ⟨k, v, h3, h.keep (fun q hq => hs q (by simp [hq])) h2 (BMap.get_insert_self _ _ _)⟩
    · exact ih (fun q hq => hs q (by simp [hq])) h2 hp

/-- Every entry comes from a pair. -/
theorem IsKeyed.mem_of_get (h : IsKeyed isSlot step parse) {ps : List Pair} (hs : ∀ p ∈ ps, isSlot p) {m m' : BMap K V}
    (e : ps.foldlM step m = .ok m') {k : K} {v : V} (hk : m'.get k = some v) :
    m.get k = some v ∨ ∃ p ∈ ps, parse p = some (k, v) := by
  induction ps generalizing m with
  | nil => cases e; exact .inl hk
  | cons q ps ih =>
    simp only [List.foldlM_cons, bind_ok] at e
    obtain ⟨m1, h1, h2⟩ := e
    rw [h _ _ _ (hs q (by simp))] at h1
    obtain ⟨k', v', h3, _, rfl⟩ := h1
    rcases ih (fun q hq => hs q (by simp [hq])) h2 with h4 | ⟨p, hp, h4⟩
    · rw [BMap.get_insert] at h4
      split at h4
      · rename_i hkk; subst hkk; cases h4; exact .inr ⟨q, by simp, h3⟩
      · exact .inl h4
    · exact .inr ⟨p, by simp [hp], h4⟩

end

theorem IsOpt.keep {α ε : Type} {isSlot : Pair → Prop} {step : Option α → Pair → Except ε (Option α)}
    {parse : Pair → Option α} (h : IsOpt isSlot step parse) {ps : List Pair} (hs : ∀ p ∈ ps, isSlot p) {v : α}
    {o : Option α} (e : ps.foldlM step (some v) = .ok o) : ps = [] ∧ o = some v := by
  cases ps with
  | nil => cases e; exact ⟨rfl, rfl⟩
  | cons p ps =>
    simp only [List.foldlM_cons, bind_ok] at e
    obtain ⟨m1, h1, h2⟩ := e
    rw [h _ _ _ (hs p (by simp))] at h1
    cases h1.1

/-- An optional field is filled by exactly the one pair of its slot. -/
theorem IsOpt.fold {α ε : Type} {isSlot : Pair → Prop} {step : Option α → Pair → Except ε (Option α)}
    {parse : Pair → Option α} (h : IsOpt isSlot step parse) {ps : List Pair} (hs : ∀ p ∈ ps, isSlot p) {o : Option α}
    (e : ps.foldlM step none = .ok o) : (ps = [] ∧ o = none) ∨ ∃ p v, ps = [p] ∧ parse p = some v ∧ o = some v := by
  cases ps with
  | nil => cases e; exact .inl ⟨rfl, rfl⟩
  | cons p ps =>
    right
    simp only [List.foldlM_cons, bind_ok] at e
    obtain ⟨m1, h1, h2⟩ := e
    rw [h _ _ _ (hs p (by simp))] at h1
    obtain ⟨_, v, h3, rfl⟩ := h1
    obtain ⟨rfl, rfl⟩ := h.keep (fun q hq => hs q (by simp [hq])) h2
    exact ⟨p, v, rfl, h3, rfl⟩

/-- A placeholder field that ends up different from the placeholder was set by the last pair of its slot, and all
earlier ones set the placeholder. -/
theorem IsSentinel.fold {α ε : Type} {z : α} {isSlot : Pair → Prop} {step : α → Pair → Except ε α}
    {parse : Pair → Option α} (h : IsSentinel z isSlot step parse) {ps : List Pair} (hs : ∀ p ∈ ps, isSlot p) {f f' : α}
    (e : ps.foldlM step f = .ok f') :
    (ps = [] ∧ f' = f) ∨ ∃ qs p, ps = qs ++ [p] ∧ parse p = some f' ∧ ∀ q ∈ qs, parse q = some z := by
  induction ps generalizing f with
  | nil => cases e; exact .inl ⟨rfl, rfl⟩
  | cons p ps ih =>
    right
    simp only [List.foldlM_cons, bind_ok] at e
    obtain ⟨m1, h1, h2⟩ := e
    rw [h _ _ _ (hs p (by simp))] at h1
    have hps : ∀ q ∈ ps, isSlot q := fun q hq => hs q (by simp [hq])
    rcases ih hps h2 with ⟨rfl, rfl⟩ | ⟨qs, q, rfl, h3, h4⟩
    · exact ⟨[], p, rfl, h1.2, by simp⟩
    · refine ⟨p :: qs, q, rfl, h3, ?_⟩
      intro x hx
      rcases List.mem_cons.mp hx with rfl | hx
      · cases qs with
        | nil =>
          simp only [List.nil_append, List.foldlM_cons, bind_ok] at h2
          obtain ⟨m2, h5, _⟩ := h2
          rw [h _ _ _ (hps q (by simp))] at h5
          rw [h1.2, h5.1]
        | cons y ys =>
          simp only [List.cons_append, List.foldlM_cons, bind_ok] at h2
          obtain ⟨m2, h5, _⟩ := h2
          rw [h _ _ _ (hps y (by simp))] at h5
          rw [h1.2, h5.1]
      · exact h4 x hx

namespace SlotSys
variable {M S ε : Type} [DecidableEq S] (Y : SlotSys M S ε)

theorem slot_ofSlot (s : S) (ps : List Pair) : ∀ p ∈ Y.ofSlot s ps, Y.slotOf p = s :=
  fun _ hp => (Y.mem_ofSlot.mp hp).2

end SlotSys

namespace V2

/-- `flatMap encPair ps ++ 0 :: r` determines `ps` and `r`. -/
theorem Input.decode_pairs {L : Lib} {ps : List Pair} (hp : ∀ p ∈ ps, PairFits p) {r r' : Bytes} {i : Input L}
    (h : Input.decode L (serializeMap ps ++ r) = .ok (i, r')) :
    r' = r ∧ ps.foldlM Input.insertPair (Input.placeholder L) = .ok i := by
  rw [Input.decode_ok, serializeMap_append] at h
  obtain ⟨⟨qs, h1, h2, h3⟩, _⟩ := h
  obtain ⟨rfl, rfl⟩ := pairs_unique hp h2 h1
  exact ⟨rfl, h3⟩

theorem Input.decode_of_pairs {L : Lib} {ps : List Pair} (hp : ∀ p ∈ ps, PairFits p) (r : Bytes) {i : Input L} :
    Input.decode L (serializeMap ps ++ r) = .ok (i, r) ↔
      ps.foldlM Input.insertPair (Input.placeholder L) = .ok i ∧ i.previousTxid ≠ zeroTxid ∧
      i.spentOutputIndex ≠ U32_MAX ∧ (L.sp = true → (i.spEcdhShares = .empty ↔ i.spDleqProofs = .empty)) := by
  constructor
  · intro h
    exact ⟨(Input.decode_pairs hp h).2, (Input.decode_ok.mp h).2⟩
  · rintro ⟨h1, h2⟩
    rw [Input.decode_ok, serializeMap_append]
    exact ⟨⟨ps, rfl, hp, h1⟩, h2⟩

theorem Output.decode_pairs {L : Lib} {ps : List Pair} (hp : ∀ p ∈ ps, PairFits p) {r r' : Bytes} {o : Output L}
    (h : Output.decode L (serializeMap ps ++ r) = .ok (o, r')) :
    r' = r ∧ ps.foldlM Output.insertPair (Output.placeholder L) = .ok o := by
  rw [Output.decode_ok, serializeMap_append] at h
  obtain ⟨⟨qs, h1, h2, h3⟩, _⟩ := h
  obtain ⟨rfl, rfl⟩ := pairs_unique hp h2 h1
  exact ⟨rfl, h3⟩

theorem Output.decode_of_pairs {L : Lib} {ps : List Pair} (hp : ∀ p ∈ ps, PairFits p) (r : Bytes) {o : Output L} :
    Output.decode L (serializeMap ps ++ r) = .ok (o, r) ↔
      ps.foldlM Output.insertPair (Output.placeholder L) = .ok o ∧ o.amount ≠ 0 ∧
      (L.sp = false → o.scriptPubkey ≠ []) ∧ (L.sp = true → o.spV0Label ≠ none → o.spV0Info ≠ none) := by
  constructor
  · intro h
    exact ⟨(Output.decode_pairs hp h).2, (Output.decode_ok.mp h).2⟩
  · rintro ⟨h1, h2⟩
    rw [Output.decode_ok, serializeMap_append]
    exact ⟨⟨ps, rfl, hp, h1⟩, h2⟩

theorem Global.decode_pairs {L : Lib} {ps : List Pair} (hp : ∀ p ∈ ps, PairFits p) {r r' : Bytes} {g : Global L}
    (h : Global.decode L (serializeMap ps ++ r) = .ok (g, r')) :
    r' = r ∧ ∃ a, ps.foldlM GlobalAcc.insertPair (GlobalAcc.start L) = .ok a ∧ a.finish = .ok g := by
  rw [Global.decode_ok, serializeMap_append] at h
  obtain ⟨qs, a, h1, h2, h3⟩ := h
  obtain ⟨rfl, rfl⟩ := pairs_unique hp h2 h1
  exact ⟨rfl, a, h3⟩

theorem Global.decode_of_pairs {L : Lib} {ps : List Pair} (hp : ∀ p ∈ ps, PairFits p) (r : Bytes) {g : Global L} :
    Global.decode L (serializeMap ps ++ r) = .ok (g, r) ↔
      ∃ a, ps.foldlM GlobalAcc.insertPair (GlobalAcc.start L) = .ok a ∧ a.finish = .ok g := by
  constructor
  · intro h
    exact (Global.decode_pairs hp h).2
  · rintro ⟨a, h1, h2⟩
    rw [Global.decode_ok, serializeMap_append]
    exact ⟨ps, a, rfl, hp, h1, h2⟩

/-- The shape of the bytes of several maps. -/
theorem decodeN_shape {ε α : Type} {dec : Bytes → Except ε (α × Bytes)}
    (hd : ∀ b a r, dec b = .ok (a, r) → ∃ ps : List Pair, b = serializeMap ps ++ r ∧ (∀ p ∈ ps, PairFits p) ∧
      ∀ r', dec (serializeMap ps ++ r') = .ok (a, r')) {n : Nat} {b r : Bytes} {l : List α}
    (e : decodeN dec n b = .ok (l, r)) :
    ∃ pss : List (List Pair), b = pss.flatMap serializeMap ++ r ∧ pss.length = l.length ∧
      (∀ ps ∈ pss, ∀ p ∈ ps, PairFits p) ∧
      ∀ j (h1 : j < pss.length) (h2 : j < l.length), ∀ r', dec (serializeMap pss[j] ++ r') = .ok (l[j], r') := by
  induction n generalizing b l with
  | zero => cases e; exact ⟨[], by simp, rfl, by simp, by simp⟩
  | succ n ih =>
    simp only [decodeN, bind_ok] at e
    obtain ⟨⟨a, r1⟩, h1, ⟨as, r2⟩, h2, h3⟩ := e
    cases h3
    obtain ⟨ps, h4, h5, h6⟩ := hd _ _ _ h1
    obtain ⟨pss, h7, h8, h9, h10⟩ := ih h2
    refine ⟨ps :: pss, ?_, by simp [h8], ?_, ?_⟩
    · simp only at h7
      rw [h4, h7]; simp
    · intro qs hqs
      rcases List.mem_cons.mp hqs with rfl | hqs
      · exact h5
      · exact h9 qs hqs
    · intro j hj1 hj2
      cases j with
      | zero => exact h6
      | succ j => exact h10 j (by simpa using hj1) (by simpa using hj2)

theorem Input.decode_shape {L : Lib} (b : Bytes) (i : Input L) (r : Bytes) (h : Input.decode L b = .ok (i, r)) :
    ∃ ps : List Pair, b = serializeMap ps ++ r ∧ (∀ p ∈ ps, PairFits p) ∧
      ∀ r', Input.decode L (serializeMap ps ++ r') = .ok (i, r') := by
  rw [Input.decode_ok] at h
  obtain ⟨⟨ps, h1, h2, h3⟩, h4⟩ := h
  exact ⟨ps, by rw [serializeMap_append]; exact h1, h2, fun r' => (Input.decode_of_pairs h2 r').mpr ⟨h3, h4⟩⟩

theorem Output.decode_shape {L : Lib} (b : Bytes) (i : Output L) (r : Bytes) (h : Output.decode L b = .ok (i, r)) :
    ∃ ps : List Pair, b = serializeMap ps ++ r ∧ (∀ p ∈ ps, PairFits p) ∧
      ∀ r', Output.decode L (serializeMap ps ++ r') = .ok (i, r') := by
  rw [Output.decode_ok] at h
  obtain ⟨⟨ps, h1, h2, h3⟩, h4⟩ := h
  exact ⟨ps, by rw [serializeMap_append]; exact h1, h2, fun r' => (Output.decode_of_pairs h2 r').mpr ⟨h3, h4⟩⟩

theorem Global.decode_shape {L : Lib} (b : Bytes) (i : Global L) (r : Bytes) (h : Global.decode L b = .ok (i, r)) :
    ∃ ps : List Pair, b = serializeMap ps ++ r ∧ (∀ p ∈ ps, PairFits p) ∧
      ∀ r', Global.decode L (serializeMap ps ++ r') = .ok (i, r') := by
  rw [Global.decode_ok] at h
  obtain ⟨ps, a, h1, h2, h3, h4⟩ := h
  exact ⟨ps, by rw [serializeMap_append]; exact h1, h2, fun r' => (Global.decode_of_pairs h2 r').mpr ⟨a, h3, h4⟩⟩

end V2
end Psbt
