/- Reading a map and writing it back does not make it longer, slot by slot. -/
import Verif.Lemmas.Kinds
namespace Psbt

/-- Bytes the pairs take. -/
def encLen (ps : List Pair) : Nat := (ps.flatMap encPair).length

@[simp] theorem encLen_nil : encLen [] = 0 := rfl
@[simp] theorem encLen_cons (p : Pair) (ps : List Pair) : encLen (p :: ps) = (encPair p).length + encLen ps := by
  simp [encLen]
@[simp] theorem encLen_append (ps qs : List Pair) : encLen (ps ++ qs) = encLen ps + encLen qs := by
  simp [encLen]

theorem encVec_mono {v w : Bytes} (h : v.length ≤ w.length) : (encVec v).length ≤ (encVec w).length := by
  have h1 : (encVar v.length).length ≤ (encVar w.length).length := by
    unfold encVar
    repeat' split
    all_goals simp [leEnc]
    all_goals omega
  simp only [encVec, List.length_append]; omega

theorem encPair_mono {p q : Pair} (h1 : p.key.key.length ≤ q.key.key.length) (h2 : p.value.length ≤ q.value.length) :
    (encPair p).length ≤ (encPair q).length := by
  have hk : (encKey p.key).length ≤ (encKey q.key).length := by
    have := encVec_mono (v := p.key.ty :: p.key.key) (w := q.key.ty :: q.key.key) (by simpa using h1)
    simpa [encVec, encKey] using this
  have hv := encVec_mono h2
  simp only [encPair, List.length_append]; omega

/-- Folding pairs into a slot never makes its written form longer than what was there plus the pairs. -/
def Shrinks {F ε : Type} (isSlot : Pair → Prop) (step : F → Pair → Except ε F) (emit : F → List Pair) : Prop :=
  ∀ f p f', isSlot p → step f p = .ok f' → encLen (emit f') ≤ encLen (emit f) + (encPair p).length

theorem Shrinks.fold {F ε : Type} {isSlot : Pair → Prop} {step : F → Pair → Except ε F} {emit : F → List Pair}
    (h : Shrinks isSlot step emit) {ps : List Pair} (hp : ∀ p ∈ ps, isSlot p) {f f' : F}
    (e : ps.foldlM step f = .ok f') : encLen (emit f') ≤ encLen (emit f) + encLen ps := by
  induction ps generalizing f with
  | nil => cases e; simp
  | cons p ps ih =>
    simp only [List.foldlM_cons, bind_ok] at e
    obtain ⟨f1, h1, h2⟩ := e
    have a := h f p f1 (hp p (by simp)) h1
    have b := ih (fun q hq => hp q (by simp [hq])) h2
    simp only [encLen_cons]; omega

theorem IsOpt.shrinks {α ε : Type} {isSlot : Pair → Prop} {step : Option α → Pair → Except ε (Option α)}
    {parse : Pair → Option α} (h : IsOpt isSlot step parse) {emit1 : α → Pair} {emit : Option α → List Pair}
    (he1 : ∀ v, emit (some v) = [emit1 v])
    (hl : ∀ p v, parse p = some v → (encPair (emit1 v)).length ≤ (encPair p).length) : Shrinks isSlot step emit := by
  intro f p f' hs e
  rw [h _ _ _ hs] at e
  obtain ⟨-, v, hv, rfl⟩ := e
  have := hl p v hv
  rw [he1]; simp only [encLen_cons, encLen_nil]; omega

theorem encLen_insertL {K V : Type} [OrdKey K] [DecidableEq K] (g : K × V → Pair) (k : K) (v : V) (l : List (K × V))
    (h : getL k l = none) : encLen ((insertL k v l).map g) = (encPair (g (k, v))).length + encLen (l.map g) := by
  induction l with
  | nil => simp [insertL]
  | cons a l ih =>
    obtain ⟨k', v'⟩ := a
    simp only [getL] at h
    split at h
    · cases h
    · rename_i hk
      simp only [insertL]
      split
      · simp only [List.map_cons, encLen_cons]
      · simp only [if_neg hk, List.map_cons, encLen_cons, ih h]; omega

theorem IsKeyed.shrinks {K V ε : Type} [OrdKey K] [DecidableEq K] {isSlot : Pair → Prop}
    {step : BMap K V → Pair → Except ε (BMap K V)} {parse : Pair → Option (K × V)} (h : IsKeyed isSlot step parse)
    {emit1 : K × V → Pair} {emit : BMap K V → List Pair} (he : ∀ m, emit m = m.l.map emit1)
    (hl : ∀ p k v, parse p = some (k, v) → (encPair (emit1 (k, v))).length ≤ (encPair p).length) :
    Shrinks isSlot step emit := by
  intro f p f' hs e
  rw [h _ _ _ hs] at e
  obtain ⟨k, v, h1, h2, rfl⟩ := e
  have := hl p k v h1
  rw [he, he]
  have e2 := encLen_insertL emit1 k v f.l h2
  simp only [BMap.insert] at e2 ⊢
  rw [e2]; omega

namespace SlotSys
variable {M S ε : Type} [DecidableEq S] (Y : SlotSys M S ε)

theorem encLen_ofSlot_le (order : List S) (hn : order.Nodup) (ps : List Pair) :
    (order.map fun s => encLen (Y.ofSlot s ps)).sum ≤ encLen ps := by
  induction ps with
  | nil =>
    have : ∀ o : List S, (o.map fun s => encLen (Y.ofSlot s [])).sum = 0 := by
      intro o; induction o with
      | nil => rfl
      | cons a o ih => simp only [List.map_cons, List.sum_cons, ih]; rfl
    rw [this]; exact Nat.zero_le _
  | cons p ps ih =>
    have key : ∀ o : List S, o.Nodup → (o.map fun s => encLen (Y.ofSlot s (p :: ps))).sum ≤
        (o.map fun s => encLen (Y.ofSlot s ps)).sum + (if Y.slotOf p ∈ o then (encPair p).length else 0) := by
      intro o ho
      induction o with
      | nil => simp
      | cons a o ih2 =>
        have := ih2 (List.nodup_cons.mp ho).2
        simp only [List.map_cons, List.sum_cons]
        by_cases ha : a = Y.slotOf p
        · subst ha
          rw [Y.ofSlot_cons_self]
          rw [if_neg (List.nodup_cons.mp ho).1] at this
          simp only [encLen_cons, List.mem_cons, true_or, if_true]
          omega
        · rw [Y.ofSlot_cons_ne ha]
          have h2 : (Y.slotOf p ∈ a :: o) ↔ Y.slotOf p ∈ o := by simp [Ne.symm ha]
          simp only [h2]
          omega
    have := key order hn
    simp only [encLen_cons]
    split at this <;> omega

theorem encLen_pairs (order : List S) (emit : (s : S) → Y.F s → List Pair) (m : M) :
    encLen (Y.pairs order emit m) = (order.map fun s => encLen (emit s (Y.get s m))).sum := by
  induction order with
  | nil => rfl
  | cons a o ih =>
    have : Y.pairs (a :: o) emit m = emit a (Y.get a m) ++ Y.pairs o emit m := by simp [pairs]
    rw [this]; simp [ih]

/-- What was read is written back in no more bytes. -/
theorem shrinks {order : List S} (hn : order.Nodup) {emit : (s : S) → Y.F s → List Pair} {m0 m : M}
    (h0 : ∀ s, emit s (Y.get s m0) = [])
    (hs : ∀ s, Shrinks (fun p => Y.slotOf p = s) (Y.step s) (emit s)) {ps : List Pair}
    (e : ps.foldlM Y.ins m0 = .ok m) : encLen (Y.pairs order emit m) ≤ encLen ps := by
  rw [Y.encLen_pairs]
  refine Nat.le_trans ?_ (Y.encLen_ofSlot_le order hn ps)
  rw [Y.foldlM_iff] at e
  have h1 : ∀ s, encLen (emit s (Y.get s m)) ≤ encLen (Y.ofSlot s ps) := by
    intro s
    have := (hs s).fold (ps := Y.ofSlot s ps) (fun p hp => (Y.mem_ofSlot.mp hp).2) (e s)
    rw [h0 s] at this
    simpa using this
  clear hn
  induction order with
  | nil => simp
  | cons a o ih =>
    simp only [List.map_cons, List.sum_cons]
    have := h1 a
    omega

end SlotSys
end Psbt
