/-
Every error of an insertion is a justified complaint about the pair, or one of the complaints known to be untrue.
-/
import Verif.Lemmas.Refused
import Verif.Props.V2Parse
namespace Psbt
open Spec

/-- Errors of `step` are complaints in the sense of `P`. -/
def Explains {F ε : Type} (isSlot : Pair → Prop) (step : F → Pair → Except ε F) (init : F) (P : List Pair → Pair → ε → Prop) : Prop :=
  ∀ qs f p e, (∀ q ∈ qs, isSlot q) → isSlot p → PairOk p → qs.foldlM step init = .ok f → step f p = .error e → P qs p e

theorem Explains.imp {F ε : Type} {isSlot : Pair → Prop} {step : F → Pair → Except ε F} {init : F}
    {P Q : List Pair → Pair → ε → Prop} (h : Explains isSlot step init P)
    (i : ∀ qs p e, isSlot p → P qs p e → Q qs p e) : Explains isSlot step init Q :=
  fun qs f p e h1 h2 h3 h4 h5 => i qs p e h2 (h qs f p e h1 h2 h3 h4 h5)

/-- The names of the errors the shared code uses. -/
structure Named {ε : Type} [MapErr ε] (W : Words ε) : Prop where
  again : W.again = MapErr.dup
  noKeyData : W.noKeyData = MapErr.keyEmpty
  keyData : W.keyData = MapErr.keyNotEmpty
  unreadable : W.unreadable = MapErr.deser
  preimage : W.preimage = MapErr.preimage

theorem named2 : Named v2Words := ⟨rfl, rfl, rfl, rfl, rfl⟩
theorem named0 : Named v0Words := ⟨rfl, rfl, rfl, rfl, rfl⟩

theorem key_ext {a b : RawKey} (h1 : a.ty = b.ty) (h2 : a.key = b.key) : a = b := by
  cases a; cases b; cases h1; cases h2; rfl

section
variable {ε : Type} [MapErr ε] {W : Words ε} {isSlot : Pair → Prop} {t : UInt8}

/-- An unkeyed field that is already there has been read from an earlier pair with the same key. -/
theorem opt_again {α ε : Type} {W : Words ε} {step : Option α → Pair → Except ε (Option α)} {parse : Pair → Option α} (ht : ∀ q, isSlot q → q.key.ty = t)
    (hi : IsOpt isSlot step parse) (hk : ∀ q v, parse q = some v → q.key.key = []) {qs : List Pair} {p : Pair} {v : α}
    (hq : ∀ q ∈ qs, isSlot q) (hp : isSlot p) (hpk : p.key.key = []) (hf : qs.foldlM step none = .ok (some v)) :
    ∃ q ∈ qs, sameKey W q p (W.again p.key) := by
  rcases hi.fold hq hf with ⟨_, h⟩ | ⟨q, w, rfl, h, _⟩
  · cases h
  · exact ⟨q, List.mem_singleton.mpr rfl,
      key_ext ((ht q (hq q (List.mem_singleton.mpr rfl))).trans (ht p hp).symm) ((hk q w h).trans hpk.symm), rfl⟩

theorem explains_opt {α : Type} {c : Codec α} {w : Why} (hW : Named W) (ht : ∀ q, isSlot q → q.key.ty = t) (hc : Explained c w) :
    Explains isSlot (insOpt (ε := ε) c) none (single W w).Fault := by
  intro qs f p e hq hp ho hf h
  unfold insOpt at h
  split at h
  · rename_i hk
    cases f with
    | none =>
      simp only at h
      rw [bind_err] at h
      rcases h with h | ⟨_, _, h⟩
      · obtain ⟨s, h1, rfl⟩ := mapErr_err.mp h
        exact .inr (.inr ⟨s, hc _ _ (Nat.le_trans ho.2 (by decide)) h1, by rw [hW.unreadable]⟩)
      · cases h
    | some v =>
      cases h
      obtain ⟨q, h1, h2⟩ := opt_again (W := W) ht (isOpt_insOpt c isSlot) (fun q v h => (parseOpt_some.mp h).1) hq hp hk hf
      exact .inr (.inl ⟨q, h1, by rw [← hW.again]; exact h2⟩)
  · rename_i hk
    cases h
    exact .inl ⟨hk, by rw [hW.keyData]⟩

/-- A key that is already there has been read from an earlier pair. -/
theorem keyed_again {K V ε : Type} [OrdKey K] [DecidableEq K] {step : BMap K V → Pair → Except ε (BMap K V)} {parse : Pair → Option (K × V)}
    (hi : IsKeyed isSlot step parse) {qs : List Pair} {m : BMap K V} {k : K} {v : V}
    (hq : ∀ q ∈ qs, isSlot q) (hf : qs.foldlM step BMap.empty = .ok m) (hg : m.get k = some v) :
    ∃ q ∈ qs, parse q = some (k, v) := by
  rcases hi.mem_of_get hq hf hg with h | h
  · simp at h
  · exact h

theorem explains_map {K V : Type} [OrdKey K] [DecidableEq K] {ck : Codec K} {cv : Codec V} {wk wv : Why} {same : Bytes → Bytes → Prop}
    (hW : Named W) (ht : ∀ q, isSlot q → q.key.ty = t) (hk : Explained ck wk) (hv : Explained cv wv)
    (hs : ∀ a b k, ck.deser a = .ok k → ck.deser b = .ok k → same a b) :
    Explains isSlot (insMap (ε := ε) ck cv) BMap.empty (keyed W wk same wv).Fault := by
  intro qs f p e hq hp ho hf h
  unfold insMap at h
  split at h
  · rename_i hn; cases h; exact .inl (.inl ⟨hn, by rw [hW.noKeyData]⟩)
  · rw [bind_err] at h
    rcases h with h | ⟨k, h1, h⟩
    · obtain ⟨s, h1, rfl⟩ := mapErr_err.mp h
      exact .inl (.inr ⟨s, hk _ _ ho.1 h1, by rw [hW.unreadable]⟩)
    · rw [mapErr_ok] at h1
      split at h
      · rw [bind_err] at h
        rcases h with h | ⟨_, _, h⟩
        · obtain ⟨s, h1, rfl⟩ := mapErr_err.mp h
          exact .inr (.inr ⟨s, hv _ _ (Nat.le_trans ho.2 (by decide)) h1, by rw [hW.unreadable]⟩)
        · cases h
      · rename_i hg
        cases h
        obtain ⟨q, h2, h3⟩ := keyed_again (isKeyed_insMap (ε := ε) ck cv isSlot) hq hf hg
        exact .inr (.inl ⟨q, h2, (ht q (hq q h2)).trans (ht p hp).symm, hs _ _ _ (parseMap_some.mp h3).2.1 h1, by rw [hW.again]⟩)

theorem explains_hash {n : Nat} {g : Bytes → FixedBytes n} {ty : HashTy} (hW : Named W) (ht : ∀ q, isSlot q → q.key.ty = t) :
    Explains isSlot (insHash (ε := ε) g ty) BMap.empty (preimages W n g ty).Fault := by
  intro qs f p e hq hp ho hf h
  unfold insHash at h
  split at h
  · rename_i hn; cases h; exact .inl (.inl ⟨hn, by rw [hW.noKeyData]⟩)
  · rw [bind_err] at h
    rcases h with h | ⟨k, h1, h⟩
    · obtain ⟨s, h1, rfl⟩ := mapErr_err.mp h
      exact .inl (.inr ⟨s, expl_hash n _ _ ho.1 h1, by rw [hW.unreadable]⟩)
    · rw [mapErr_ok, hashCodec_deser_ok] at h1
      split at h
      · split at h
        · rename_i hg
          cases h
          exact .inr (.inr ⟨fun h => hg (Subtype.ext (by rw [h, h1])), by rw [hW.preimage]⟩)
        · cases h
      · rename_i hg
        cases h
        obtain ⟨q, h2, h3⟩ := keyed_again (isKeyed_insHash (ε := ε) g ty isSlot) hq hf hg
        refine .inr (.inl ⟨q, h2, key_ext ((ht q (hq q h2)).trans (ht p hp).symm) ?_, by rw [hW.again]⟩)
        rw [h1]
        exact (parseHash_some.mp h3).2.1

theorem not_proprietary {k : RawKey} {e : SerErr} (ht : k.ty = 0xFC) (h : PropKey.ofKey k = .error e) :
    NotProprietary k.key ∧ ∃ c, e = .consensus c := by
  constructor
  · intro id sub data h1 h2 h3
    have h4 : k = PropKey.toKey ⟨id, sub, data⟩ := by
      refine key_ext ht ?_
      rw [h3, PropKey.toKey, encProp, blob_fun]
    rw [h4, PropKey.ofKey_toKey ((propFits_iff _).mpr ⟨h1, h2⟩)] at h
    cases h
  · unfold PropKey.ofKey at h
    rw [if_neg (by simp [ht])] at h
    obtain ⟨c, _, rfl⟩ := mapErr_err.mp h
    exact ⟨c, rfl⟩

theorem explains_prop (hW : Named W) (ht : ∀ q, isSlot q → q.key.ty = 0xFC) :
    Explains isSlot (insProp (ε := ε)) BMap.empty (proprietary W).Fault := by
  intro qs f p e hq hp ho hf h
  unfold insProp at h
  rw [bind_err] at h
  rcases h with h | ⟨k, h1, h⟩
  · obtain ⟨s, h1, rfl⟩ := mapErr_err.mp h
    obtain ⟨h2, c, rfl⟩ := not_proprietary (ht p hp) h1
    exact .inl ⟨h2, c, by rw [hW.unreadable]⟩
  · rw [mapErr_ok] at h1
    split at h
    · cases h
    · rename_i hg
      cases h
      obtain ⟨q, h2, h3⟩ := keyed_again (isKeyed_insProp (ε := ε) isSlot) hq hf hg
      exact .inr (.inl ⟨q, h2, (PropKey.ofKey_ok (parseProp_some.mp h3).1).1.trans (PropKey.ofKey_ok h1).1.symm, by rw [hW.again]⟩)

theorem explains_unknown (hW : Named W) : Explains isSlot (insUnknown (ε := ε)) BMap.empty (other W).Fault := by
  intro qs f p e hq hp ho hf h
  unfold insUnknown at h
  split at h
  · cases h
  · rename_i hg
    cases h
    obtain ⟨q, h2, h3⟩ := keyed_again (isKeyed_insUnknown (ε := ε) isSlot) hq hf hg
    simp only [parseUnknown, Option.some.injEq, Prod.mk.injEq] at h3
    exact .inr (.inl ⟨q, h2, h3.1, by rw [hW.again]⟩)

end

/-! ### Fields of v2 only -/

namespace V2
variable {isSlot : Pair → Prop} {t : UInt8}

theorem explains_fixed {α : Type} {n : Nat} {read : Bytes → Except CErr (α × Bytes)} (ht : ∀ q, isSlot q → q.key.ty = t)
    (hr : ∀ b e, b.length = n → read b ≠ .error e) : Explains isSlot (insFixed n read) none (sized2 n).Fault := by
  intro qs f p e hq hp ho hf h
  unfold insFixed at h
  split at h
  · rename_i hk
    cases f with
    | none =>
      simp only at h
      split at h
      · rename_i hl; cases h; exact .inr (.inr ⟨hl, rfl⟩)
      · rename_i hl
        rw [bind_err] at h
        rcases h with h | ⟨_, _, h⟩
        · obtain ⟨s, h1, rfl⟩ := mapErr_err.mp h
          exact absurd h1 (hr _ _ (by simpa using hl))
        · cases h
    | some v =>
      cases h
      exact .inr (.inl (opt_again (W := v2Words) ht (isOpt_fixed n read isSlot) (fun q v h => (parseFixed_some.mp h).1) hq hp hk hf))
  · rename_i hk
    cases h
    exact .inl ⟨hk, rfl⟩

theorem decU32_never (b : Bytes) (e : CErr) (h : b.length = 4) : decU32 b ≠ .error e := by
  intro h'
  unfold decU32 at h'
  rw [bind_err] at h'
  rcases h' with h' | ⟨_, _, h'⟩
  · have := (readN_err.mp h').1; omega
  · cases h'

theorem decU8_never (b : Bytes) (e : CErr) (h : b.length = 1) : decU8 b ≠ .error e := by
  match b, h with
  | [x], _ => simp [decU8_cons]

theorem isLE32_of {b r : Bytes} {v : UInt32} (hl : b.length = 4) (h : decU32 b = .ok (v, r)) : IsLE32 v b := by
  have h1 := decU32_ok h
  have h2 : r = [] := by
    have := congrArg List.length h1
    rw [List.length_append, hl, show (encU32 v).length = 4 from leEnc_length _ _] at this
    exact List.length_eq_zero_iff.mp (by omega)
  subst h2
  refine deser_u32_ok (mapErr_ok.mpr ?_)
  unfold consensusDeser
  rw [h]
  rfl

theorem explains_version (ht : ∀ q, isSlot q → q.key.ty = t) : Explains isSlot insVersion none version2.Fault := by
  intro qs f p e hq hp ho hf h
  unfold insVersion at h
  split at h
  · rename_i hk
    cases f with
    | none =>
      simp only at h
      split at h
      · rename_i hl; cases h; exact .inr (.inr (.inl ⟨hl, rfl⟩))
      · rename_i hl
        simp only [ne_eq, Decidable.not_not] at hl
        rw [bind_err] at h
        rcases h with h | ⟨⟨v, r⟩, h1, h⟩
        · obtain ⟨s, h1, rfl⟩ := mapErr_err.mp h
          exact absurd h1 (decU32_never _ _ hl)
        · simp only at h
          split at h
          · rename_i hv; cases h; exact .inr (.inr (.inr ⟨v, isLE32_of hl (mapErr_ok.mp h1), hv, rfl⟩))
          · cases h
    | some v =>
      cases h
      exact .inr (.inl (opt_again (W := v2Words) ht (isOpt_version isSlot) (fun q v h => (parseVersion_some.mp h).1.1) hq hp hk hf))
  · rename_i hk
    cases h
    exact .inl ⟨hk, rfl⟩

theorem counts_before {qs : List Pair} {c c' : Option UInt64 × Option UInt64} (h : qs.foldlM insCounts c = .ok c')
    (ht : ∀ q ∈ qs, q.key.ty = 0x04 ∨ q.key.ty = 0x05) :
    (∀ n, c'.1 = some n → c.1 = some n ∨ ∃ q ∈ qs, q.key = ⟨0x04, []⟩ ∧ ∃ r, q.value = compact n.toNat ++ r) ∧
    (∀ n, c'.2 = some n → c.2 = some n ∨ ∃ q ∈ qs, q.key = ⟨0x05, []⟩ ∧ ∃ r, q.value = compact n.toNat ++ r) ∧
    (c'.1 = none → c.1 = none ∧ ∀ q ∈ qs, q.key.ty ≠ 0x04) ∧ (c'.2 = none → c.2 = none ∧ ∀ q ∈ qs, q.key.ty ≠ 0x05) := by
  induction qs generalizing c with
  | nil => cases h; exact ⟨fun _ h => .inl h, fun _ h => .inl h, fun h => ⟨h, by simp⟩, fun h => ⟨h, by simp⟩⟩
  | cons q qs ih =>
    simp only [List.foldlM_cons, bind_ok] at h
    obtain ⟨c1, h1, h2⟩ := h
    obtain ⟨i1, i2, i3, i4⟩ := ih h2 (fun q hq => ht q (List.mem_cons_of_mem _ hq))
    unfold insCounts at h1
    split at h1
    · rename_i hk
      split at h1
      · rename_i hc
        simp only [bind_ok, mapErr_ok] at h1
        obtain ⟨⟨n, r⟩, h3, h1⟩ := h1
        obtain ⟨h4, h5⟩ := decVar_ok h3
        have h6 : (UInt64.ofNat n).toNat = n := by simp; omega
        have h7 : q.value = compact (UInt64.ofNat n).toNat ++ r := by rw [h6, compact_fun]; exact h4
        rcases ht q (List.mem_cons_self) with hy | hy
        · rw [if_pos (by rw [hy])] at h1
          cases h1
          refine ⟨fun m hm => ?_, fun m hm => ?_, fun hm => ?_, fun hm => ?_⟩
          · rcases i1 m hm with h | ⟨x, h⟩
            · cases h; exact .inr ⟨q, List.mem_cons_self, key_ext hy hk, r, h7⟩
            · exact .inr ⟨x, List.mem_cons_of_mem _ h.1, h.2⟩
          · rcases i2 m hm with h | ⟨x, h⟩
            · exact .inl h
            · exact .inr ⟨x, List.mem_cons_of_mem _ h.1, h.2⟩
          · have := (i3 hm).1; cases this
          · refine ⟨hc, fun x hx => ?_⟩
            rcases List.mem_cons.mp hx with rfl | hx
            · rw [hy]; decide
            · exact (i4 hm).2 x hx
        · rw [if_neg (by rw [hy]; decide)] at h1
          cases h1
          refine ⟨fun m hm => ?_, fun m hm => ?_, fun hm => ?_, fun hm => ?_⟩
          · rcases i1 m hm with h | ⟨x, h⟩
            · exact .inl h
            · exact .inr ⟨x, List.mem_cons_of_mem _ h.1, h.2⟩
          · rcases i2 m hm with h | ⟨x, h⟩
            · cases h; exact .inr ⟨q, List.mem_cons_self, key_ext hy hk, r, h7⟩
            · exact .inr ⟨x, List.mem_cons_of_mem _ h.1, h.2⟩
          · refine ⟨(i3 hm).1, fun x hx => ?_⟩
            rcases List.mem_cons.mp hx with rfl | hx
            · rw [hy]; decide
            · exact (i3 hm).2 x hx
          · have := (i4 hm).1; cases this
      · cases h1
    · cases h1

theorem explains_counts (ht : ∀ q, isSlot q → q.key.ty = 0x04 ∨ q.key.ty = 0x05) :
    Explains isSlot insCounts (none, none) (fun qs p e => count2.Fault qs p e ∨ p.key.ty = 0x04 ∧ countMisled.Fault qs p e) := by
  intro qs f p e hq hp ho hf h
  unfold insCounts at h
  split at h
  · rename_i hk
    split at h
    · rw [bind_err] at h
      rcases h with h | ⟨_, _, h⟩
      · obtain ⟨c, h1, rfl⟩ := mapErr_err.mp h
        exact .inl (.inr (.inr ⟨c, decVar_err h1, rfl⟩))
      · simp only at h; split at h <;> cases h
    · rename_i n hn
      cases h
      rcases (counts_before hf (fun q h => ht q (hq q h))).2.1 n hn with h | ⟨q, h1, h2, _⟩
      · cases h
      · rcases ht p hp with hy | hy
        · exact .inr ⟨hy, .inr (.inl ⟨q, h1, h2, key_ext hy hk, rfl⟩)⟩
        · exact .inl (.inr (.inl ⟨q, h1, h2.trans (key_ext hy hk).symm, rfl⟩))
  · rename_i hk
    cases h
    exact .inl (.inl ⟨hk, rfl⟩)

theorem keySourceBytes_fun (k : KeySource) : keySourceBytes k = keySourceCodec.ser k := by
  unfold keySourceBytes keySourceCodec
  simp only [le32_fun]

theorem explains_xpub {L : Lib} (ht : ∀ q, isSlot q → q.key.ty = t) :
    Explains isSlot (insXpub (L := L)) BMap.empty (fun qs p e => (xpub2 L).Fault qs p e ∨ xpubMisled.Fault qs p e) := by
  intro qs f p e hq hp ho hf h
  unfold insXpub at h
  split at h
  · rename_i hk; cases h; exact .inl (.inl (.inl ⟨hk, rfl⟩))
  · split at h
    · rename_i hx; cases h; exact .inl (.inl (.inr ⟨hx, rfl⟩))
    · rename_i x hx
      split at h
      · rename_i hv; cases h; exact .inr (.inr (.inr ⟨hv, rfl⟩))
      · split at h
        · rename_i hl; cases h; exact .inl (.inr (.inr (.inl ⟨hl, rfl⟩)))
        · split at h
          · rename_i hl; cases h; exact .inl (.inr (.inr (.inr ⟨hl, rfl⟩)))
          · split at h
            · rename_i old hg
              cases h
              obtain ⟨q, h2, h3⟩ := keyed_again (isKeyed_xpub L isSlot) hq hf hg
              rw [parseXpub_some] at h3
              refine .inl (.inr (.inl ⟨q, h2, (ht q (hq q h2)).trans (ht p hp).symm, ⟨x, h3.1, hx⟩, old, ?_, rfl⟩))
              rw [keySourceBytes_fun]
              exact keySource_exact h3.2
            · cases h

theorem explains_glProp (ht : ∀ q, isSlot q → q.key.ty = 0xFC) :
    Explains isSlot insGlobalProp BMap.empty proprietary2.Fault := by
  intro qs f p e hq hp ho hf h
  unfold insGlobalProp at h
  split at h
  · rename_i hk; cases h; exact .inl (.inl ⟨hk, rfl⟩)
  · rw [bind_err] at h
    rcases h with h | ⟨k, h1, h⟩
    · obtain ⟨s, h1, rfl⟩ := mapErr_err.mp h
      exact .inl (.inr ⟨(not_proprietary (ht p hp) h1).1, rfl⟩)
    · rw [mapErr_ok] at h1
      split at h
      · cases h
      · rename_i hg
        cases h
        obtain ⟨q, h2, h3⟩ := keyed_again (isKeyed_glProp isSlot) hq hf hg
        exact .inr (.inl ⟨q, h2, (PropKey.ofKey_ok (parseProp_some.mp h3).1).1.trans (PropKey.ofKey_ok h1).1.symm, rfl⟩)

theorem explains_sp {V : Type} {L : Lib} {parseV : Bytes → Option V} {n : Nat} {share : Prop} (ht : ∀ q, isSlot q → q.key.ty = t)
    (hn : ∀ b, parseV b = none → b.length ≠ n ∨ share ∧ n = 33 ∧ b.length = 33 ∧ L.compressed.parse b = none) :
    Explains isSlot (insSp L parseV n) BMap.empty (fun qs p e => (scan2 L n).Fault qs p e ∨ (scanMisled L share).Fault qs p e) := by
  intro qs f p e hq hp ho hf h
  unfold insSp at h
  split at h
  · rename_i hk; cases h; exact .inl (.inl (.inl ⟨hk, rfl⟩))
  · split at h
    · rename_i hx
      cases h
      by_cases hl : p.key.key.length = 33
      · exact .inr (.inl ⟨hl, hx, by rw [hl]⟩)
      · exact .inl (.inl (.inr ⟨hl, rfl⟩))
    · rename_i k hx
      split at h
      · rename_i hv
        cases h
        rcases hn _ hv with h | ⟨h1, h2, h3, h4⟩
        · exact .inl (.inr (.inr ⟨h, rfl⟩))
        · exact .inr (.inr (.inr ⟨h1, h3, h4, by rw [h3, h2]⟩))
      · split at h
        · cases h
        · rename_i hg
          cases h
          obtain ⟨q, h2, h3⟩ := keyed_again (isKeyed_insSp L parseV n isSlot) hq hf hg
          exact .inl (.inr (.inl ⟨q, h2, (ht q (hq q h2)).trans (ht p hp).symm, ⟨k, (parseSp_some.mp h3).1, hx⟩, rfl⟩))

theorem compressed_none {L : Lib} (b : Bytes) (h : L.compressed.parse b = none) :
    b.length ≠ 33 ∨ True ∧ 33 = 33 ∧ b.length = 33 ∧ L.compressed.parse b = none := by
  by_cases hl : b.length = 33
  · exact .inr ⟨trivial, rfl, hl, h⟩
  · exact .inl hl

theorem dleq_none {L : Lib} (b : Bytes) (h : dleq? b = none) :
    b.length ≠ 64 ∨ False ∧ 64 = 33 ∧ b.length = 33 ∧ L.compressed.parse b = none := by
  unfold dleq? at h
  split at h
  · cases h
  · exact .inl ‹_›

/-- An earlier pair of the same type: of the same key, or not. -/
theorem type_again {q p : Pair} {qs : List Pair} (hq : q ∈ qs) (ht : q.key.ty = p.key.ty) :
    (∃ q ∈ qs, sameKey v2Words q p (v2Words.again p.key)) ∨ sameType.Fault qs p (.duplicateKey p.key) := by
  by_cases h : q.key = p.key
  · exact .inl ⟨q, hq, h, rfl⟩
  · exact .inr (.inr (.inl ⟨q, hq, ht, h, rfl⟩))

theorem explains_sentinel {α : Type} [DecidableEq α] {z : α} {c : Codec α} {w : Why} {step : α → Pair → Except InsErr α}
    (hs : step = fun f p => if f ≠ z then .error (.duplicateKey p.key) else mapErr .deser (c.deser p.value))
    (hi : IsSentinel z isSlot step (parseVal c)) (ht : ∀ q, isSlot q → q.key.ty = t) (hc : Explained c w) :
    Explains isSlot step z (fun qs p e => Field.Fault { single v2Words w with key := fun _ _ => False } qs p e ∨ sameType.Fault qs p e) := by
  intro qs f p e hq hp ho hf h
  have h' := h
  rw [hs] at h
  simp only at h
  split at h
  · rename_i hz
    cases h
    rcases hi.fold hq hf with ⟨_, h⟩ | ⟨l, q, rfl, _⟩
    · exact absurd h hz
    · have hm : q ∈ l ++ [q] := by simp
      rcases type_again hm ((ht q (hq q hm)).trans (ht p hp).symm) with h | h
      · exact .inl (.inr (.inl h))
      · exact .inr h
  · obtain ⟨s, h1, rfl⟩ := mapErr_err.mp h
    exact .inl (.inr (.inr ⟨s, hc _ _ (Nat.le_trans ho.2 (by decide)) h1, rfl⟩))

theorem explains_info (ht : ∀ q, isSlot q → q.key.ty = t) :
    Explains isSlot insSpInfo none (fun qs p e => (sized2 66).Fault qs p e ∨ sameType.Fault qs p e) := by
  intro qs f p e hq hp ho hf h
  unfold insSpInfo at h
  split at h
  · cases h
    rcases (isOpt_info isSlot).fold hq hf with ⟨_, h⟩ | ⟨q, v, rfl, _⟩
    · cases h
    · have hm : q ∈ [q] := List.mem_singleton.mpr rfl
      rcases type_again hm ((ht q (hq q hm)).trans (ht p hp).symm) with h | h
      · exact .inl (.inr (.inl h))
      · exact .inr h
  · split at h
    · rename_i hk; cases h; exact .inl (.inl ⟨hk, rfl⟩)
    · split at h
      · rename_i hl; cases h; exact .inl (.inr (.inr ⟨hl, rfl⟩))
      · cases h

theorem explains_label (ht : ∀ q, isSlot q → q.key.ty = t) :
    Explains isSlot insSpLabel none (fun qs p e => (sized2 4).Fault qs p e ∨ sameType.Fault qs p e) := by
  intro qs f p e hq hp ho hf h
  unfold insSpLabel at h
  split at h
  · cases h
    rcases (isOpt_label isSlot).fold hq hf with ⟨_, h⟩ | ⟨q, v, rfl, _⟩
    · cases h
    · have hm : q ∈ [q] := List.mem_singleton.mpr rfl
      rcases type_again hm ((ht q (hq q hm)).trans (ht p hp).symm) with h | h
      · exact .inl (.inr (.inl h))
      · exact .inr h
  · split at h
    · rename_i hk; cases h; exact .inl (.inl ⟨hk, rfl⟩)
    · split at h
      · rename_i hl; cases h; exact .inl (.inr (.inr ⟨hl, rfl⟩))
      · cases h

end V2

/-! ### Fields of v0 only -/

namespace V0
variable {isSlot : Pair → Prop} {t : UInt8}

/-- The transaction without its witnesses. -/
def _root_.Psbt.Tx.strip (t : Tx) : Tx := { t with input := t.input.map TxIn.stripped }

theorem legacy_strip (t : Tx) : encTxLegacy t.strip = encTxLegacy t := by
  have h : encList encTxIn (t.input.map TxIn.stripped) = encList encTxIn t.input := by
    unfold encList
    rw [List.length_map, List.flatMap_map]
    rfl
  simp only [encTxLegacy, Tx.strip, h]

theorem explains_tx (ht : ∀ q, isSlot q → q.key.ty = t) : Explains isSlot insTx none tx0.Fault := by
  intro qs f p e hq hp ho hf h
  unfold insTx at h
  split at h
  · rename_i hk
    cases f with
    | none =>
      simp only at h
      rw [bind_err] at h
      rcases h with h | ⟨⟨x, r⟩, h1, h⟩
      · obtain ⟨c, h1, rfl⟩ := mapErr_err.mp h
        refine .inr (.inr (.inl ⟨?_, c, rfl⟩))
        intro x r hx
        have hs : unsignedTxBytes x = encTxLegacy (x.strip) := by rw [unsignedTxBytes_fun]; exact (legacy_strip x).symm
        have hw : ∀ i ∈ x.strip.input, i.witness = [] := by
          intro i hi
          obtain ⟨j, _, rfl⟩ := List.mem_map.mp hi
          rfl
        have hl : (encTxLegacy x.strip).length ≤ 3999995 := by
          have h2 := ho.2
          rw [hx, hs, List.length_append] at h2
          exact Nat.le_trans (Nat.le_add_right _ _) h2
        rw [hx, hs, decTxLegacy_enc (Tx.small_of_length_legacy (by decide) hw hl) hw] at h1
        cases h1
      · simp only at h
        split at h
        · rename_i hr
          cases h
          obtain ⟨h2, _⟩ := decTxLegacy_ok (mapErr_ok.mp h1)
          exact .inr (.inr (.inr ⟨⟨x, r, by rw [unsignedTxBytes_fun]; exact h2, hr⟩, rfl⟩))
        · cases h
    | some v =>
      cases h
      exact .inr (.inl (opt_again (W := v0Words) ht (isOpt_tx isSlot) (fun q v h => (parseTx_some.mp h).1) hq hp hk hf))
  · rename_i hk
    cases h
    exact .inl ⟨hk, rfl⟩

theorem explains_xpub {L : Lib} (ht : ∀ q, isSlot q → q.key.ty = t) :
    Explains isSlot (insXpub (L := L)) BMap.empty (xpub0 L).Fault := by
  intro qs f p e hq hp ho hf h
  unfold insXpub at h
  split at h
  · rename_i hk; cases h; exact .inl ⟨.inl hk, rfl⟩
  · split at h
    · rename_i hx; cases h; exact .inl ⟨.inr hx, rfl⟩
    · rename_i x hx
      split at h
      · rename_i hv; cases h; exact .inr (.inr ⟨hv, rfl⟩)
      · split at h
        · rename_i hg
          cases h
          obtain ⟨q, h2, h3⟩ := keyed_again (isKeyed_xpub L isSlot) hq hf hg
          rw [V2.parseXpub_some] at h3
          exact .inr (.inl ⟨q, h2, (ht q (hq q h2)).trans (ht p hp).symm, ⟨x, h3.1, hx⟩, rfl⟩)
        · cases h

theorem explains_version (ht : ∀ q, isSlot q → q.key.ty = t) : Explains isSlot insVersion none version0.Fault := by
  intro qs f p e hq hp ho hf h
  unfold insVersion at h
  split at h
  · rename_i hk
    cases f with
    | none =>
      simp only at h
      split at h
      · rename_i hl; cases h; exact .inr (.inr ⟨fun h => hl h.1, rfl⟩)
      · rename_i hl
        simp only [ne_eq, Decidable.not_not] at hl
        rw [bind_err] at h
        rcases h with h | ⟨⟨v, r⟩, h1, h⟩
        · obtain ⟨s, h1, rfl⟩ := mapErr_err.mp h
          exact absurd h1 (V2.decU32_never _ _ hl)
        · simp only at h
          split at h
          · rename_i hv
            cases h
            refine .inr (.inr ⟨fun h => hv ?_, rfl⟩)
            have h2 := V2.isLE32_of hl (mapErr_ok.mp h1)
            exact UInt32.toNat_inj.mp (h2.2.symm.trans h.2)
          · cases h
    | some v =>
      cases h
      exact .inr (.inl (opt_again (W := v0Words) ht (isOpt_version isSlot) (fun q v h => (parseVersion_some.mp h).1.1) hq hp hk hf))
  · rename_i hk
    cases h
    exact .inl ⟨hk, rfl⟩

end V0
end Psbt
