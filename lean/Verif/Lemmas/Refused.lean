/- The errors of the codecs and of the raw reader tell the truth (`Spec.Refused`). -/
import Verif.Spec.Refused
import Verif.Props.TapTree
import Verif.Props.Wire
import Verif.Lemmas.Folds
import Verif.Lemmas.V0Psbt
import Verif.Lemmas.RawMap
import Verif.Lemmas.Limits
namespace Psbt
open Spec

theorem bind_err {ε α β : Type} {x : Except ε α} {f : α → Except ε β} {e : ε} :
    (x >>= f) = .error e ↔ x = .error e ∨ ∃ a, x = .ok a ∧ f a = .error e := by
  cases x with
  | error e' => simp [bind, Except.bind]
  | ok a => simp [bind, Except.bind]

theorem mapErr_err {ε ε' α : Type} {f : ε → ε'} {x : Except ε α} {e : ε'} :
    mapErr f x = .error e ↔ ∃ e', x = .error e' ∧ e = f e' := by
  cases x with
  | error a => simp only [mapErr, Except.error.injEq]; exact ⟨fun h => ⟨a, rfl, h.symm⟩, by rintro ⟨_, rfl, rfl⟩; rfl⟩
  | ok a => simp [mapErr]

theorem okOr_err {ε α : Type} {x : ε} {o : Option α} {e : ε} : okOr x o = .error e ↔ o = none ∧ e = x := by
  cases o <;> simp [okOr, eq_comm]

theorem readN_err {n : Nat} {b : Bytes} {e : CErr} : readN n b = .error e ↔ b.length < n ∧ e = .eof := by
  unfold readN
  split
  · rename_i h; simp only [reduceCtorEq, false_iff]; omega
  · rename_i h
    simp only [Except.error.injEq]
    exact ⟨fun e => ⟨by omega, e.symm⟩, fun e => e.2.symm⟩

theorem decVar_err {b : Bytes} {c : CErr} (h : decVar b = .error c) : SizeFault b c := by
  cases b with
  | nil => cases h; exact .nothing
  | cons m r =>
    have key : ∀ (k least : Nat), (m, k) ∈ [((0xFD : UInt8), 2), (0xFE, 4), (0xFF, 8)] →
        (m, k, least) ∈ [((0xFD : UInt8), 2, 253), (0xFE, 4, 2 ^ 16), (0xFF, 8, 2 ^ 32)] →
        (readN k r >>= fun x => if leDec x.1 < least then Except.error CErr.nonMinimalVarInt else .ok (leDec x.1, x.2)) = .error c →
        SizeFault (m :: r) c := by
      clear h
      intro k least h1 h2 h
      rw [bind_err] at h; rcases h with h | ⟨⟨x, t⟩, hx, h⟩
      · obtain ⟨h3, rfl⟩ := readN_err.mp h
        exact .short h1 h3
      · obtain ⟨rfl, h4⟩ := readN_ok hx
        split at h
        · rename_i h5
          cases h
          exact .notShortest h2 h4 (by rw [leValue_eq]; exact h5)
        · cases h
    simp only [decVar, decU8, ok_bind] at h
    split at h
    · rename_i e; subst e; exact key 8 (2 ^ 32) (by decide) (by decide) h
    · split at h
      · rename_i e; subst e; exact key 4 (2 ^ 16) (by decide) (by decide) h
      · split at h
        · rename_i e; subst e; exact key 2 253 (by decide) (by decide) h
        · cases h

theorem decVecFin_err {b : Bytes} {c : CErr} (h : decVecFin b = .error c) : BlobFault b c := by
  unfold decVecFin at h
  rw [bind_err] at h; rcases h with h | ⟨⟨n, t⟩, hx, h⟩
  · exact .size (decVar_err h)
  · obtain ⟨rfl, h2⟩ := decVar_ok hx
    obtain ⟨h3, rfl⟩ := readN_err.mp h
    rw [encVar_eq]
    exact .short h2 h3

/-- A compact size that cannot be read from the first ten bytes cannot be read. -/
theorem sizeFault_take {b : Bytes} {c : CErr} {n : Nat} (hn : 9 ≤ n) (h : SizeFault (b.take n) c) : SizeFault b c := by
  have hl : b.length ≤ n ∨ (b.take n).length = n := by
    rcases Nat.le_total b.length n with h | h
    · exact .inl h
    · exact .inr (by simp [h])
  rcases hl with hl | hl
  · rwa [List.take_of_length_le hl] at h
  · rcases b with _ | ⟨a, r⟩
    · simp at hl; omega
    · obtain ⟨k, rfl⟩ : ∃ k, n = k + 1 := ⟨n - 1, by omega⟩
      rw [List.take_succ_cons] at h hl
      simp only [List.length_cons, Nat.add_right_cancel_iff] at hl
      generalize hx : r.take k = x at h hl
      have hb : r = x ++ r.drop k := by rw [← hx, List.take_append_drop]
      generalize hy : a :: x = y at h
      cases h with
      | nothing => cases hy
      | @short m j t h1 h2 =>
        cases hy
        simp only [List.mem_cons, Prod.mk.injEq, List.not_mem_nil, or_false] at h1
        omega
      | @notShortest m j least z t h1 h2 h3 =>
        injection hy with e1 e2
        subst e1; subst e2
        rw [hb, List.append_assoc]
        exact .notShortest h1 h2 h3

theorem decPair_err {b : Bytes} {e : SerErr} (h : decPair b = .error e) : e = .noMorePairs ∨ ∃ c, e = .consensus c ∧ Torn b c := by
  simp only [decPair] at h
  rw [bind_err] at h; rcases h with h | ⟨⟨k, r⟩, hk, h⟩
  · simp only [decKey] at h
    rw [bind_err] at h; rcases h with h | ⟨⟨n, r⟩, hn, h⟩
    · obtain ⟨c, h1, rfl⟩ := mapErr_err.mp h
      exact .inr ⟨c, rfl, .size (decVar_err h1)⟩
    · simp only at h
      split at h
      · cases h; exact .inl rfl
      · rename_i h0
        right
        obtain ⟨rfl, h64⟩ := decVar_ok (mapErr_ok.mp hn)
        obtain ⟨m, rfl⟩ : ∃ m, n = 1 + m := ⟨n - 1, by omega⟩
        rw [Nat.add_sub_cancel_left] at h
        rw [encVar_eq]
        split at h
        · rename_i hm
          cases h
          exact ⟨_, rfl, .keyLimit (by omega) hm⟩
        · rename_i hm
          have hm : m ≤ MAX_KEY := by simp only [MAX_VEC_SIZE] at hm; simp only [MAX_KEY]; omega
          rw [bind_err] at h; rcases h with h | ⟨⟨t, r'⟩, ht, h⟩
          · obtain ⟨c, h1, rfl⟩ := mapErr_err.mp h
            cases r with
            | nil => cases h1; exact ⟨_, rfl, .keyShort hm (by simp; omega)⟩
            | cons x y => cases h1
          · have := decU8_ok (mapErr_ok.mp ht)
            subst this
            rw [bind_err] at h; rcases h with h | ⟨x, hx, h⟩
            · obtain ⟨c, h1, rfl⟩ := mapErr_err.mp h
              obtain ⟨h2, rfl⟩ := readN_err.mp h1
              exact ⟨_, rfl, .keyShort hm (by simp only [List.length_cons]; simp only at h2; omega)⟩
            · cases h
  · right
    rw [bind_err] at h; rcases h with h | ⟨x, hx, h⟩
    · obtain ⟨c, h1, rfl⟩ := mapErr_err.mp h
      obtain ⟨rfl, h2⟩ := decKey_ok hk
      refine ⟨c, rfl, ?_⟩
      simp only at h1
      have hk' : k.key.length ≤ MAX_KEY := h2
      have hb : ∀ t, encKey k ++ t = compact (1 + k.key.length) ++ [k.ty] ++ k.key ++ t := by
        intro t; simp [encKey, compact_fun, Nat.add_comm]
      rw [hb]
      simp only [decVec] at h1
      rw [bind_err] at h1; rcases h1 with h1 | ⟨y, hy, h1⟩
      · unfold decVecFin at h1
        rw [bind_err] at h1; rcases h1 with h1 | ⟨⟨n, t⟩, hn, h1⟩
        · exact .value hk' (.size (sizeFault_take (by simp [MAX_VEC_SIZE]) (decVar_err h1)))
        · obtain ⟨h3, h4⟩ := decVar_ok hn
          obtain ⟨h5, rfl⟩ := readN_err.mp h1
          rcases Nat.lt_or_ge r.length (MAX_VEC_SIZE + 1) with hl | hl
          · rw [List.take_of_length_le (by omega)] at h3
            rw [h3, encVar_eq]
            exact .value hk' (.short h4 h5)
          · have e : r = compact n ++ (t ++ r.drop MAX_VEC_SIZE) := by
              rw [← List.append_assoc, ← encVar_eq, ← h3, List.take_append_drop]
            have hlen : (encVar n ++ t).length = MAX_VEC_SIZE := by rw [← h3]; simp; omega
            rw [e]
            have := Torn.valueLimit (ty := k.ty) (k := k.key) (t := t ++ r.drop MAX_VEC_SIZE) hk' h4 (n := n) ?_
            · simpa only [List.append_assoc] using this
            · simp only [List.length_append] at hlen
              simp only [MAX_VALUE]
              simp only [MAX_VEC_SIZE] at hlen
              rcases Nat.lt_or_ge n (2 ^ 32) with h6 | h6
              · have : (encVar n).length ≤ 5 := by
                  have := encVar_length_mono (show n ≤ 0xFFFFFFFF by omega)
                  exact Nat.le_trans this (by decide)
                omega
              · omega
      · cases h1
    · cases h

/-! ### The decode loop -/

section
variable {M ε : Type} {ins : M → Pair → Except ε M} {w : SerErr → ε}

theorem decodeLoop_err {fuel : Nat} {m : M} {b : Bytes} {e : ε} (hf : b.length < fuel) (h : decodeLoop ins w fuel m b = .error e) :
    ∃ (ps : List Pair) (m' : M) (r : Bytes), b = ps.flatMap encPair ++ r ∧ (∀ p ∈ ps, PairFits p) ∧ ps.foldlM ins m = .ok m' ∧
      ((∃ p r', r = encPair p ++ r' ∧ PairFits p ∧ ins m' p = .error e) ∨ ∃ c, Torn r c ∧ e = w (.consensus c)) := by
  induction fuel generalizing m b with
  | zero => omega
  | succ fuel ih =>
    simp only [decodeLoop] at h
    split at h
    · rename_i p r hp
      obtain ⟨rfl, h2⟩ := decPair_ok hp
      have hpos := encPair_pos p
      rw [bind_err] at h; rcases h with h | ⟨m1, h1, h⟩
      · exact ⟨[], m, encPair p ++ r, rfl, by simp, rfl, .inl ⟨p, r, rfl, h2, h⟩⟩
      · obtain ⟨ps, m', r', rfl, h3, h4, h5⟩ := ih (by simp only [List.length_append] at hf; omega) h
        refine ⟨p :: ps, m', r', by simp, ?_, by simp [h1, h4], h5⟩
        intro q hq
        rcases List.mem_cons.mp hq with rfl | hq
        · exact h2
        · exact h3 q hq
    · rename_i x hx
      split at h
      · cases h
      · rename_i hn
        cases h
        rcases decPair_err hx with rfl | ⟨c, rfl, ht⟩
        · exact absurd rfl hn
        · exact ⟨[], m, b, rfl, by simp, rfl, .inr ⟨c, ht, rfl⟩⟩

theorem decodeMap_err {m : M} {b : Bytes} {e : ε} (h : decodeMap ins w m b = .error e) :
    ∃ (ps : List Pair) (m' : M) (r : Bytes), b = ps.flatMap encPair ++ r ∧ (∀ p ∈ ps, PairFits p) ∧ ps.foldlM ins m = .ok m' ∧
      ((∃ p r', r = encPair p ++ r' ∧ PairFits p ∧ ins m' p = .error e) ∨ ∃ c, Torn r c ∧ e = w (.consensus c)) :=
  decodeLoop_err (Nat.lt_succ_self _) h

end

/-! ### The codecs -/

/-- Every error of the codec has the reason given. -/
def Explained {α : Type} (c : Codec α) (w : Why) : Prop :=
  ∀ b e, b.length ≤ MAX_KEY → c.deser b = .error e → w b e

theorem expl_raw : Explained rawCodec never := fun _ _ _ h => by cases h

theorem expl_hash (n : Nat) : Explained (hashCodec n) (notHash n) := by
  intro b e _ h
  simp only [hashCodec] at h
  split at h
  · cases h
  · rename_i hn; cases h; exact ⟨hn, rfl⟩

theorem expl_foreign (F : Foreign) (x : SerErr) : Explained (F.codec x) (notTaken F x) :=
  fun _ _ _ h => okOr_err.mp h

theorem expl_written {α : Type} {f : α → Bytes} {d : Dec α} (hl : LawfulCodec (consensusCodec f d)) :
    Explained (consensusCodec f d) (notWritten f) := by
  intro b e hb h
  refine ⟨?_, ?_⟩
  · rintro v rfl
    have : (consensusCodec f d).deser (f v) = .ok v := hl.rt v hb
    rw [this] at h; cases h
  · obtain ⟨c, -, h⟩ := mapErr_err.mp h
    exact ⟨c, h⟩

theorem deser_number {α : Type} {n : Nat} (g : Bytes → α) {b : Bytes} {e : SerErr} {d : Dec α}
    (hd : ∀ b, d b = (readN n b >>= fun x => .ok (g x.1, x.2)))
    (h : mapErr SerErr.consensus (consensusDeser d b) = .error e) :
    notNumber n b e := by
  rw [mapErr_err] at h
  obtain ⟨c, h, rfl⟩ := h
  simp only [consensusDeser, hd] at h
  rw [bind_err] at h; rcases h with h | ⟨⟨a, r⟩, ha, h⟩
  · rw [bind_err] at h; rcases h with h | ⟨x, hx, h⟩
    · obtain ⟨h1, rfl⟩ := readN_err.mp h
      exact .inl ⟨h1, rfl⟩
    · cases h
  · obtain ⟨⟨x, r'⟩, hx, h2⟩ := bind_ok.mp ha
    cases h2
    obtain ⟨rfl, h3⟩ := readN_ok hx
    simp only at h
    split at h
    · cases h
    · rename_i hr
      cases h
      have := List.length_pos_iff.mpr hr
      exact .inr ⟨by simp; omega, rfl⟩

theorem expl_u32 : Explained u32Codec (notNumber 4) := fun _ _ _ h => deser_number (fun x => UInt32.ofNat (leDec x)) (fun _ => rfl) h
theorem expl_amount : Explained amountCodec (notNumber 8) := fun _ _ _ h => deser_number (fun x => UInt64.ofNat (leDec x)) (fun _ => rfl) h

theorem deser_u32_ok {b : Bytes} {n : UInt32} (h : mapErr SerErr.consensus (consensusDeser decU32 b) = .ok n) : IsLE32 n b := by
  have := decU32_ok (consensusDeser_ok (mapErr_ok.mp h))
  rw [List.append_nil] at this
  subst this
  refine ⟨by simp [encU32], ?_⟩
  rw [leValue_eq, encU32, leDec_leEnc_of_lt]
  exact n.toNat_lt

theorem expl_height : Explained heightCodec notHeight := by
  intro b e _ h
  simp only [heightCodec] at h
  rw [bind_err] at h; rcases h with h | ⟨n, hn, h⟩
  · exact .inl (deser_number (fun x => UInt32.ofNat (leDec x)) (fun _ => rfl) h)
  · split at h
    · cases h
    · rename_i hc
      cases h
      exact .inr ⟨n, deser_u32_ok hn, by simpa [LOCK_TIME_THRESHOLD, UInt32.not_lt] using hc, rfl⟩

theorem expl_time : Explained timeCodec notTime := by
  intro b e _ h
  simp only [timeCodec] at h
  rw [bind_err] at h; rcases h with h | ⟨n, hn, h⟩
  · exact .inl (deser_number (fun x => UInt32.ofNat (leDec x)) (fun _ => rfl) h)
  · split at h
    · cases h
    · rename_i hc
      cases h
      exact .inr ⟨n, deser_u32_ok hn, by simpa [LOCK_TIME_THRESHOLD, UInt32.not_le] using hc, rfl⟩

theorem version_told {b : Bytes} {e : SerErr} (h : versionCodec.deser b = .error e) : notVersion b e := by
  simp only [versionCodec] at h
  rw [bind_err] at h; rcases h with h | ⟨n, hn, h⟩
  · exact .inl (deser_number (fun x => UInt32.ofNat (leDec x)) (fun _ => rfl) h)
  · split at h
    · cases h
    · rename_i hc
      cases h
      exact .inr ⟨n, deser_u32_ok hn, fun h0 => hc (.inl h0), fun h0 => hc (.inr h0), rfl⟩

theorem expl_version : Explained versionCodec notVersion := fun _ _ _ h => version_told h

theorem decPath_err : ∀ {b : Bytes} {c : CErr}, decPath b = .error c → b.length % 4 ≠ 0 ∧ c = .eof
  | [], _, h => by cases h
  | [_], _, h => by cases h; exact ⟨by simp, rfl⟩
  | [_, _], _, h => by cases h; exact ⟨by simp, rfl⟩
  | [_, _, _], _, h => by cases h; exact ⟨by simp, rfl⟩
  | _ :: _ :: _ :: _ :: r, c, h => by
    simp only [decPath] at h
    rw [bind_err] at h; rcases h with h | ⟨x, hx, h⟩
    · obtain ⟨h1, h2⟩ := decPath_err h
      refine ⟨?_, h2⟩
      simp only [List.length_cons]; omega
    · cases h

theorem expl_keySource : Explained keySourceCodec notKeySource := by
  intro b e _ h
  simp only [keySourceCodec] at h
  split at h
  · rename_i hl; cases h; exact .inl ⟨hl, rfl⟩
  · rename_i hl
    rw [bind_err] at h; rcases h with h | ⟨n, hn, h⟩
    · obtain ⟨c, h1, rfl⟩ := mapErr_err.mp h
      obtain ⟨h2, rfl⟩ := decPath_err h1
      exact .inr ⟨by simp only [List.length_drop] at h2; omega, rfl⟩
    · cases h

theorem getLast?_none' {b : Bytes} (h : b.getLast? = none) : b = [] := by
  cases b with
  | nil => rfl
  | cons a r => rw [List.getLast?_cons] at h; cases h

theorem getLast?_some' {b : Bytes} {t : UInt8} (h : b.getLast? = some t) : b = b.dropLast ++ [t] := by
  obtain ⟨ys, rfl⟩ := List.getLast?_eq_some_iff.mp h
  simp

theorem expl_ecdsaSig (L : Lib) : Explained (ecdsaSigCodec L) (notEcdsaSig L) := by
  intro b e _ h
  simp only [ecdsaSigCodec] at h
  split at h
  · rename_i hb; cases h; exact .inl ⟨getLast?_none' hb, rfl⟩
  · rename_i t ht
    right
    refine ⟨_, t, getLast?_some' ht, ?_⟩
    split at h
    · split at h
      · cases h
      · rename_i hd; cases h; exact .inr ⟨hd, rfl⟩
    · rename_i hn
      cases h
      refine .inl ⟨?_, rfl⟩
      intro hm
      apply hn
      clear hn ht
      exact forall_u8 (P := fun t => t ∈ [0x01, 0x02, 0x03, 0x81, 0x82, 0x83] → ecdsaStandard t.toUInt32 = true)
        (by decide +kernel) t hm

theorem expl_tapSig : Explained tapSigCodec notTapSig := by
  intro b e _ h
  simp only [tapSigCodec] at h
  split at h
  · cases h
  · rename_i h64
    split at h
    · rename_i h65
      split at h
      · rename_i hb; rw [getLast?_none' hb] at h65; simp at h65
      · rename_i t ht
        split at h
        · cases h
        · rename_i hn
          cases h
          refine .inr ⟨h65, _, t, getLast?_some' ht, ?_, rfl⟩
          intro hm
          apply hn
          clear hn ht
          exact forall_u8 (P := fun t => t ∈ [0x00, 0x01, 0x02, 0x03, 0x81, 0x82, 0x83] → tapStandard t = true)
            (by decide +kernel) t hm
    · rename_i h65; cases h; exact .inl ⟨h64, h65, rfl⟩

theorem expl_keyAndLeaf (L : Lib) : Explained (xonlyLeafCodec L) (notKeyAndLeaf L) := by
  intro b e hb h
  simp only [xonlyLeafCodec] at h
  split at h
  · rename_i hl; cases h; exact .inl ⟨hl, rfl⟩
  · rename_i hl
    right
    refine ⟨b.take 32, b.drop 32, (List.take_append_drop _ _).symm, by simp; omega, ?_⟩
    rw [bind_err] at h; rcases h with h | ⟨k, hk, h⟩
    · exact .inl (expl_foreign _ _ _ _ (by simp; omega) h)
    · rw [bind_err] at h; rcases h with h | ⟨k, hk, h⟩
      · exact .inr (expl_hash _ _ _ (by simp; omega) h)
      · cases h

theorem leafVersion?_none {v : UInt8} (h : leafVersion? v = none) : v.toNat % 2 = 1 ∨ v = 0x50 := by
  unfold leafVersion? at h
  split at h
  · cases h
  · rename_i hn
    by_cases h1 : v = 0x50
    · exact .inr h1
    · left
      by_cases h2 : v.toNat % 2 = 0
      · exact absurd ⟨h2, h1⟩ hn
      · omega

theorem expl_leafScript : Explained leafScriptCodec notLeafScript := by
  intro b e _ h
  simp only [leafScriptCodec] at h
  split at h
  · rename_i hb; cases h; exact .inl ⟨getLast?_none' hb, rfl⟩
  · rename_i v hv
    split at h
    · cases h
    · rename_i hn
      cases h
      exact .inr ⟨_, v, getLast?_some' hv, leafVersion?_none hn, rfl⟩

theorem hashesBytes_eq (hs : List Hash32) : hashesBytes hs = encList (fun h : Hash32 => h.1) hs := by
  unfold hashesBytes encList
  rw [compact_fun]

theorem canon_hash : Canon (fun h : Hash32 => h.1) decHash32 := fun _ _ _ h => decHash32_ok h

theorem expl_tapOrigin : Explained tapOriginCodec notTapOrigin := by
  intro b e hb h
  simp only [tapOriginCodec] at h
  rw [bind_err] at h; rcases h with h | ⟨⟨hs, r⟩, hr, h⟩
  · obtain ⟨c, h1, rfl⟩ := mapErr_err.mp h
    refine .inl ⟨?_, c, rfl⟩
    rintro hs r rfl
    have hl : hs.length < 2 ^ 64 := by
      have : hs.length ≤ (hs.flatMap fun h : Hash32 => h.1).length := length_le_flatMap (fun a _ => by have := a.2; omega)
      simp only [hashesBytes, List.length_append, MAX_KEY] at hb
      omega
    rw [hashesBytes_eq, decList_enc hl (fun a _ r => decHash32_enc a r)] at h1
    cases h1
  · obtain ⟨h1, -⟩ := decList_ok canon_hash (mapErr_ok.mp hr)
    right
    rw [bind_err] at h; rcases h with h | ⟨k, hk, h⟩
    · refine ⟨hs, r, by rw [hashesBytes_eq]; exact h1, expl_keySource _ _ ?_ h⟩
      rw [h1] at hb
      simp only [List.length_append] at hb
      omega
    · cases h

theorem expl_dleq : Explained dleqCodec notDleq := by
  intro b e _ h
  simp only [dleqCodec] at h
  split at h
  · cases h
  · rename_i hn; cases h; exact ⟨hn, rfl⟩

/-! ### Trees -/

theorem run_append {sha : Bytes → FixedBytes 32} (a b : List TapLeaf) (br : TapBuilder) :
    br.run sha (a ++ b) = (br.run sha a >>= fun br => br.run sha b) := by
  induction a generalizing br with
  | nil => rfl
  | cons l a ih =>
    simp only [List.cons_append, TapBuilder.run]
    cases h : br.addLeaf sha l with
    | error e => rfl
    | ok br' => simp only [ok_bind, ih]

theorem begins_run {sha : Bytes → FixedBytes 32} {ls : List TapLeaf} (h : Begins ls) : ∃ br, TapBuilder.run sha [] ls = .ok br := by
  obtain ⟨T, hT, r, hr⟩ := h
  have h1 := run_tree sha (T := T) (br := []) (d := 0) (by simp) (by omega) []
  rw [List.append_nil, insert_grow sha (by simp) (by omega), ok_bind, hr, run_append] at h1
  cases h2 : TapBuilder.run sha [] ls with
  | ok br => exact ⟨br, rfl⟩
  | error e => rw [h2] at h1; cases h1

theorem treeLeaf_fun : treeLeaf = encTapLeaf := by
  funext l; unfold treeLeaf encTapLeaf; rw [blob_fun]

theorem decTapLeaves_err {sha : Bytes → FixedBytes 32} {fuel : Nat} {b : Bytes} {br : TapBuilder} {e : SerErr} (hf : b.length ≤ fuel)
    (h : decTapLeaves sha fuel br b = .error e) :
    ∃ ls r br', b = ls.flatMap treeLeaf ++ r ∧ br.run sha ls = .ok br' ∧
    ((r.length = 1 ∧ e = .taproot "Invalid Taproot Builder") ∨
     (∃ d v t c, r = d :: v :: t ∧ BlobFault t c ∧ e = .consensus c) ∨
     (∃ d v s t, r = d :: v :: (blob s ++ t) ∧ (v.toNat % 2 = 1 ∨ v = 0x50) ∧ e = .invalidLeafVersion) ∨
     (∃ l t x, r = treeLeaf l ++ t ∧ br'.addLeaf sha l = .error x ∧ e = .taproot "Tree not in DFS order")) := by
  induction fuel generalizing b br with
  | zero =>
    cases b with
    | nil => cases h
    | cons x y => simp at hf
  | succ fuel ih =>
    match b with
    | [] => cases h
    | [x] => cases h; exact ⟨[], [x], br, rfl, rfl, .inl ⟨rfl, rfl⟩⟩
    | d :: v :: r =>
      simp only [decTapLeaves] at h
      rw [bind_err] at h
      rcases h with h | ⟨⟨s, r1⟩, hs, h⟩
      · obtain ⟨c, h1, rfl⟩ := mapErr_err.mp h
        exact ⟨[], _, br, rfl, rfl, .inr (.inl ⟨d, v, r, c, rfl, decVecFin_err h1, rfl⟩)⟩
      · obtain ⟨h5, -⟩ := decVecFin_ok (mapErr_ok.mp hs)
        rw [encVec_eq] at h5
        simp only at h
        split at h
        · rename_i hv
          cases h
          exact ⟨[], _, br, rfl, rfl, .inr (.inr (.inl ⟨d, v, s, r1, by rw [h5], leafVersion?_none hv, rfl⟩))⟩
        · rename_i lv hlv
          have hv := leafVersion?_some hlv
          have hb : d :: v :: r = treeLeaf ⟨d, lv, s⟩ ++ r1 := by rw [h5, hv]; rfl
          split at h
          · rename_i x hx
            cases h
            exact ⟨[], _, br, rfl, rfl, .inr (.inr (.inr ⟨_, r1, x, hb, hx, rfl⟩))⟩
          · rename_i br1 hbr
            rw [bind_err] at h
            rcases h with h | ⟨y, hy, h⟩
            · have hl : r1.length ≤ fuel := by
                have := congrArg List.length hb
                simp only [List.length_append, List.length_cons, treeLeaf] at this
                simp only [List.length_cons] at hf
                omega
              obtain ⟨ls, r2, br', h1, h2, h3⟩ := ih hl h
              refine ⟨⟨d, lv, s⟩ :: ls, r2, br', ?_, ?_, h3⟩
              · rw [hb, h1]; simp
              · simp only [TapBuilder.run, bind_ok]; exact ⟨_, hbr, h2⟩
            · cases h

theorem expl_tapTree (L : Lib) : Explained (tapTreeCodec L) notTree := by
  intro b e _ h
  simp only [tapTreeCodec] at h
  rw [bind_err] at h
  rcases h with h | ⟨⟨ls, br⟩, hls, h⟩
  · obtain ⟨ls, r, br', h1, h2, h3⟩ := decTapLeaves_err (Nat.le_refl _) h
    refine ⟨ls, r, h1, ?_⟩
    rcases h3 with h3 | h3 | h3 | ⟨l, t, x, h3, h4, h5⟩
    · exact .inl h3
    · exact .inr (.inl h3)
    · exact .inr (.inr (.inl h3))
    · refine .inr (.inr (.inr (.inl ⟨l, t, h3, ?_, h5⟩)))
      intro hb
      obtain ⟨br2, hb⟩ := begins_run (sha := L.sha256) hb
      rw [run_append, h2, ok_bind] at hb
      simp only [TapBuilder.run, h4] at hb
      cases hb
  · obtain ⟨h1, -⟩ := decTapLeaves_ok hls
    simp only at h
    split at h
    · cases h
    · rename_i hn
      cases h
      refine ⟨ls, [], by rw [treeLeaf_fun, List.append_nil]; exact h1, .inr (.inr (.inr (.inr ⟨rfl, ?_, rfl⟩)))⟩
      rintro T hT rfl
      have : L.tapBuild (T.list 0) = some ((T.arrange L.sha256).list 0) := (tapBuildOf_iff L.sha256).mpr ⟨T, hT, rfl, rfl⟩
      rw [this] at hn; cases hn

end Psbt
