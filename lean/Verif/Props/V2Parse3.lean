/- C11, C12: exactly which repeated keys PSBT v2 accepts, and exactly which orders. -/
import Verif.Props.V2Parse2
namespace Psbt.V2
open Psbt

section Helpers

/-- A field that counts as missing while it has the value `z`: every pair but the last gives it this value. -/
theorem sentinel_iff {α ε : Type} {z : α} {step : α → Pair → Except ε α} {dec : Bytes → Option α} {zv : Bytes}
    (h : ∀ f p f', step f p = .ok f' ↔ f = z ∧ dec p.value = some f') (hz : ∀ b, dec b = some z ↔ b = zv) {l : List Pair} {v : α} :
    l.foldlM step z = .ok v ↔ (∃ k, l.map Pair.value = List.replicate k zv ∧ v = z) ∨
      v ≠ z ∧ ∃ k b, l.map Pair.value = List.replicate k zv ++ [b] ∧ dec b = some v := by
  induction l with
  | nil =>
    simp only [List.foldlM_nil, pure, Except.pure, Except.ok.injEq, List.map_nil]
    constructor
    · rintro rfl; exact .inl ⟨0, rfl, rfl⟩
    · rintro (⟨_, _, rfl⟩ | ⟨_, k, b, e, _⟩)
      · rfl
      · simp at e
  | cons p l ih =>
    simp only [List.foldlM_cons, bind_ok, List.map_cons]
    constructor
    · rintro ⟨f, h1, h2⟩
      obtain ⟨-, h1⟩ := (h _ _ _).mp h1
      by_cases hf : dec p.value = some z
      · cases hf.symm.trans h1
        rw [(hz _).mp hf]
        rcases ih.mp h2 with ⟨k, e, rfl⟩ | ⟨hv, k, b, e, hb⟩
        · exact .inl ⟨k + 1, by rw [e]; rfl, rfl⟩
        · exact .inr ⟨hv, k + 1, b, by rw [e]; rfl, hb⟩
      · have hne : f ≠ z := fun e => hf (e ▸ h1)
        cases l with
        | nil => cases h2; exact .inr ⟨hne, 0, p.value, rfl, h1⟩
        | cons q l =>
          simp only [List.foldlM_cons, bind_ok] at h2
          obtain ⟨_, h3, _⟩ := h2
          exact absurd ((h _ _ _).mp h3).1 hne
    · rintro (⟨k, e, rfl⟩ | ⟨hv, k, b, e, hb⟩)
      · cases k with
        | zero => cases e
        | succ k =>
          cases e' : p.value
          all_goals
            rw [List.replicate_succ, List.cons.injEq] at e
            exact ⟨v, (h _ _ _).mpr ⟨rfl, (hz _).mpr e.1⟩, ih.mpr (.inl ⟨k, e.2, rfl⟩)⟩
      · cases k with
        | zero =>
          rw [List.replicate_zero, List.nil_append, List.cons.injEq, List.map_eq_nil_iff] at e
          obtain ⟨rfl, rfl⟩ := e
          exact ⟨v, (h _ _ _).mpr ⟨rfl, hb⟩, rfl⟩
        | succ k =>
          rw [List.replicate_succ, List.cons_append, List.cons.injEq] at e
          exact ⟨z, (h _ _ _).mpr ⟨rfl, (hz _).mpr e.1⟩, ih.mpr (.inr ⟨hv, k, b, e.2, hb⟩)⟩

/-- Lists in which only the last entry may differ from a given one are equal if they have the same entries. -/
theorem replicate_perm {α : Type} {zv : α} {l l' : List α} (hp : l.Perm l')
    (h : (∃ k, l = List.replicate k zv) ∨ ∃ k b, b ≠ zv ∧ l = List.replicate k zv ++ [b])
    (h' : (∃ k, l' = List.replicate k zv) ∨ ∃ k b, b ≠ zv ∧ l' = List.replicate k zv ++ [b]) : l = l' := by
  rcases h with ⟨k, rfl⟩ | ⟨k, b, hb, rfl⟩
  · exact (List.perm_replicate.mp hp.symm).symm
  · rcases h' with ⟨k', rfl⟩ | ⟨k', b', hb', rfl⟩
    · exact List.perm_replicate.mp hp
    · have hl := hp.length_eq
      simp only [List.length_append, List.length_replicate, List.length_singleton] at hl
      have hk : k = k' := by omega
      subst hk
      have hm : b ∈ List.replicate k zv ++ [b'] := hp.mem_iff.mp (by simp)
      rw [List.mem_append, List.mem_singleton] at hm
      rcases hm with hm | rfl
      · exact absurd (List.eq_of_mem_replicate hm) hb
      · rfl

/-- Such a field is read from pairs in another order exactly if their values come in the same order. -/
theorem sentinel_perm {α ε : Type} {z : α} {step : α → Pair → Except ε α} {dec : Bytes → Option α} {zv : Bytes}
    (h : ∀ f p f', step f p = .ok f' ↔ f = z ∧ dec p.value = some f') (hz : ∀ b, dec b = some z ↔ b = zv) {l l' : List Pair}
    (hp : l.Perm l') {v : α} (e : l.foldlM step z = .ok v) :
    (∀ w, l'.foldlM step z = .ok w → l'.map Pair.value = l.map Pair.value) ∧
    (l'.map Pair.value = l.map Pair.value → l'.foldlM step z = .ok v) := by
  constructor
  · intro w e'
    refine (replicate_perm (zv := zv) (hp.map _) ?_ ?_).symm
    · rcases (sentinel_iff h hz).mp e with ⟨k, e, -⟩ | ⟨hv, k, b, e, hb⟩
      · exact .inl ⟨k, e⟩
      · exact .inr ⟨k, b, fun hx => hv (Option.some.inj (hb.symm.trans ((hz _).mpr hx))), e⟩
    · rcases (sentinel_iff h hz).mp e' with ⟨k, e, -⟩ | ⟨hv, k, b, e, hb⟩
      · exact .inl ⟨k, e⟩
      · exact .inr ⟨k, b, fun hx => hv (Option.some.inj (hb.symm.trans ((hz _).mpr hx))), e⟩
  · intro hv
    rw [sentinel_iff h hz] at e ⊢
    rwa [hv]

def valOf {α : Type} (c : Codec α) (b : Bytes) : Option α := (c.deser b).toOption

theorem valOf_some {α : Type} {c : Codec α} {b : Bytes} {v : α} : valOf c b = some v ↔ c.deser b = .ok v := by
  unfold valOf
  cases c.deser b <;> simp [Except.toOption]

theorem txid_step (f : Hash32) (p : Pair) (f' : Hash32) : insTxid f p = .ok f' ↔ f = zeroTxid ∧ valOf (hashCodec 32) p.value = some f' := by
  rw [isSentinel_txid (fun _ => True) _ _ _ trivial, parseVal_some, valOf_some]
theorem vout_step (f : UInt32) (p : Pair) (f' : UInt32) : insVout f p = .ok f' ↔ f = U32_MAX ∧ valOf u32Codec p.value = some f' := by
  rw [isSentinel_vout (fun _ => True) _ _ _ trivial, parseVal_some, valOf_some]
theorem amount_step (f : UInt64) (p : Pair) (f' : UInt64) : insAmount f p = .ok f' ↔ f = 0 ∧ valOf amountCodec p.value = some f' := by
  rw [isSentinel_amount (fun _ => True) _ _ _ trivial, parseVal_some, valOf_some]
theorem spk_step (f : Bytes) (p : Pair) (f' : Bytes) : insSpk f p = .ok f' ↔ f = [] ∧ valOf rawCodec p.value = some f' := by
  rw [isSentinel_spk (fun _ => True) _ _ _ trivial, parseVal_some, valOf_some]

theorem txid_zero (b : Bytes) : valOf (hashCodec 32) b = some zeroTxid ↔ b = List.replicate 32 0 := by
  rw [valOf_some, hashCodec_deser_ok]; exact Iff.rfl
theorem vout_zero (b : Bytes) : valOf u32Codec b = some U32_MAX ↔ b = List.replicate 4 0xff := by
  rw [valOf_some]
  exact ⟨fun h => u32Codec_exact h, fun h => h ▸ rfl⟩
theorem amount_zero (b : Bytes) : valOf amountCodec b = some 0 ↔ b = List.replicate 8 0 := by
  rw [valOf_some]
  exact ⟨fun h => amountCodec_exact h, fun h => h ▸ rfl⟩
theorem spk_zero (b : Bytes) : valOf rawCodec b = some [] ↔ b = [] := by
  rw [valOf_some]; simp [rawCodec]

/-- The pair gives the number `n`, after a key without key data. -/
def CountOf (p : Pair) (n : UInt64) : Prop := p.key.key = [] ∧ ∃ t, p.value = encVar n.toNat ++ t

/-- The counts are read if the output count is the last of these pairs; the input count is the one before. -/
theorem counts_iff {l : List Pair} (ht : ∀ p ∈ l, p.key.ty = 0x04 ∨ p.key.ty = 0x05) {x y : Option UInt64} {b : UInt64} :
    l.foldlM insCounts (x, none) = .ok (y, some b) ↔
      ∃ cs o, l = cs ++ [o] ∧ (∀ c ∈ cs, c.key.ty = 0x04 ∧ ∃ n, CountOf c n) ∧ o.key.ty = 0x05 ∧ CountOf o b ∧
        (cs = [] ∧ y = x ∨ ∃ c0 c n, cs = c0 ++ [c] ∧ CountOf c n ∧ y = some n) := by
  induction l generalizing x with
  | nil =>
    constructor
    · intro h; cases h
    · rintro ⟨cs, o, e, _⟩; simp at e
  | cons p l ih =>
    have ht' : ∀ q ∈ l, q.key.ty = 0x04 ∨ q.key.ty = 0x05 := fun q hq => ht q (List.mem_cons_of_mem _ hq)
    simp only [List.foldlM_cons, bind_ok]
    constructor
    · rintro ⟨c1, h1, h2⟩
      obtain ⟨k1, -, n, k3, rfl⟩ := insCounts_ok.mp h1
      by_cases h4 : p.key.ty = 0x04
      · rw [if_pos h4] at h2
        obtain ⟨cs, o, rfl, e2, e3, e4, e5⟩ := (ih ht').mp h2
        refine ⟨p :: cs, o, rfl, ?_, e3, e4, .inr ?_⟩
        · intro c hc
          rcases List.mem_cons.mp hc with rfl | hc
          · exact ⟨h4, n, k1, k3⟩
          · exact e2 c hc
        · rcases e5 with ⟨rfl, rfl⟩ | ⟨c0, c, m, rfl, e6, e7⟩
          · exact ⟨[], p, n, rfl, ⟨k1, k3⟩, rfl⟩
          · exact ⟨p :: c0, c, m, rfl, e6, e7⟩
      · rw [if_neg h4] at h2
        cases l with
        | nil =>
          cases h2
          exact ⟨[], p, rfl, by simp, (ht p (by simp)).resolve_left h4, ⟨k1, k3⟩, .inl ⟨rfl, rfl⟩⟩
        | cons q l =>
          simp only [List.foldlM_cons, bind_ok] at h2
          obtain ⟨_, h3, _⟩ := h2
          cases (insCounts_ok.mp h3).2.1
    · rintro ⟨cs, o, e1, e2, e3, e4, e5⟩
      cases cs with
      | nil =>
        rw [List.nil_append, List.cons.injEq] at e1
        obtain ⟨rfl, rfl⟩ := e1
        rcases e5 with ⟨-, rfl⟩ | ⟨c0, c, n, e, _⟩
        · exact ⟨(y, some b), insCounts_ok.mpr ⟨e4.1, rfl, b, e4.2, by rw [if_neg (by rw [e3]; decide)]⟩, rfl⟩
        · simp at e
      | cons c cs =>
        rw [List.cons_append, List.cons.injEq] at e1
        obtain ⟨rfl, rfl⟩ := e1
        obtain ⟨k1, n, k2⟩ := e2 p (by simp)
        rcases e5 with ⟨e, _⟩ | ⟨c0, c, m, e, e6, e7⟩
        · cases e
        · cases c0 with
          | nil =>
            rw [List.nil_append, List.cons.injEq] at e
            obtain ⟨rfl, rfl⟩ := e
            exact ⟨(some m, none), insCounts_ok.mpr ⟨e6.1, rfl, m, e6.2, by rw [if_pos k1]⟩,
              (ih ht').mpr ⟨[], o, rfl, by simp, e3, e4, .inl ⟨rfl, e7⟩⟩⟩
          | cons d c0 =>
            rw [List.cons_append, List.cons.injEq] at e
            obtain ⟨rfl, rfl⟩ := e
            exact ⟨(some n, none), insCounts_ok.mpr ⟨k2.1, rfl, n, k2.2, by rw [if_pos k1]⟩,
              (ih ht').mpr ⟨c0 ++ [c], o, rfl, fun q hq => e2 q (List.mem_cons_of_mem _ hq), e3, e4, .inr ⟨c0, c, m, rfl, e6, e7⟩⟩⟩

end Helpers

section
variable {L : Lib} {ps qs : List Pair} {r r' : Bytes}

theorem in_slot_filter (l : List Pair) :
    (inSys L).ofSlot .previousTxid l = l.filter (fun p => decide (p.key.ty = 0x0e)) ∧
    (inSys L).ofSlot .outputIndex l = l.filter (fun p => decide (p.key.ty = 0x0f)) := by
  constructor <;>
  · simp only [SlotSys.ofSlot]
    apply List.filter_congr
    intro p _
    rw [decide_eq_decide]
    first | exact (inSlot_inv L.sp _).1 | exact (inSlot_inv L.sp _).2.1

theorem out_slot_filter (l : List Pair) :
    (outSys L).ofSlot .amount l = l.filter (fun p => decide (p.key.ty = 0x03)) ∧
    (outSys L).ofSlot .script l = l.filter (fun p => decide (p.key.ty = 0x04)) := by
  constructor <;>
  · simp only [SlotSys.ofSlot]
    apply List.filter_congr
    intro p _
    rw [decide_eq_decide]
    first | exact (outSlot_inv L.sp _).1 | exact (outSlot_inv L.sp _).2.1

/-- C11, exactly, for input maps: in an accepted map every previous txid but the last is the placeholder value and the last is not, it
is the one of the result; so it is with the output index. -/
theorem C11_input_exact_partial {i : Input L} (hp : ∀ p ∈ ps, Spec.PairOk p)
    (h : Input.decode L (Spec.mapBytes ps ++ r) = .ok (i, r')) :
    (∃ k, ((ps.filter fun p => decide (p.key.ty = 0x0e)).map Pair.value) = List.replicate k (List.replicate 32 0) ++ [i.previousTxid.1] ∧
      i.previousTxid.1 ≠ List.replicate 32 0) ∧
    (∃ k b, ((ps.filter fun p => decide (p.key.ty = 0x0f)).map Pair.value) = List.replicate k (List.replicate 4 0xff) ++ [b] ∧
      Spec.IsLE32 i.spentOutputIndex b ∧ b ≠ List.replicate 4 0xff) := by
  simp only [mapBytes_fun] at *
  have hp' : ∀ p ∈ ps, PairFits p := fun p hq => (pairFits_iff p).mpr (hp p hq)
  obtain ⟨rfl, -⟩ := Input.decode_pairs hp' h
  rw [Input.decode_of_pairs hp'] at h
  obtain ⟨h1, h2, h3, -⟩ := h
  rw [in_ins, (inSys L).foldlM_iff] at h1
  have ht := h1 .previousTxid
  have hv := h1 .outputIndex
  rw [(in_slot_filter ps).1] at ht
  rw [(in_slot_filter ps).2] at hv
  constructor
  · rcases (sentinel_iff txid_step txid_zero).mp ht with ⟨_, _, e⟩ | ⟨_, k, b, e, hb⟩
    · exact absurd e h2
    · replace hb := hashCodec_deser_ok.mp (valOf_some.mp (show valOf (hashCodec 32) b = some i.previousTxid from hb))
      exact ⟨k, hb ▸ e, fun hx => h2 (Subtype.ext hx)⟩
  · rcases (sentinel_iff vout_step vout_zero).mp hv with ⟨_, _, e⟩ | ⟨_, k, b, e, hb⟩
    · exact absurd e h3
    · refine ⟨k, b, e, ?_, fun hx => h3 (Option.some.inj (hb.symm.trans ((vout_zero _).mpr hx)))⟩
      rw [u32Codec_exact (valOf_some.mp hb)]
      exact isLE32_encU32 _

/-- C11, exactly, for output maps: in an accepted map every amount but the last is zero and the last is not, it is the one of the
result; every script but the last is empty, and the last is the one of the result (which is empty only with silent payments, and
then also if no script is given). -/
theorem C11_output_exact_partial {o : Output L} (hp : ∀ p ∈ ps, Spec.PairOk p)
    (h : Output.decode L (Spec.mapBytes ps ++ r) = .ok (o, r')) :
    (∃ k b, ((ps.filter fun p => decide (p.key.ty = 0x03)).map Pair.value) = List.replicate k (List.replicate 8 0) ++ [b] ∧
      Spec.IsLE64 o.amount b ∧ b ≠ List.replicate 8 0) ∧
    (∃ k, ((ps.filter fun p => decide (p.key.ty = 0x04)).map Pair.value) =
      List.replicate k [] ++ if o.scriptPubkey = [] then [] else [o.scriptPubkey]) ∧
    (L.sp = false → o.scriptPubkey ≠ []) := by
  simp only [mapBytes_fun] at *
  have hp' : ∀ p ∈ ps, PairFits p := fun p hq => (pairFits_iff p).mpr (hp p hq)
  obtain ⟨rfl, -⟩ := Output.decode_pairs hp' h
  rw [Output.decode_of_pairs hp'] at h
  obtain ⟨h1, h2, h3, -⟩ := h
  rw [out_ins, (outSys L).foldlM_iff] at h1
  have ha := h1 .amount
  have hs := h1 .script
  rw [(out_slot_filter ps).1] at ha
  rw [(out_slot_filter ps).2] at hs
  refine ⟨?_, ?_, h3⟩
  · rcases (sentinel_iff amount_step amount_zero).mp ha with ⟨_, _, e⟩ | ⟨_, k, b, e, hb⟩
    · exact absurd e h2
    · refine ⟨k, b, e, ?_, fun hx => h2 (Option.some.inj (hb.symm.trans ((amount_zero _).mpr hx)))⟩
      rw [amountCodec_exact (valOf_some.mp hb)]
      exact isLE64_encU64 _
  · rcases (sentinel_iff spk_step spk_zero).mp hs with ⟨k, e, he⟩ | ⟨hne, k, b, e, hb⟩
    · exact ⟨k, by rw [if_pos (show o.scriptPubkey = [] from he), List.append_nil]; exact e⟩
    · refine ⟨k, ?_⟩
      replace hb := valOf_some.mp (show valOf rawCodec b = some o.scriptPubkey from hb)
      simp only [rawCodec, Except.ok.injEq] at hb
      rw [if_neg (show o.scriptPubkey ≠ [] from hne)]
      rw [hb] at e
      exact e

/-- C12, exactly, for input maps: the pairs of an accepted map in another order are accepted exactly if the previous txids come in
the same order and the output indices too; and then the result is the same. -/
theorem C12_input_exact_partial {i : Input L} (hp : ∀ p ∈ ps, Spec.PairOk p) (hpq : List.Perm ps qs)
    (h : Input.decode L (Spec.mapBytes ps ++ r) = .ok (i, r')) :
    ((∃ x, Input.decode L (Spec.mapBytes qs ++ r) = .ok x) ↔
      ∀ t ∈ [(0x0e : UInt8), 0x0f], (qs.filter fun p => decide (p.key.ty = t)).map Pair.value =
        (ps.filter fun p => decide (p.key.ty = t)).map Pair.value) ∧
    ∀ x, Input.decode L (Spec.mapBytes qs ++ r) = .ok x → x = (i, r') := by
  simp only [mapBytes_fun] at *
  have hp' : ∀ p ∈ ps, PairFits p := fun p hq => (pairFits_iff p).mpr (hp p hq)
  have hq' : ∀ p ∈ qs, PairFits p := fun p hq => hp' p (hpq.mem_iff.mpr hq)
  obtain ⟨rfl, -⟩ := Input.decode_pairs hp' h
  rw [Input.decode_of_pairs hp'] at h
  have h1 := h.1
  rw [in_ins, (inSys L).foldlM_iff] at h1
  have ht := h1 .previousTxid
  have hv := h1 .outputIndex
  rw [(in_slot_filter ps).1] at ht
  rw [(in_slot_filter ps).2] at hv
  have kt := sentinel_perm txid_step txid_zero (hpq.filter fun p : Pair => decide (p.key.ty = 0x0e)) ht
  have kv := sentinel_perm vout_step vout_zero (hpq.filter fun p : Pair => decide (p.key.ty = 0x0f)) hv
  have to : ∀ x, Input.decode L (serializeMap qs ++ r') = .ok x →
      ∀ t ∈ [(0x0e : UInt8), 0x0f], (qs.filter fun p => decide (p.key.ty = t)).map Pair.value =
        (ps.filter fun p => decide (p.key.ty = t)).map Pair.value := by
    rintro ⟨j, s⟩ hx
    obtain ⟨rfl, g1⟩ := Input.decode_pairs hq' hx
    rw [in_ins, (inSys L).foldlM_iff] at g1
    have gt := g1 .previousTxid
    have gv := g1 .outputIndex
    rw [(in_slot_filter qs).1] at gt
    rw [(in_slot_filter qs).2] at gv
    simp only [List.mem_cons, List.not_mem_nil, or_false, forall_eq_or_imp, forall_eq]
    exact ⟨kt.1 _ gt, kv.1 _ gv⟩
  have back : (∀ t ∈ [(0x0e : UInt8), 0x0f], (qs.filter fun p => decide (p.key.ty = t)).map Pair.value =
        (ps.filter fun p => decide (p.key.ty = t)).map Pair.value) → Input.decode L (serializeMap qs ++ r') = .ok (i, r') := by
    intro he
    rw [Input.decode_of_pairs hq']
    refine ⟨?_, h.2⟩
    rw [in_ins, (inSys L).foldlM_iff]
    intro s
    by_cases hs : s = .previousTxid
    · subst hs
      rw [(in_slot_filter qs).1]
      exact kt.2 (he _ (by simp))
    by_cases hs' : s = .outputIndex
    · subst hs'
      rw [(in_slot_filter qs).2]
      exact kv.2 (he _ (by simp))
    refine (in_comm L s).perm (hpq.filter _) ?_ (h1 s)
    intro p hpm
    have hm := (inSys L).mem_ofSlot.mp hpm
    exact ⟨⟨fun e => absurd (hm.2.symm.trans ((inSlot_inv L.sp _).1.mpr e)) hs,
      fun e => absurd (hm.2.symm.trans ((inSlot_inv L.sp _).2.1.mpr e)) hs'⟩, hm.2⟩
  exact ⟨⟨fun ⟨x, hx⟩ => to x hx, fun he => ⟨_, back he⟩⟩, fun x hx => Except.ok.inj (hx.symm.trans (back (to x hx)))⟩

/-- C12, exactly, for output maps: the pairs of an accepted map in another order are accepted exactly if the amounts come in the same
order and the scripts too; and then the result is the same. -/
theorem C12_output_exact_partial {o : Output L} (hp : ∀ p ∈ ps, Spec.PairOk p) (hpq : List.Perm ps qs)
    (h : Output.decode L (Spec.mapBytes ps ++ r) = .ok (o, r')) :
    ((∃ x, Output.decode L (Spec.mapBytes qs ++ r) = .ok x) ↔
      ∀ t ∈ [(0x03 : UInt8), 0x04], (qs.filter fun p => decide (p.key.ty = t)).map Pair.value =
        (ps.filter fun p => decide (p.key.ty = t)).map Pair.value) ∧
    ∀ x, Output.decode L (Spec.mapBytes qs ++ r) = .ok x → x = (o, r') := by
  simp only [mapBytes_fun] at *
  have hp' : ∀ p ∈ ps, PairFits p := fun p hq => (pairFits_iff p).mpr (hp p hq)
  have hq' : ∀ p ∈ qs, PairFits p := fun p hq => hp' p (hpq.mem_iff.mpr hq)
  obtain ⟨rfl, -⟩ := Output.decode_pairs hp' h
  rw [Output.decode_of_pairs hp'] at h
  have h1 := h.1
  rw [out_ins, (outSys L).foldlM_iff] at h1
  have ht := h1 .amount
  have hv := h1 .script
  rw [(out_slot_filter ps).1] at ht
  rw [(out_slot_filter ps).2] at hv
  have kt := sentinel_perm amount_step amount_zero (hpq.filter fun p : Pair => decide (p.key.ty = 0x03)) ht
  have kv := sentinel_perm spk_step spk_zero (hpq.filter fun p : Pair => decide (p.key.ty = 0x04)) hv
  have to : ∀ x, Output.decode L (serializeMap qs ++ r') = .ok x →
      ∀ t ∈ [(0x03 : UInt8), 0x04], (qs.filter fun p => decide (p.key.ty = t)).map Pair.value =
        (ps.filter fun p => decide (p.key.ty = t)).map Pair.value := by
    rintro ⟨j, s⟩ hx
    obtain ⟨rfl, g1⟩ := Output.decode_pairs hq' hx
    rw [out_ins, (outSys L).foldlM_iff] at g1
    have gt := g1 .amount
    have gv := g1 .script
    rw [(out_slot_filter qs).1] at gt
    rw [(out_slot_filter qs).2] at gv
    simp only [List.mem_cons, List.not_mem_nil, or_false, forall_eq_or_imp, forall_eq]
    exact ⟨kt.1 _ gt, kv.1 _ gv⟩
  have back : (∀ t ∈ [(0x03 : UInt8), 0x04], (qs.filter fun p => decide (p.key.ty = t)).map Pair.value =
        (ps.filter fun p => decide (p.key.ty = t)).map Pair.value) → Output.decode L (serializeMap qs ++ r') = .ok (o, r') := by
    intro he
    rw [Output.decode_of_pairs hq']
    refine ⟨?_, h.2⟩
    rw [out_ins, (outSys L).foldlM_iff]
    intro s
    by_cases hs : s = .amount
    · subst hs
      rw [(out_slot_filter qs).1]
      exact kt.2 (he _ (by simp))
    by_cases hs' : s = .script
    · subst hs'
      rw [(out_slot_filter qs).2]
      exact kv.2 (he _ (by simp))
    refine (out_comm L s).perm (hpq.filter _) ?_ (h1 s)
    intro p hpm
    have hm := (outSys L).mem_ofSlot.mp hpm
    exact ⟨⟨fun e => absurd (hm.2.symm.trans ((outSlot_inv L.sp _).1.mpr e)) hs,
      fun e => absurd (hm.2.symm.trans ((outSlot_inv L.sp _).2.1.mpr e)) hs'⟩, hm.2⟩
  exact ⟨⟨fun ⟨x, hx⟩ => to x hx, fun he => ⟨_, back he⟩⟩, fun x hx => Except.ok.inj (hx.symm.trans (back (to x hx)))⟩

theorem gl_slot_filter (l : List Pair) :
    (glSys L).ofSlot .counts l = l.filter (fun p => decide (p.key.ty = 0x04 ∨ p.key.ty = 0x05)) := by
  simp only [SlotSys.ofSlot]
  apply List.filter_congr
  intro p _
  rw [decide_eq_decide]
  exact (glSlot_inv L.sp _).2.2.1

theorem counts_types (l : List Pair) : ∀ p ∈ l.filter (fun p : Pair => decide (p.key.ty = 0x04 ∨ p.key.ty = 0x05)),
    p.key.ty = 0x04 ∨ p.key.ty = 0x05 := fun p hp => by simpa using (List.mem_filter.mp hp).2

theorem gl_counts {a : GlobalAcc L} {g : Global L} (hp : ∀ p ∈ ps, PairFits p)
    (h1 : ps.foldlM GlobalAcc.insertPair (GlobalAcc.start L) = .ok a) (h2 : a.finish = .ok g) :
    (ps.filter fun p => decide (p.key.ty = 0x04 ∨ p.key.ty = 0x05)).foldlM insCounts (none, none) =
      .ok (some g.inputCount, some g.outputCount) := by
  rw [gl_ins, (glSys L).foldlM_iff] at h1
  rw [GlobalAcc.finish_ok] at h2
  have hc := h1 .counts
  rw [gl_slot_filter] at hc
  have e : glGet L .counts a = (some g.inputCount, some g.outputCount) := by rcases h2.1 with rfl | ⟨rfl, -⟩ <;> rfl
  rw [show (glSys L).get .counts a = (some g.inputCount, some g.outputCount) from e] at hc
  exact hc

/-- C11, exactly, for the global map: in an accepted map all input counts come before the output count, of which there is one, and the
last input count is the one of the result. -/
theorem C11_global_exact_partial {g : Global L} (hp : ∀ p ∈ ps, Spec.PairOk p)
    (h : Global.decode L (Spec.mapBytes ps ++ r) = .ok (g, r')) :
    ∃ cs c o, (ps.filter fun p => decide (p.key.ty = 0x04 ∨ p.key.ty = 0x05)) = cs ++ [c, o] ∧
      (∀ q ∈ cs ++ [c], q.key = ⟨0x04, []⟩) ∧ o.key = ⟨0x05, []⟩ ∧
      (∃ s t, c.value = s ++ t ∧ Spec.IsCompactSize g.inputCount.toNat s) ∧
      ∃ s t, o.value = s ++ t ∧ Spec.IsCompactSize g.outputCount.toNat s := by
  simp only [mapBytes_fun] at *
  have hp' : ∀ p ∈ ps, PairFits p := fun p hq => (pairFits_iff p).mpr (hp p hq)
  obtain ⟨rfl, a, h1, h2⟩ := Global.decode_pairs hp' h
  obtain ⟨cs, o, e1, e2, e3, e4, e5⟩ := (counts_iff (counts_types ps)).mp (gl_counts hp' h1 h2)
  rcases e5 with ⟨_, e⟩ | ⟨c0, c, n, rfl, e6, e7⟩
  · cases e
  · cases e7
    obtain ⟨t, ht⟩ := e4.2
    obtain ⟨t', ht'⟩ := e6.2
    refine ⟨c0, c, o, by rw [e1, List.append_assoc]; rfl, ?_, key_eta e3 e4.1, ⟨_, t', ht', isCompactSize_encVar (UInt64.toNat_lt _)⟩,
      ⟨_, t, ht, isCompactSize_encVar (UInt64.toNat_lt _)⟩⟩
    intro q hq
    obtain ⟨k1, n, k2⟩ := e2 q hq
    exact key_eta k1 k2.1

/-- C12, exactly, for the global map: the pairs of an accepted map in another order are accepted exactly if the output count comes after
all input counts; and then the result is the same, but for the input count, if it was given several times. -/
theorem C12_global_exact_partial {g : Global L} (hp : ∀ p ∈ ps, Spec.PairOk p) (hpq : List.Perm ps qs)
    (h : Global.decode L (Spec.mapBytes ps ++ r) = .ok (g, r')) :
    ((∃ x, Global.decode L (Spec.mapBytes qs ++ r) = .ok x) ↔
      ∃ cs o, (qs.filter fun p => decide (p.key.ty = 0x04 ∨ p.key.ty = 0x05)) = cs ++ [o] ∧ o.key.ty = 0x05) ∧
    (∀ x, Global.decode L (Spec.mapBytes qs ++ r) = .ok x → x = ({ g with inputCount := x.1.inputCount }, r')) ∧
    ((∀ p ∈ ps, ∀ q ∈ ps, p.key.ty = 0x04 → q.key.ty = 0x04 → p.value = q.value) →
      ∀ x, Global.decode L (Spec.mapBytes qs ++ r) = .ok x → x = (g, r')) := by
  simp only [mapBytes_fun] at *
  have hp' : ∀ p ∈ ps, PairFits p := fun p hq => (pairFits_iff p).mpr (hp p hq)
  have hq' : ∀ p ∈ qs, PairFits p := fun p hq => hp' p (hpq.mem_iff.mpr hq)
  obtain ⟨rfl, a, h1, h2⟩ := Global.decode_pairs hp' h
  obtain ⟨cs, o, e1, e2, e3, e4, e5⟩ := (counts_iff (counts_types ps)).mp (gl_counts hp' h1 h2)
  obtain ⟨c0, c, rfl, e6⟩ : ∃ c0 c, cs = c0 ++ [c] ∧ CountOf c g.inputCount := by
    rcases e5 with ⟨_, e⟩ | ⟨c0, c, n, rfl, e6, e7⟩
    · cases e
    · cases e7; exact ⟨c0, c, rfl, e6⟩
  have hf := hpq.filter fun p : Pair => decide (p.key.ty = 0x04 ∨ p.key.ty = 0x05)
  rw [e1] at hf
  -- what another order gives
  have only : ∀ q ∈ c0 ++ [c] ++ [o], q.key.ty = 0x05 → q = o := by
    intro q hq h5
    rcases List.mem_append.mp hq with hq | hq
    · rw [(e2 q hq).1] at h5; exact absurd h5 (by decide)
    · simpa using hq
  have back : ∀ ds d, (qs.filter fun p => decide (p.key.ty = 0x04 ∨ p.key.ty = 0x05)) = ds ++ [d] → d.key.ty = 0x05 →
      ∃ n, (∃ q ∈ ps, q.key.ty = 0x04 ∧ CountOf q n) ∧ Global.decode L (serializeMap qs ++ r') = .ok ({ g with inputCount := n }, r') := by
    intro ds d he hd
    rw [he] at hf
    have hdo : d = o := only d (hf.mem_iff.mpr (by simp)) hd
    subst hdo
    have hds : (c0 ++ [c]).Perm ds := (List.perm_append_right_iff [d]).mp hf
    have h4 : ∀ q ∈ ds, q.key.ty = 0x04 ∧ ∃ n, CountOf q n := fun q hq => e2 q (hds.mem_iff.mpr hq)
    rcases List.eq_nil_or_concat ds with rfl | ⟨d0, c', rfl⟩
    · have := hds.length_eq; simp at this
    · obtain ⟨hc4, n, hn⟩ := h4 c' (by simp)
      have hmem : c' ∈ ps := by
        have : c' ∈ ps.filter fun p => decide (p.key.ty = 0x04 ∨ p.key.ty = 0x05) := by
          rw [e1]; exact List.mem_append_left _ (hds.mem_iff.mpr (by simp))
        exact (List.mem_filter.mp this).1
      refine ⟨n, ⟨c', hmem, hc4, hn⟩, ?_⟩
      rw [Global.decode_of_pairs hq']
      refine ⟨{ a with counts := (some n, some g.outputCount) }, ?_, ?_⟩
      · have h1' := h1
        rw [gl_ins, (glSys L).foldlM_iff] at h1' ⊢
        intro s
        by_cases hs : s = .counts
        · subst hs
          rw [gl_slot_filter]
          exact (counts_iff (counts_types qs)).mpr ⟨d0 ++ [c'], d, by simpa using he, fun q hq => h4 q (by simpa using hq), e3, e4,
            .inr ⟨d0, c', n, rfl, hn, rfl⟩⟩
        · have hk := (gl_comm L s hs).perm (hpq.filter _) (fun p hpm => ⟨trivial, ((glSys L).mem_ofSlot.mp hpm).2⟩) (h1' s)
          refine hk.trans ?_
          cases s <;> first | rfl | exact absurd rfl hs
      · rw [GlobalAcc.finish_ok] at h2 ⊢
        refine ⟨?_, h2.2⟩
        rcases h2.1 with rfl | ⟨rfl, hm⟩
        · exact .inl rfl
        · exact .inr ⟨rfl, hm⟩
  have to : ∀ x, Global.decode L (serializeMap qs ++ r') = .ok x →
      ∃ cs o, (qs.filter fun p => decide (p.key.ty = 0x04 ∨ p.key.ty = 0x05)) = cs ++ [o] ∧ o.key.ty = 0x05 := by
    rintro ⟨g', s⟩ hx
    obtain ⟨rfl, a', k1, k2⟩ := Global.decode_pairs hq' hx
    obtain ⟨ds, d, f1, _, f3, _⟩ := (counts_iff (counts_types qs)).mp (gl_counts hq' k1 k2)
    exact ⟨ds, d, f1, f3⟩
  refine ⟨⟨fun ⟨x, hx⟩ => to x hx, fun ⟨ds, d, h3, h4⟩ => ?_⟩, fun x hx => ?_, fun hs x hx => ?_⟩
  · obtain ⟨n, -, hb⟩ := back ds d h3 h4
    exact ⟨_, hb⟩
  · obtain ⟨ds, d, h3, h4⟩ := to x hx
    obtain ⟨n, -, hb⟩ := back ds d h3 h4
    cases hx.symm.trans hb
    rfl
  · obtain ⟨ds, d, h3, h4⟩ := to x hx
    obtain ⟨n, ⟨q, hq, hq4, -, t, ht⟩, hb⟩ := back ds d h3 h4
    have hc : c ∈ ps := by
      have : c ∈ ps.filter fun p => decide (p.key.ty = 0x04 ∨ p.key.ty = 0x05) := by rw [e1]; simp
      exact (List.mem_filter.mp this).1
    obtain ⟨t', ht'⟩ := e6.2
    have he := hs q hq c hc hq4 (e2 c (by simp)).1
    rw [ht, ht'] at he
    have : n = g.inputCount := by
      have d1 := decVar_enc n.toNat_lt t
      rw [he, decVar_enc g.inputCount.toNat_lt t', Except.ok.injEq, Prod.mk.injEq] at d1
      exact UInt64.toNat_inj.mp d1.1.symm
    subst this
    exact Except.ok.inj (hx.symm.trans hb)

end

/-! Maps that are accepted although a key is repeated. -/

def rkIn : List Pair := [⟨⟨0x0e, []⟩, List.replicate 32 0⟩, ⟨⟨0x10, []⟩, [9, 0, 0, 0]⟩, ⟨⟨0x0e, []⟩, List.replicate 32 1⟩, ⟨⟨0x0f, []⟩, [0, 0, 0, 0]⟩]
def rkIn' : List Pair := [⟨⟨0x0f, []⟩, [0, 0, 0, 0]⟩, ⟨⟨0x0e, []⟩, List.replicate 32 0⟩, ⟨⟨0x0e, []⟩, List.replicate 32 1⟩, ⟨⟨0x10, []⟩, [9, 0, 0, 0]⟩]
def rkOut : List Pair := [⟨⟨0x03, []⟩, List.replicate 8 0⟩, ⟨⟨0x03, []⟩, [1, 0, 0, 0, 0, 0, 0, 0]⟩, ⟨⟨0x04, []⟩, []⟩, ⟨⟨0x04, []⟩, [0x51]⟩]
def rkGl : List Pair := [⟨⟨0xFB, []⟩, [2, 0, 0, 0]⟩, ⟨⟨0x04, []⟩, [1]⟩, ⟨⟨0x02, []⟩, [2, 0, 0, 0]⟩, ⟨⟨0x04, []⟩, [3]⟩, ⟨⟨0x05, []⟩, [0]⟩]
def rkGl' : List Pair := [⟨⟨0x04, []⟩, [3]⟩, ⟨⟨0x04, []⟩, [1]⟩, ⟨⟨0x05, []⟩, [0]⟩, ⟨⟨0xFB, []⟩, [2, 0, 0, 0]⟩, ⟨⟨0x02, []⟩, [2, 0, 0, 0]⟩]

theorem rkIn_ok : ∃ i, Input.decode (Demo.lib false) (Spec.mapBytes rkIn ++ []) = .ok (i, []) :=
  ⟨{ Input.placeholder (Demo.lib false) with previousTxid := Demo.rep 32 1, spentOutputIndex := 0, sequence := some 9 }, by decide +kernel⟩
theorem rkOut_ok : ∃ o, Output.decode (Demo.lib false) (Spec.mapBytes rkOut ++ []) = .ok (o, []) :=
  ⟨{ Output.placeholder (Demo.lib false) with amount := 1, scriptPubkey := [0x51] }, by decide +kernel⟩
theorem rkGl_ok : Global.decode (Demo.lib false) (Spec.mapBytes rkGl ++ []) =
    .ok ({ Global.new (Demo.lib false) with inputCount := 3, outputCount := 0 }, []) := by decide +kernel

theorem rk_pairOk : (∀ p ∈ rkIn, Spec.PairOk p) ∧ (∀ p ∈ rkOut, Spec.PairOk p) ∧ ∀ p ∈ rkGl, Spec.PairOk p := by
  unfold Spec.PairOk
  decide +kernel

-- Another order that keeps the txids in theirs gives the same input, the order with the txids swapped is refused.
example : ∃ i, Input.decode (Demo.lib false) (Spec.mapBytes rkIn ++ []) = .ok (i, []) ∧
    Input.decode (Demo.lib false) (Spec.mapBytes rkIn' ++ []) = .ok (i, []) ∧
    ∀ x, Input.decode (Demo.lib false) (Spec.mapBytes rkIn.reverse ++ []) ≠ .ok x := by
  obtain ⟨i, h⟩ := rkIn_ok
  refine ⟨i, h, ?_, fun x hx => ?_⟩
  · have k := C12_input_exact_partial (qs := rkIn') rk_pairOk.1 (by decide) h
    obtain ⟨x, hx⟩ := k.1.mpr (by decide)
    rw [hx, k.2 x hx]
  · exact absurd ((C12_input_exact_partial (qs := rkIn.reverse) rk_pairOk.1 (List.reverse_perm _).symm h).1.mp ⟨x, hx⟩) (by decide)
example : ∃ o, Output.decode (Demo.lib false) (Spec.mapBytes rkOut ++ []) = .ok (o, []) ∧
    ∀ x, Output.decode (Demo.lib false) (Spec.mapBytes rkOut.reverse ++ []) ≠ .ok x := by
  obtain ⟨o, h⟩ := rkOut_ok
  refine ⟨o, h, fun x hx => ?_⟩
  exact absurd ((C12_output_exact_partial (qs := rkOut.reverse) rk_pairOk.2.1 (List.reverse_perm _).symm h).1.mp ⟨x, hx⟩) (by decide)
-- Input counts in another order: accepted, with the other count.
example : ∃ x, Global.decode (Demo.lib false) (Spec.mapBytes rkGl' ++ []) = .ok x :=
  (C12_global_exact_partial (qs := rkGl') rk_pairOk.2.2 (by decide) rkGl_ok).1.mpr ⟨[⟨⟨0x04, []⟩, [3]⟩, ⟨⟨0x04, []⟩, [1]⟩], _, rfl, rfl⟩
example : Global.decode (Demo.lib false) (Spec.mapBytes rkGl' ++ []) =
    .ok ({ Global.new (Demo.lib false) with inputCount := 1, outputCount := 0 }, []) := by decide +kernel
example := C11_global_exact_partial rk_pairOk.2.2 rkGl_ok
example : ∃ i : Input (Demo.lib false), ∃ k, ((rkIn.filter fun p => decide (p.key.ty = 0x0e)).map Pair.value) =
    List.replicate k (List.replicate 32 0) ++ [i.previousTxid.1] := by
  obtain ⟨i, h⟩ := rkIn_ok
  obtain ⟨⟨k, e, _⟩, _⟩ := C11_input_exact_partial rk_pairOk.1 h
  exact ⟨i, k, e⟩
example : ∃ k b, ((rkOut.filter fun p => decide (p.key.ty = 0x03)).map Pair.value) = List.replicate k (List.replicate 8 0) ++ [b] := by
  obtain ⟨o, h⟩ := rkOut_ok
  obtain ⟨⟨k, b, e, _⟩, _⟩ := C11_output_exact_partial rk_pairOk.2.1 h
  exact ⟨k, b, e⟩

/-- C16, exactly: parsing panics if and only if the magic bytes and the global map are read, and the announced number of inputs needs
2^63 bytes or more, or the inputs are read and the announced number of outputs does. -/
theorem C16_panics_iff_partial (L : Lib) (b : Bytes) :
    (∃ why, Psbt.deserialize L b = .error (.panic why)) ↔
      ∃ d g r, b = [0x70, 0x73, 0x62, 0x74, 0xff] ++ d ∧ Global.decode L d = .ok (g, r) ∧
        (2 ^ 63 ≤ g.inputCount.toNat * L.inputSize ∨
          (∃ x, decodeN (Input.decode L) g.inputCount.toNat r = .ok x) ∧ 2 ^ 63 ≤ g.outputCount.toNat * L.outputSize) := by
  constructor
  · rintro ⟨why, h⟩
    have hb : ∃ d, b = [0x70, 0x73, 0x62, 0x74, 0xff] ++ d := by
      unfold Psbt.deserialize at h
      split at h
      · cases h
      · rename_i h1
        split at h
        · cases h
        · rename_i h2
          simp only [ne_eq, Decidable.not_not] at h1 h2
          refine ⟨b.drop 5, ?_⟩
          have e := List.take_append_drop 4 b
          have e5 : b.drop 4 = 0xff :: b.drop 5 := by
            obtain ⟨hl, e6⟩ := List.getElem?_eq_some_iff.mp h2
            rw [List.drop_eq_getElem_cons hl, e6]
          rw [h1, e5] at e
          exact e.symm
    obtain ⟨d, rfl⟩ := hb
    revert h
    unfold Psbt.deserialize
    rw [if_neg (by simp [MAGIC]), if_neg (by simp)]
    simp only [orFail, show List.drop 5 ([0x70, 0x73, 0x62, 0x74, 0xff] ++ d) = d from rfl]
    cases hg : Global.decode L d with
    | error e => intro h; cases h
    | ok x =>
      simp only [mapErr_of_ok, ok_bind]
      split
      · rename_i hc
        intro _
        rw [capacityOverflow_iff] at hc
        exact ⟨d, x.1, x.2, rfl, hg, .inl (by omega)⟩
      · cases hi : decodeN (Input.decode L) x.1.inputCount.toNat x.2 with
        | error e => intro h; cases h
        | ok y =>
          simp only [mapErr_of_ok, ok_bind]
          split
          · rename_i hc
            intro _
            rw [capacityOverflow_iff] at hc
            exact ⟨d, x.1, x.2, rfl, hg, .inr ⟨⟨y, hi⟩, by omega⟩⟩
          · cases decodeN (Output.decode L) x.1.outputCount.toNat y.2 with
            | error e => intro h; cases h
            | ok z => intro h; cases h
  · rintro ⟨d, g, r, rfl, hg, h⟩
    refine ⟨"capacity overflow", ?_⟩
    unfold Psbt.deserialize
    rw [if_neg (by simp [MAGIC]), if_neg (by simp)]
    simp only [orFail, show List.drop 5 ([0x70, 0x73, 0x62, 0x74, 0xff] ++ d) = d from rfl, hg, mapErr_of_ok, ok_bind]
    split
    · rfl
    · rename_i hc
      rw [capacityOverflow_iff] at hc
      rcases h with h | ⟨⟨y, hy⟩, h⟩
      · exact absurd h (by omega)
      · simp only [hy, mapErr_of_ok, ok_bind]
        rw [if_pos ((capacityOverflow_iff _ _).mpr (by omega))]

example : ∃ why, Psbt.deserialize (Demo.lib false) ([0x70, 0x73, 0x62, 0x74, 0xff] ++ Spec.mapBytes
    [⟨⟨0xFB, []⟩, [2, 0, 0, 0]⟩, ⟨⟨0x02, []⟩, [2, 0, 0, 0]⟩, ⟨⟨0x04, []⟩, [0]⟩, ⟨⟨0x05, []⟩, [0xff, 0, 0, 0, 0, 0, 0, 0, 0x80]⟩]) =
      .error (.panic why) :=
  (C16_panics_iff_partial _ _).mpr ⟨_, { Global.new (Demo.lib false) with inputCount := 0, outputCount := 0x8000000000000000 }, [], rfl,
    by decide +kernel, .inr ⟨⟨([], []), rfl⟩, by decide⟩⟩

end Psbt.V2
