/- C122: programs with and without silent payment support combine PSBTs v2 alike. -/
import Verif.Spec.FeatureCombine
import Verif.Props.Feature
import Verif.Lemmas.Combine
namespace Psbt.V2
open Psbt Psbt.Spec

variable {L : Lib} {n m : Nat}

theorem withRecords_extend {u v : BMap RawKey Bytes} {ra rb rc : List (RawKey × Bytes)} {e d : UInt8}
    (hu : Clear u e d) (hv : Clear v e d) (ka : (ra.map Prod.fst).Nodup ∧ ∀ k ∈ ra.map Prod.fst, k.ty = e ∨ k.ty = d)
    (kb : (rb.map Prod.fst).Nodup ∧ ∀ k ∈ rb.map Prod.fst, k.ty = e ∨ k.ty = d)
    (kc : (rc.map Prod.fst).Nodup ∧ ∀ k ∈ rc.map Prod.fst, k.ty = e ∨ k.ty = d)
    (h : ∀ k x, (k, x) ∈ rc ↔ (k, x) ∈ rb ∨ ((k, x) ∈ ra ∧ ∀ y, (k, y) ∉ rb)) :
    withRecords (u.extend v) rc = (withRecords u ra).extend (withRecords v rb) := by
  have hw : Clear (u.extend v) e d := by
    intro k x hk
    rw [BMap.get_extend, Option.or_eq_some_iff] at hk
    rcases hk with hk | ⟨-, hk⟩
    · exact hv k x hk
    · exact hu k x hk
  have na : ∀ k x, (k, x) ∈ ra → v.get k = none := fun k x hx => hv.none ka.2 k (mem_keys hx)
  have nb : ∀ k x, (k, x) ∈ rb → u.get k = none := fun k x hx => hu.none kb.2 k (mem_keys hx)
  have wv : ∀ k, (withRecords v rb).get k = none ↔ (∀ y, (k, y) ∉ rb) ∧ v.get k = none := by
    intro k
    constructor
    · intro hk
      constructor
      · intro y hy
        rw [(withRecords_mem kb.1 (hv.none kb.2)).mpr (.inl hy)] at hk; cases hk
      · cases hg : v.get k with
        | none => rfl
        | some y => rw [(withRecords_mem kb.1 (hv.none kb.2)).mpr (.inr hg)] at hk; cases hk
    · rintro ⟨h1, h2⟩
      cases hg : (withRecords v rb).get k with
      | none => rfl
      | some y =>
        rcases (withRecords_mem kb.1 (hv.none kb.2)).mp hg with hm | hm
        · exact absurd hm (h1 y)
        · rw [h2] at hm; cases hm
  refine BMap.ext_get fun k => Option.ext fun x => ?_
  rw [withRecords_mem kc.1 (hw.none kc.2), BMap.get_extend, BMap.get_extend, Option.or_eq_some_iff, Option.or_eq_some_iff,
    withRecords_mem kb.1 (hv.none kb.2), withRecords_mem ka.1 (hu.none ka.2), wv, h]
  constructor
  · rintro ((h1 | ⟨h1, h2⟩) | (h1 | ⟨h1, h2⟩))
    · exact .inl (.inl h1)
    · exact .inr ⟨⟨h2, na k x h1⟩, .inl h1⟩
    · exact .inl (.inr h1)
    · exact .inr ⟨⟨fun y hy => (by rw [nb k y hy] at h2; cases h2), h1⟩, .inr h2⟩
  · rintro ((h1 | h1) | ⟨⟨h1, h2⟩, (h3 | h3)⟩)
    · exact .inl (.inl h1)
    · exact .inr (.inl h1)
    · exact .inl (.inr ⟨h3, h1⟩)
    · exact .inr (.inr ⟨h2, h3⟩)

theorem share_mem {e d : UInt8} {s : BMap L.compressed.T L.compressed.T} {t : BMap L.compressed.T (FixedBytes 64)} {k : RawKey}
    {x : Bytes} : (k, x) ∈ shareRecords e s ++ proofRecords d t ↔
      (∃ y z, k = ⟨e, y.bytes⟩ ∧ x = z.bytes ∧ s.get y = some z) ∨ ∃ y z, k = ⟨d, y.bytes⟩ ∧ x = z.1 ∧ t.get y = some z := by
  unfold shareRecords proofRecords
  rw [List.mem_append, List.mem_map, List.mem_map]
  constructor
  · rintro (⟨⟨y, z⟩, hm, h⟩ | ⟨⟨y, z⟩, hm, h⟩)
    · cases h; exact .inl ⟨y, z, rfl, rfl, BMap.mem_iff_get.mp hm⟩
    · cases h; exact .inr ⟨y, z, rfl, rfl, BMap.mem_iff_get.mp hm⟩
  · rintro (⟨y, z, rfl, rfl, h⟩ | ⟨y, z, rfl, rfl, h⟩)
    · exact .inl ⟨(y, z), BMap.mem_iff_get.mpr h, rfl⟩
    · exact .inr ⟨(y, z), BMap.mem_iff_get.mpr h, rfl⟩

theorem share_extend {e d : UInt8} (hed : e ≠ d) (s s' : BMap L.compressed.T L.compressed.T)
    (t t' : BMap L.compressed.T (FixedBytes 64)) (k : RawKey) (x : Bytes) :
    (k, x) ∈ shareRecords e (s.extend s') ++ proofRecords d (t.extend t') ↔
      (k, x) ∈ shareRecords e s' ++ proofRecords d t' ∨
      ((k, x) ∈ shareRecords e s ++ proofRecords d t ∧ ∀ y, (k, y) ∉ shareRecords e s' ++ proofRecords d t') := by
  simp only [share_mem]
  constructor
  · rintro (⟨y, z, rfl, rfl, h⟩ | ⟨y, z, rfl, rfl, h⟩)
    · rw [BMap.get_extend, Option.or_eq_some_iff] at h
      rcases h with h | ⟨h0, h⟩
      · exact .inl (.inl ⟨y, z, rfl, rfl, h⟩)
      · refine .inr ⟨.inl ⟨y, z, rfl, rfl, h⟩, ?_⟩
        rintro w (⟨y', z', e1, -, h'⟩ | ⟨y', z', e1, -, h'⟩)
        · injection e1 with _ e1
          rw [← Foreign.T.ext' e1, h0] at h'; cases h'
        · injection e1 with e1 _; exact hed e1
    · rw [BMap.get_extend, Option.or_eq_some_iff] at h
      rcases h with h | ⟨h0, h⟩
      · exact .inl (.inr ⟨y, z, rfl, rfl, h⟩)
      · refine .inr ⟨.inr ⟨y, z, rfl, rfl, h⟩, ?_⟩
        rintro w (⟨y', z', e1, -, h'⟩ | ⟨y', z', e1, -, h'⟩)
        · injection e1 with e1 _; exact hed e1.symm
        · injection e1 with _ e1
          rw [← Foreign.T.ext' e1, h0] at h'; cases h'
  · rintro ((⟨y, z, rfl, rfl, h⟩ | ⟨y, z, rfl, rfl, h⟩) | ⟨(⟨y, z, rfl, rfl, h⟩ | ⟨y, z, rfl, rfl, h⟩), hn⟩)
    · exact .inl ⟨y, z, rfl, rfl, by rw [BMap.get_extend, h]; rfl⟩
    · exact .inr ⟨y, z, rfl, rfl, by rw [BMap.get_extend, h]; rfl⟩
    · refine .inl ⟨y, z, rfl, rfl, ?_⟩
      rw [BMap.get_extend, Option.or_eq_some_iff]
      refine .inr ⟨?_, h⟩
      cases hg : s'.get y with
      | none => rfl
      | some w => exact (hn _ (.inl ⟨y, w, rfl, rfl, hg⟩)).elim
    · refine .inr ⟨y, z, rfl, rfl, ?_⟩
      rw [BMap.get_extend, Option.or_eq_some_iff]
      refine .inr ⟨?_, h⟩
      cases hg : t'.get y with
      | none => rfl
      | some w => exact (hn _ (.inr ⟨y, w, rfl, rfl, hg⟩)).elim

theorem plainGlobal_combine (hs : L.sp = true) {a b : Global L} (ha : Spec.GlobalWF a) (hb : Spec.GlobalWF b) :
    (∀ c, a.combine b = .ok c → (plainGlobal n m a).combine (plainGlobal n m b) = .ok (plainGlobal n m c)) ∧
    ∀ d, (plainGlobal n m a).combine (plainGlobal n m b) = .ok d → ∃ c, a.combine b = .ok c := by
  have ca := ((globalWF_iff (n := n) (m := m) hs).mp ha).2.1
  have cb := ((globalWF_iff (n := n) (m := m) hs).mp hb).2.1
  constructor
  · intro c h
    obtain ⟨h1, h2, h3, h4⟩ := globalCombine_ok.mp h
    refine globalCombine_ok.mpr ⟨h1, h2, h3, ?_⟩
    rw [h4]
    unfold plainGlobal
    congr 1
    · exact withRecords_extend ca cb (spRecords_keys (by decide) _ _) (spRecords_keys (by decide) _ _)
        (spRecords_keys (by decide) _ _) (share_extend (by decide) _ _ _ _)
  · intro d h
    obtain ⟨h1, h2, h3, -⟩ := globalCombine_ok.mp h
    exact ⟨{ a with
        xpubs := d.xpubs
        spEcdhShares := a.spEcdhShares.extend b.spEcdhShares
        spDleqProofs := a.spDleqProofs.extend b.spDleqProofs
        proprietaries := a.proprietaries.extend b.proprietaries
        unknowns := a.unknowns.extend b.unknowns }, globalCombine_ok.mpr ⟨h1, h2, h3, rfl⟩⟩

theorem extend_mapTo {K V W : Type} [OrdKey K] [DecidableEq K] (f : V → W) (s t : BMap K V) :
    mapTo f (s.extend t) = (mapTo f s).extend (mapTo f t) := by
  have hg : ∀ (s : BMap K V) k, (mapTo f s).get k = (s.get k).map f := by
    intro s k
    refine Option.ext fun x => ?_
    rw [← BMap.mem_iff_get, Option.map_eq_some_iff]
    unfold mapTo
    rw [List.mem_map]
    constructor
    · rintro ⟨⟨k', v⟩, hm, h⟩
      cases h
      exact ⟨v, BMap.mem_iff_get.mp hm, rfl⟩
    · rintro ⟨v, hv, rfl⟩
      exact ⟨(k, v), BMap.mem_iff_get.mpr hv, rfl⟩
  refine BMap.ext_get fun k => ?_
  rw [hg, BMap.get_extend, BMap.get_extend, hg, hg]
  cases t.get k <;> rfl

theorem plainInput_combine (hs : L.sp = true) {a b : Input L} (ha : Spec.InputWF a) (hb : Spec.InputWF b) :
    (∀ c, a.combine b = .ok c → (plainInput n m a).combine (plainInput n m b) = .ok (plainInput n m c)) ∧
    ∀ d, (plainInput n m a).combine (plainInput n m b) = .ok d → ∃ c, a.combine b = .ok c := by
  have ca := ((inputWF_iff (n := n) (m := m) hs).mp ha).2.1
  have cb := ((inputWF_iff (n := n) (m := m) hs).mp hb).2.1
  constructor
  · intro c h
    obtain ⟨h1, h2, rfl⟩ := inputCombine_ok.mp h
    refine inputCombine_ok.mpr ⟨h1, h2, ?_⟩
    unfold plainInput Input.merge
    congr 1
    · exact extend_mapTo _ _ _
    · exact withRecords_extend ca cb (spRecords_keys (by decide) _ _) (spRecords_keys (by decide) _ _)
        (spRecords_keys (by decide) _ _) (share_extend (by decide) _ _ _ _)
  · intro d h
    obtain ⟨h1, h2, -⟩ := inputCombine_ok.mp h
    exact ⟨_, inputCombine_ok.mpr ⟨h1, h2, rfl⟩⟩

theorem address_mem {i : Option Bytes} {l : Option UInt32} {k : RawKey} {x : Bytes} : (k, x) ∈ addressRecords i l ↔
    (k = ⟨0x09, []⟩ ∧ i = some x) ∨ ∃ v, k = ⟨0x0A, []⟩ ∧ x = le32 v ∧ l = some v := by
  unfold addressRecords
  cases i <;> cases l <;> simp [eq_comm]

theorem address_combine {i j : Option Bytes} {l r : Option UInt32} (hi : ∀ x y, i = some x → j = some y → x = y)
    (hl : ∀ x y, l = some x → r = some y → x = y) (k : RawKey) (x : Bytes) :
    (k, x) ∈ addressRecords (combOpt i j) (combOpt l r) ↔
      (k, x) ∈ addressRecords j r ∨ ((k, x) ∈ addressRecords i l ∧ ∀ y, (k, y) ∉ addressRecords j r) := by
  have ne : (⟨0x09, []⟩ : RawKey) ≠ ⟨0x0A, []⟩ := by decide
  simp only [address_mem]
  by_cases h9 : k = ⟨0x09, []⟩
  · subst h9
    simp only [true_and, ne, false_and, exists_false, or_false]
    cases i <;> cases j <;> simp [combOpt]
    rw [hi _ _ rfl rfl]
  · by_cases hA : k = ⟨0x0A, []⟩
    · subst hA
      simp only [ne.symm, false_and, false_or, true_and]
      cases l <;> cases r <;> simp [combOpt]
      rw [hl _ _ rfl rfl]
    · simp [h9, hA]

theorem combOpt_map {α β : Type} (f : α → β) (a b : Option α) : (combOpt a b).map f = combOpt (a.map f) (b.map f) := by
  cases a <;> cases b <;> rfl

theorem plainOutput_combine (hs : L.sp = true) {a b : Output L} (ha : Spec.OutputWF a) (hb : Spec.OutputWF b) :
    (SameAddress a b → ∀ c, a.combine b = .ok c → (plainOutput n m a).combine (plainOutput n m b) = .ok (plainOutput n m c)) ∧
    ((∃ c, a.combine b = .ok c) ↔ ∃ d, (plainOutput n m a).combine (plainOutput n m b) = .ok d) := by
  have ca : Clear a.unknowns 0x09 0x0A := fun k v hg => (types_output.mp (hs ▸ ha.unknowns k v hg)).2
  have cb : Clear b.unknowns 0x09 0x0A := fun k v hg => (types_output.mp (hs ▸ hb.unknowns k v hg)).2
  constructor
  · intro hsame c h
    obtain ⟨h1, h2, rfl⟩ := outputCombine_ok.mp h
    refine outputCombine_ok.mpr ⟨h1, h2, ?_⟩
    unfold plainOutput Output.merge
    congr 1
    · exact combOpt_map _ _ _
    · exact withRecords_extend ca cb (addressRecords_keys _ _) (addressRecords_keys _ _)
        (addressRecords_keys _ _) (address_combine hsame.1 hsame.2)
  · constructor
    · rintro ⟨c, h⟩
      obtain ⟨h1, h2, -⟩ := outputCombine_ok.mp h
      exact ⟨_, outputCombine_ok.mpr ⟨h1, h2, rfl⟩⟩
    · rintro ⟨d, h⟩
      obtain ⟨h1, h2, -⟩ := outputCombine_ok.mp h
      exact ⟨_, outputCombine_ok.mpr ⟨h1, h2, rfl⟩⟩

theorem zip_to {ε ε' α β : Type} {f : α → α → Except ε α} {g : β → β → Except ε' β} {t : α → β} {as bs cs : List α}
    (h : ∀ (k : Nat) a b, as[k]? = some a → bs[k]? = some b → ∀ c, f a b = .ok c → g (t a) (t b) = .ok (t c))
    (hc : combineZip f as bs = .ok cs) : combineZip g (as.map t) (bs.map t) = .ok (cs.map t) := by
  obtain ⟨hlen, hall⟩ := combineZip_ok.mp hc
  refine combineZip_ok.mpr ⟨by simp [hlen], fun k a' c' ha hc' => ?_⟩
  rw [List.getElem?_map, Option.map_eq_some_iff] at ha hc'
  obtain ⟨a, ha, rfl⟩ := ha
  obtain ⟨c, hc', rfl⟩ := hc'
  obtain ⟨h1, h2⟩ := hall k a c ha hc'
  constructor
  · intro b' hb
    rw [List.getElem?_map, Option.map_eq_some_iff] at hb
    obtain ⟨b, hb, rfl⟩ := hb
    exact h k a b ha hb c (h1 b hb)
  · intro hb
    rw [List.getElem?_map, Option.map_eq_none_iff] at hb
    rw [h2 hb]

theorem zip_iff {ε ε' α β : Type} {f : α → α → Except ε α} {g : β → β → Except ε' β} {t : α → β} {as bs : List α}
    (h : ∀ (k : Nat) a b, as[k]? = some a → bs[k]? = some b → ((∃ c, f a b = .ok c) ↔ ∃ d, g (t a) (t b) = .ok d)) :
    (∃ cs, combineZip f as bs = .ok cs) ↔ ∃ ds, combineZip g (as.map t) (bs.map t) = .ok ds := by
  induction as generalizing bs with
  | nil => exact ⟨fun _ => ⟨[], rfl⟩, fun _ => ⟨[], rfl⟩⟩
  | cons a as ih =>
    cases bs with
    | nil => exact ⟨fun _ => ⟨_, rfl⟩, fun _ => ⟨_, rfl⟩⟩
    | cons b bs =>
      have h0 := h 0 a b rfl rfl
      have h1 := ih (bs := bs) fun k => h (k + 1)
      constructor
      · rintro ⟨cs, hcs⟩
        simp only [combineZip, bind_ok] at hcs
        obtain ⟨c, e1, cs', e2, -⟩ := hcs
        obtain ⟨d, e3⟩ := h0.mp ⟨c, e1⟩
        obtain ⟨ds, e4⟩ := h1.mp ⟨cs', e2⟩
        exact ⟨d :: ds, by simp only [List.map_cons, combineZip, e3, e4, ok_bind]⟩
      · rintro ⟨ds, hds⟩
        simp only [List.map_cons, combineZip, bind_ok] at hds
        obtain ⟨d, e1, ds', e2, -⟩ := hds
        obtain ⟨c, e3⟩ := h0.mpr ⟨d, e1⟩
        obtain ⟨cs, e4⟩ := h1.mpr ⟨ds', e2⟩
        exact ⟨c :: cs, by simp only [combineZip, e3, e4, ok_bind]⟩

/-- C122. Two PSBTs that a program with silent payment support has read can be combined by a program without it exactly if the first
program can combine them; and if they do not state different silent payment addresses or labels for an output, the result is
the same. -/
theorem C122_combined (hs : L.sp = true) {b c : Bytes} {p q : Psbt L} (hp : Psbt.deserialize L b = .ok p)
    (hq : Psbt.deserialize L c = .ok q) :
    ((∃ r, (plainPsbt n m p).combine (plainPsbt n m q) = .ok r) ↔ ∃ r, p.combine q = .ok r) ∧
    (SameAddresses p q → ∀ r, p.combine q = .ok r → (plainPsbt n m p).combine (plainPsbt n m q) = .ok (plainPsbt n m r)) := by
  have wp := wf_of_deserialize hp
  have wq := wf_of_deserialize hq
  have hg := plainGlobal_combine (n := n) (m := m) hs wp.global wq.global
  have hi : ∀ (k : Nat) a b, p.inputs[k]? = some a → q.inputs[k]? = some b → _ := fun k a b ha hb =>
    plainInput_combine (n := n) (m := m) hs (wp.inputs a (List.mem_of_getElem? ha)) (wq.inputs b (List.mem_of_getElem? hb))
  have ho : ∀ (k : Nat) a b, p.outputs[k]? = some a → q.outputs[k]? = some b → _ := fun k a b ha hb =>
    plainOutput_combine (n := n) (m := m) hs (wp.outputs a (List.mem_of_getElem? ha)) (wq.outputs b (List.mem_of_getElem? hb))
  constructor
  · constructor
    · rintro ⟨r, h⟩
      obtain ⟨h1, h2, h3⟩ := combine_ok.mp h
      obtain ⟨g, e1⟩ := hg.2 _ h1
      obtain ⟨is, e2⟩ := (zip_iff fun k a b ha hb => ⟨fun ⟨c, h⟩ => ⟨_, (hi k a b ha hb).1 c h⟩, fun ⟨d, h⟩ => (hi k a b ha hb).2 d h⟩).mpr ⟨_, h2⟩
      obtain ⟨os, e3⟩ := (zip_iff fun k a b ha hb => (ho k a b ha hb).2).mpr ⟨_, h3⟩
      exact ⟨⟨g, is, os⟩, combine_ok.mpr ⟨e1, e2, e3⟩⟩
    · rintro ⟨r, h⟩
      obtain ⟨h1, h2, h3⟩ := combine_ok.mp h
      obtain ⟨os, e3⟩ := (zip_iff (g := Output.combine (L := plain L n m)) (t := plainOutput n m)
        fun k a b ha hb => (ho k a b ha hb).2).mp ⟨_, h3⟩
      exact ⟨⟨_, _, os⟩, combine_ok.mpr ⟨hg.1 _ h1, zip_to (fun k a b ha hb => (hi k a b ha hb).1) h2, e3⟩⟩
  · intro hsame r h
    obtain ⟨h1, h2, h3⟩ := combine_ok.mp h
    exact combine_ok.mpr ⟨hg.1 _ h1, zip_to (fun k a b ha hb => (hi k a b ha hb).1) h2,
      zip_to (fun k a b ha hb => (ho k a b ha hb).1 (hsame k a b ha hb)) h3⟩

/-- C122. So a program without silent payment support can combine what it was handed by one with: if the combination can be read at
all, the first program reads what the second writes as what it would have got itself. -/
theorem C122_combined_returned (hs : L.sp = true) {b c : Bytes} {p q r : Psbt L} (hp : Psbt.deserialize L b = .ok p)
    (hq : Psbt.deserialize L c = .ok q) (hn : n + 1 ≤ L.inputSize) (hm : m + 1 ≤ L.outputSize) {p' q' : Psbt (plain L n m)}
    (hp' : Psbt.deserialize (plain L n m) p.serialize = .ok p') (hq' : Psbt.deserialize (plain L n m) q.serialize = .ok q')
    (ha : SameAddresses p q) (h : p.combine q = .ok r) (hr : Psbt.deserialize L r.serialize = .ok r) :
    ∃ r', p'.combine q' = .ok r' ∧ Psbt.deserialize L r'.serialize = .ok r := by
  obtain ⟨rfl, -⟩ := C122_there_and_back hs hp hn hm hp'
  obtain ⟨rfl, -⟩ := C122_there_and_back hs hq hn hm hq'
  refine ⟨_, (C122_combined hs hp hq).2 ha r h, from_plain hs (wf_of_deserialize hr) fun o ho => ?_⟩
  have hsp := (C122_readable_iff hs hp hn hm).mp ⟨_, hp'⟩
  obtain ⟨-, -, h3⟩ := combine_ok.mp h
  obtain ⟨hlen, hall⟩ := combineZip_ok.mp h3
  obtain ⟨k, hk⟩ := List.getElem?_of_mem ho
  have hk' : k < p.outputs.length := by rw [← hlen]; exact (List.getElem?_eq_some_iff.mp hk).1
  obtain ⟨h1, h2⟩ := hall k p.outputs[k] o (List.getElem?_eq_getElem hk') hk
  have hs' := hsp _ (List.getElem_mem hk')
  cases hb : q.outputs[k]? with
  | none => rw [h2 hb]; exact hs'
  | some b =>
    obtain ⟨-, -, rfl⟩ := outputCombine_ok.mp (h1 b hb)
    exact hs'

/-! ### The hypotheses are met -/

/-- The PSBT of the examples of C122, signed; with one more share, proof and unknown record, and without the labels. -/
def fcQ : Psbt FL :=
  ⟨{ fP.global with
      spEcdhShares := fP.global.spEcdhShares.insert (Demo.val 33 (by decide) 8) (Demo.val 33 (by decide) 3)
      spDleqProofs := fP.global.spDleqProofs.insert (Demo.val 33 (by decide) 8) (Demo.rep 64 5)
      unknowns := BMap.empty.insert ⟨0xEF, [1]⟩ [2] },
    fP.inputs.map fun i => { i with spEcdhShares := BMap.empty.insert (Demo.val 33 (by decide) 7) (Demo.val 33 (by decide) 6) },
    fP.outputs.map fun o => { o with spV0Label := none }⟩
def fcR : Psbt FL := match fP.combine fcQ with | .ok r => r | _ => fP
theorem fc_read : Psbt.deserialize FL fcQ.serialize = .ok fcQ ∧ Psbt.deserialize FL fcR.serialize = .ok fcR := by
  constructor <;> decide +kernel
theorem fc_combine : fP.combine fcQ = .ok fcR := rfl
theorem fc_same : SameAddresses fP fcQ := by
  intro k a b ha hb
  match k, ha, hb with
  | 0, ha, hb =>
    cases ha; cases hb
    exact ⟨fun x y hx hy => by cases hx; cases hy; rfl, fun x y hx hy => by cases hy⟩
example : fcR ≠ fP ∧ fcR ≠ fcQ ∧ ∃ r', fQ.combine (plainPsbt 1023 511 fcQ) = .ok r' ∧ Psbt.deserialize FL r'.serialize = .ok fcR :=
  ⟨by decide +kernel, by decide +kernel,
    C122_combined_returned rfl fP_read fc_read.1 (by decide) (by decide) fQ_read
      (to_plain rfl (wf_of_deserialize fc_read.1) (by decide) (by decide) (by decide +kernel)) fc_same fc_combine fc_read.2⟩

/-- The same with another address in the output. -/
def fcOther : Psbt FL := { fP with outputs := fP.outputs.map fun o => { o with spV0Info := some (List.replicate 66 8) } }

/-- C122. When two PSBTs state different addresses, the program with silent payment support keeps that of the first, and the one
without that of the second. -/
theorem C122_other_address : ∃ (p q r : Psbt FL) (r' : Psbt (plain FL 1023 511)), Psbt.deserialize FL p.serialize = .ok p ∧
    Psbt.deserialize FL q.serialize = .ok q ∧ p.combine q = .ok r ∧
    (plainPsbt 1023 511 p).combine (plainPsbt 1023 511 q) = .ok r' ∧ r = p ∧ Psbt.deserialize FL r'.serialize = .ok q ∧ p ≠ q :=
  ⟨fP, fcOther, fP, plainPsbt 1023 511 fcOther, fP_read, by decide +kernel, rfl, rfl, rfl, by decide +kernel, by decide +kernel⟩

end Psbt.V2
