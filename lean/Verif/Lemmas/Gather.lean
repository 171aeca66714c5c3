/- Combining many copies of a PSBT. -/
import Verif.Spec.Gather
import Verif.Lemmas.Sighash
import Verif.Lemmas.SameRecords
import Verif.Lemmas.HandOver
import Verif.Props.V0HandOver
import Verif.Props.Precedence
namespace Psbt
open Spec (Records NoConflict HasType InputFits Precedence Gathering)

theorem le32_inj {a b : UInt32} (h : Spec.le32 a = Spec.le32 b) : a = b := by
  have h1 := decU32_enc a []
  rw [← le32_eq, h, le32_eq, decU32_enc] at h1
  cases h1; rfl
theorem le64_inj {a b : UInt64} (h : Spec.le64 a = Spec.le64 b) : a = b := by
  have h1 := decU64_enc a []
  rw [← le64_eq, h, le64_eq, decU64_enc] at h1
  cases h1; rfl
theorem keySource_inj {a b : KeySource} (h : a.1.1 ++ a.2.flatMap Spec.le32 = b.1.1 ++ b.2.flatMap Spec.le32) : a = b := by
  obtain ⟨⟨f, hf⟩, p⟩ := a
  obtain ⟨⟨g, hg⟩, q⟩ := b
  obtain ⟨rfl, h2⟩ := List.append_inj h (hf.trans hg.symm)
  have e : Spec.le32 = encU32 := funext le32_eq
  rw [e] at h2
  have : p = q := flatMap_inj (fun _ _ => decU32_rt _) (fun _ _ => decU32_rt _)
    (fun a h => by have := encU32_length a; rw [h] at this; cases this) h2
  rw [this]

theorem mem_copies_left {α : Type} {x y : Gathering α} {p : α} (h : p ∈ x.copies) : p ∈ (Gathering.join x y).copies :=
  List.mem_append_left _ h
theorem mem_copies_right {α : Type} {x y : Gathering α} {p : α} (h : p ∈ y.copies) : p ∈ (Gathering.join x y).copies :=
  List.mem_append_right _ h
theorem copies_some {α : Type} (t : Gathering α) : ∃ p, p ∈ t.copies := by
  induction t with
  | copy p => exact ⟨p, List.mem_singleton.mpr rfl⟩
  | join x y ih _ => obtain ⟨p, hp⟩ := ih; exact ⟨p, mem_copies_left hp⟩

/-- Maps that do not contradict each other: the combined map has the records of both. -/
theorem records_union {single merged own : List UInt8} {x y z : Records} (hP : Precedence single merged own x y z)
    (hN : NoConflict x y) (hO : ∀ t k v, t ∈ own → y t k v → ∃ w, x t k w)
    (hM : ∀ t k v, t ∈ merged → (z t k v ↔ x t k v ∨ y t k v)) (t : UInt8) (k v : Bytes) : z t k v ↔ x t k v ∨ y t k v := by
  by_cases hm : t ∈ merged
  · exact hM t k v hm
  refine ⟨hP.origin t k v hm, ?_⟩
  rintro (h | h)
  · by_cases hs : t ∈ single
    · exact hP.first t k v hs hm h
    · by_cases hy : ∃ w, y t k w
      · obtain ⟨w, hw⟩ := hy
        rw [hN t k v w h hw]; exact hP.second t k w hs hm hw
      · exact hP.firstAlone t k v hm h fun w hw => hy ⟨w, hw⟩
  · by_cases hs : t ∈ single
    · by_cases hx : ∃ w, x t k w
      · obtain ⟨w, hw⟩ := hx
        rw [← hN t k w v hw h]; exact hP.first t k w hs hm hw
      · exact hP.secondAlone t k v hm (fun ho => hx (hO t k v ho h)) h fun w hw => hx ⟨w, hw⟩
    · exact hP.second t k v hs hm h

section
variable {α : Type} {f : α → Records} {S T : List α} {x y : Records}
  (hx : ∀ t k v, x t k v ↔ ∃ p ∈ S, f p t k v) (hy : ∀ t k v, y t k v ↔ ∃ p ∈ T, f p t k v)
include hx hy

theorem noConflict_union (h : ∀ p ∈ S ++ T, ∀ q ∈ S ++ T, NoConflict (f p) (f q)) : NoConflict x y := by
  intro t k v w h1 h2
  obtain ⟨p, hp, h1⟩ := (hx _ _ _).mp h1
  obtain ⟨q, hq, h2⟩ := (hy _ _ _).mp h2
  exact h p (List.mem_append_left _ hp) q (List.mem_append_right _ hq) t k v w h1 h2

theorem hasType_union (hS : ∃ p, p ∈ S) (hT : ∃ p, p ∈ T) {t : UInt8}
    (h : ∀ p ∈ S ++ T, ∀ q ∈ S ++ T, HasType (f p) t ↔ HasType (f q) t) : HasType x t ↔ HasType y t := by
  constructor
  · rintro ⟨k, v, h1⟩
    obtain ⟨p, hp, h1⟩ := (hx _ _ _).mp h1
    obtain ⟨q, hq⟩ := hT
    obtain ⟨k', v', h2⟩ := (h p (List.mem_append_left _ hp) q (List.mem_append_right _ hq)).mp ⟨k, v, h1⟩
    exact ⟨k', v', (hy _ _ _).mpr ⟨q, hq, h2⟩⟩
  · rintro ⟨k, v, h1⟩
    obtain ⟨p, hp, h1⟩ := (hy _ _ _).mp h1
    obtain ⟨q, hq⟩ := hS
    obtain ⟨k', v', h2⟩ := (h p (List.mem_append_right _ hp) q (List.mem_append_left _ hq)).mp ⟨k, v, h1⟩
    exact ⟨k', v', (hx _ _ _).mpr ⟨q, hq, h2⟩⟩

theorem fits_union (hS : ∃ p, p ∈ S) (hT : ∃ p, p ∈ T)
    (h : ∀ p ∈ S ++ T, ∀ q ∈ S ++ T, InputFits (f p) (f q)) : InputFits x y where
  noConflict := noConflict_union hx hy fun p hp q hq => (h p hp q hq).noConflict
  sighashType := hasType_union hx hy hS hT fun p hp q hq => (h p hp q hq).sighashType
  utxo := by
    rintro ⟨k, v, hw⟩ hn
    obtain ⟨p, hp, hw⟩ := (hx _ _ _).mp hw
    have hp := List.mem_append_left T hp
    obtain ⟨q, hq⟩ := hT
    have hq' := List.mem_append_right S hq
    have key : ∀ r ∈ S ++ T, HasType (f r) 0x00 → HasType (f q) 0x01 := fun r hr hn =>
      (h r hr q hq').utxo ((h p hp r hr).utxo ⟨k, v, hw⟩ (.inr hn)) (.inl hn)
    have : HasType (f q) 0x01 := by
      rcases hn with ⟨k', v', hn⟩ | ⟨k', v', hn⟩
      · obtain ⟨r, hr, hn⟩ := (hx _ _ _).mp hn
        exact key r (List.mem_append_left _ hr) ⟨k', v', hn⟩
      · obtain ⟨r, hr, hn⟩ := (hy _ _ _).mp hn
        exact key r (List.mem_append_right _ hr) ⟨k', v', hn⟩
    obtain ⟨k', v', h2⟩ := this
    exact ⟨k', v', (hy _ _ _).mpr ⟨q, hq, h2⟩⟩
end

/-- The non-witness UTXO of a combined input. -/
theorem nonWitness_union {a b : Option Tx × Option TxOut} (hN : ∀ v w, a.1 = some v → b.1 = some w → Spec.txBytes v = Spec.txBytes w)
    (hU : b.2 ≠ none → b.1 ≠ none ∨ a.1 ≠ none → a.2 ≠ none) (x : Bytes) :
    (∃ v, (V2.combUtxos a b).1 = some v ∧ Spec.txBytes v = x) ↔
      (∃ v, a.1 = some v ∧ Spec.txBytes v = x) ∨ ∃ v, b.1 = some v ∧ Spec.txBytes v = x := by
  obtain ⟨n, w⟩ := a
  obtain ⟨n', w'⟩ := b
  simp only [ne_eq] at hN hU ⊢
  cases n with
  | none =>
    cases w <;> cases w' <;> simp_all [V2.combUtxos, V2.combOpt] <;> cases n' <;> simp_all
  | some v =>
    cases n' with
    | none => cases w <;> cases w' <;> simp_all [V2.combUtxos, V2.combOpt]
    | some v' =>
      have := hN v v' rfl rfl
      cases w <;> cases w' <;> simp_all [V2.combUtxos, V2.combOpt]

/-- Key sources that do not contradict each other can be merged. -/
theorem mergeOpt_union {a b : Option KeySource} (h : ∀ s t, a = some s → b = some t → s = t) :
    V2.mergeOpt a b = some (a.or b) := by
  cases a with
  | none => rfl
  | some s =>
    cases b with
    | none => rfl
    | some t =>
      rw [h s t rfl rfl]
      exact V2.mergeOpt_self (some t)

theorem or_iff {α : Type} {a b : Option α} (h : ∀ s t, a = some s → b = some t → s = t) {v : α} :
    a.or b = some v ↔ a = some v ∨ b = some v := by
  cases a with
  | none => simp
  | some s =>
    cases b with
    | none => simp
    | some t => simp [h s t rfl rfl]

namespace V2
variable {L : Lib}
open _root_.Psbt.Spec (singleGlobal singleInput singleOutput InputPair OutputPair GlobalPair)

theorem hasWitness {i : Input L} (hu : ∀ k v, i.unknowns.get k = some v → k.ty ∉ singleInput) :
    HasType (InputPair i) 0x01 ↔ i.witnessUtxo ≠ none := by
  constructor
  · rintro ⟨k, v, h⟩
    generalize ht : (0x01 : UInt8) = t at h
    cases h with
    | witnessUtxo h => rw [h]; exact Option.some_ne_none _
    | unknown h => exact absurd (by rw [← ht]; decide) (hu _ _ h)
    | _ => exact absurd ht (by decide)
  · intro h
    obtain ⟨v, hv⟩ := Option.ne_none_iff_exists'.mp h
    exact ⟨_, _, .witnessUtxo hv⟩

theorem nonWitness_pair {i : Input L} (hu : ∀ k v, i.unknowns.get k = some v → k.ty ∉ singleInput) {k x : Bytes} :
    InputPair i 0x00 k x ↔ k = [] ∧ ∃ v, i.nonWitnessUtxo = some v ∧ Spec.txBytes v = x := by
  constructor
  · intro h
    generalize ht : (0x00 : UInt8) = t at h
    cases h with
    | nonWitnessUtxo h => exact ⟨rfl, _, h, rfl⟩
    | unknown h => exact absurd (by rw [← ht]; decide) (hu _ _ h)
    | _ => exact absurd ht (by decide)
  · rintro ⟨rfl, v, h, rfl⟩; exact .nonWitnessUtxo h

theorem hasNonWitness {i : Input L} (hu : ∀ k v, i.unknowns.get k = some v → k.ty ∉ singleInput) :
    HasType (InputPair i) 0x00 ↔ i.nonWitnessUtxo ≠ none := by
  constructor
  · rintro ⟨k, v, h⟩
    obtain ⟨-, w, h, -⟩ := (nonWitness_pair hu).mp h
    rw [h]; exact Option.some_ne_none _
  · intro h
    obtain ⟨v, hv⟩ := Option.ne_none_iff_exists'.mp h
    exact ⟨_, _, .nonWitnessUtxo hv⟩

theorem sighash_key {i : Input L} (hu : ∀ k v, i.unknowns.get k = some v → k.ty ∉ singleInput) {k x : Bytes}
    (h : InputPair i 0x03 k x) : k = [] := by
  generalize ht : (0x03 : UInt8) = t at h
  cases h with
  | sighashType h => rfl
  | unknown h => exact absurd (by rw [← ht]; decide) (hu _ _ h)
  | _ => exact absurd ht (by decide)

theorem fallback_key {g : Global L} (hu : ∀ k v, g.unknowns.get k = some v → k.ty ∉ singleGlobal) {k x : Bytes}
    (h : GlobalPair g 0x03 k x) : k = [] := by
  generalize ht : (0x03 : UInt8) = t at h
  cases h with
  | fallbackLockTime h => rfl
  | unknown h => exact absurd (by rw [← ht]; decide) (hu _ _ h)
  | _ => exact absurd ht (by decide)

theorem input_union {a b : Input L} (ha : ∀ k v, a.unknowns.get k = some v → k.ty ∉ singleInput)
    (hb : ∀ k v, b.unknowns.get k = some v → k.ty ∉ singleInput) (h1 : InputFits (InputPair a) (InputPair b))
    (h2 : InputFits (InputPair b) (InputPair a)) (t : UInt8) (k v : Bytes) :
    InputPair (a.merge b) t k v ↔ InputPair a t k v ∨ InputPair b t k v := by
  have hm : ∀ k v, (a.merge b).unknowns.get k = some v → k.ty ∉ singleInput := fun k v h =>
    (map_origin h).elim (ha k v) (hb k v)
  refine records_union (precedence_input a b ha) h1.noConflict ?_ ?_ t k v
  · intro t k v ht hy
    rw [List.mem_singleton.mp ht] at hy ⊢
    obtain ⟨k', w, hx⟩ := h1.sighashType.mpr ⟨k, v, hy⟩
    rw [sighash_key hb hy]
    rw [sighash_key ha hx] at hx
    exact ⟨w, hx⟩
  · intro t k v ht
    rw [List.mem_singleton.mp ht, nonWitness_pair hm, nonWitness_pair ha, nonWitness_pair hb]
    have := nonWitness_union (a := (a.nonWitnessUtxo, a.witnessUtxo)) (b := (b.nonWitnessUtxo, b.witnessUtxo))
      (fun v w hv hw => h1.noConflict _ _ _ _ (.nonWitnessUtxo hv) (.nonWitnessUtxo hw))
      (fun hw hn => (hasWitness ha).mp (h2.utxo ((hasWitness hb).mpr hw) (hn.imp (hasNonWitness hb).mpr (hasNonWitness ha).mpr))) v
    rw [← and_or_left]
    exact and_congr_right fun _ => this

theorem output_union {a b : Output L} (ha : ∀ k v, a.unknowns.get k = some v → k.ty ∉ singleOutput L.sp)
    (h1 : NoConflict (OutputPair a) (OutputPair b)) (t : UInt8) (k v : Bytes) :
    OutputPair (a.merge b) t k v ↔ OutputPair a t k v ∨ OutputPair b t k v :=
  records_union (precedence_output a b ha) h1 (fun _ _ _ h => absurd h List.not_mem_nil)
    (fun _ _ _ h => absurd h List.not_mem_nil) t k v

theorem xpub_pair {g : Global L} {k x : Bytes} : GlobalPair g 0x01 k x ↔
    (∃ y s, g.xpubs.get y = some s ∧ k = y.bytes ∧ x = s.1.1 ++ s.2.flatMap Spec.le32) ∨
      (∃ u, g.unknowns.get u = some x ∧ u.ty = 0x01 ∧ u.key = k) := by
  constructor
  · intro h
    generalize ht : (0x01 : UInt8) = t at h
    cases h with
    | xpub h => exact .inl ⟨_, _, h, rfl, rfl⟩
    | unknown h => exact .inr ⟨_, h, rfl, rfl⟩
    | _ => exact absurd ht (by decide)
  · rintro (⟨y, s, h, rfl, rfl⟩ | ⟨u, h, hu, rfl⟩)
    · exact .xpub h
    · rw [← hu]; exact .unknown h

theorem global_union {a b c : Global L} (ha : ∀ k v, a.unknowns.get k = some v → k.ty ∉ singleGlobal)
    (hb : ∀ k v, b.unknowns.get k = some v → k.ty ∉ singleGlobal) (h1 : NoConflict (GlobalPair a) (GlobalPair b))
    (h2 : HasType (GlobalPair a) 0x03 ↔ HasType (GlobalPair b) 0x03) (hc : a.combine b = .ok c) (t : UInt8) (k v : Bytes) :
    GlobalPair c t k v ↔ GlobalPair a t k v ∨ GlobalPair b t k v := by
  obtain ⟨-, -, hx, hg⟩ := globalCombine_ok.mp hc
  have hs : ∀ y s s', a.xpubs.get y = some s → b.xpubs.get y = some s' → s = s' := fun y s s' h h' =>
    keySource_inj (h1 _ _ _ _ (.xpub h) (.xpub h'))
  have hx' : ∀ y s, c.xpubs.get y = some s ↔ a.xpubs.get y = some s ∨ b.xpubs.get y = some s := fun y s => by
    have := hx y
    rw [mergeOpt_union (hs y), Option.some.injEq] at this
    rw [← this, or_iff (hs y)]
  have hu : ∀ u w, c.unknowns.get u = some w ↔ a.unknowns.get u = some w ∨ b.unknowns.get u = some w := fun u w => by
    have : c.unknowns = a.unknowns.extend b.unknowns := by rw [hg]
    rw [this, BMap.get_extend, or_iff fun s t hs ht => (h1 _ _ _ _ (.unknown ht) (.unknown hs)).symm, or_comm]
  have hP : Precedence singleGlobal [0x01] [0x03] (GlobalPair a) (GlobalPair b) (GlobalPair c) := by
    rw [hg]; exact precedence_global _ ha
  refine records_union hP h1 ?_ ?_ t k v
  · intro t k v ht hy
    rw [List.mem_singleton.mp ht] at hy ⊢
    obtain ⟨k', w, hx⟩ := h2.mpr ⟨k, v, hy⟩
    rw [fallback_key hb hy]
    rw [fallback_key ha hx] at hx
    exact ⟨w, hx⟩
  · intro t k v ht
    rw [List.mem_singleton.mp ht, xpub_pair, xpub_pair, xpub_pair]
    simp only [hx', hu, or_and_right, exists_or]
    exact or_or_or_comm

/-- Two PSBTs that go together can be combined. -/
theorem together_ok {p q : Psbt L} (h : Spec.Together p q) : ∃ r, p.combine q = .ok r := by
  obtain ⟨x, hx⟩ := mergeXpubs_total (m := p.global.xpubs) (n := q.global.xpubs) fun x =>
    ⟨_, mergeOpt_union fun s s' h1 h2 => keySource_inj (h.global _ _ _ _ (.xpub h1) (.xpub h2))⟩
  obtain ⟨is, his⟩ := combineZip_total (f := Input.combine) (as := p.inputs) (bs := q.inputs) fun n i j hi hj => by
    have hn := (h.inputs n i j hi hj).noConflict
    exact ⟨_, inputCombine_ok.mpr ⟨Subtype.ext (hn _ _ _ _ .previousTxid .previousTxid), le32_inj (hn _ _ _ _ .outputIndex .outputIndex), rfl⟩⟩
  obtain ⟨os, hos⟩ := combineZip_total (f := Output.combine) (as := p.outputs) (bs := q.outputs) fun n i j hi hj => by
    have hn := h.outputs n i j hi hj
    exact ⟨_, outputCombine_ok.mpr ⟨le64_inj (hn _ _ _ _ .amount .amount), hn _ _ _ _ .script .script, rfl⟩⟩
  refine ⟨⟨{ p.global with
      xpubs := x
      spEcdhShares := p.global.spEcdhShares.extend q.global.spEcdhShares
      spDleqProofs := p.global.spDleqProofs.extend q.global.spDleqProofs
      proprietaries := p.global.proprietaries.extend q.global.proprietaries
      unknowns := p.global.unknowns.extend q.global.unknowns }, is, os⟩, combine_ok.mpr ⟨?_, his, hos⟩⟩
  exact globalCombine_ok.mpr ⟨le32_inj (h.global _ _ _ _ .version .version), le32_inj (h.global _ _ _ _ .txVersion .txVersion), hx, rfl⟩

/-- What is gathered from copies that go together goes together. -/
theorem together_union {S T : List (Psbt L)} {a b : Psbt L} (hS : ∃ p, p ∈ S) (hT : ∃ p, p ∈ T)
    (h : ∀ p ∈ S ++ T, ∀ q ∈ S ++ T, Spec.Together p q) (ha : Spec.UnionOf S a) (hb : Spec.UnionOf T b) : Spec.Together a b where
  global := noConflict_union ha.global hb.global fun p hp q hq => (h p hp q hq).global
  fallback := hasType_union ha.global hb.global hS hT fun p hp q hq => (h p hp q hq).fallback
  inputCount := by
    obtain ⟨p, hp⟩ := hS
    obtain ⟨q, hq⟩ := hT
    rw [ha.inputCount p hp, hb.inputCount q hq]
    exact (h p (List.mem_append_left _ hp) q (List.mem_append_right _ hq)).inputCount
  outputCount := by
    obtain ⟨p, hp⟩ := hS
    obtain ⟨q, hq⟩ := hT
    rw [ha.outputCount p hp, hb.outputCount q hq]
    exact (h p (List.mem_append_left _ hp) q (List.mem_append_right _ hq)).outputCount
  inputs n i j hi hj := by
    have hn : ∀ p ∈ S ++ T, ∃ c, p.inputs[n]? = some c := fun p hp => by
      rcases List.mem_append.mp hp with hp | hp
      · exact ⟨_, List.getElem?_eq_getElem (by rw [← ha.inputCount p hp]; exact (List.getElem?_eq_some_iff.mp hi).1)⟩
      · exact ⟨_, List.getElem?_eq_getElem (by rw [← hb.inputCount p hp]; exact (List.getElem?_eq_some_iff.mp hj).1)⟩
    refine fits_union (f := fun (p : Psbt L) t k v => ∃ i, p.inputs[n]? = some i ∧ InputPair i t k v) (ha.inputs n i hi) (hb.inputs n j hj) hS hT
      fun p hp q hq => ?_
    obtain ⟨c, hc⟩ := hn p hp
    obtain ⟨d, hd⟩ := hn q hq
    simp only [hc, hd, Option.some.injEq, exists_eq_left']
    exact (h p hp q hq).inputs n c d hc hd
  outputs n i j hi hj := by
    refine noConflict_union (f := fun (p : Psbt L) t k v => ∃ i, p.outputs[n]? = some i ∧ OutputPair i t k v) (ha.outputs n i hi) (hb.outputs n j hj)
      fun p hp q hq => ?_
    rintro t k v w ⟨c, hc, h1⟩ ⟨d, hd, h2⟩
    exact (h p hp q hq).outputs n c d hc hd t k v w h1 h2

/-- Combining what was gathered from two lists of copies. -/
theorem union_step {S T : List (Psbt L)} {a b r : Psbt L} (ha : Spec.UnknownsApart a) (hb : Spec.UnknownsApart b)
    (h1 : Spec.Together a b) (h2 : Spec.Together b a) (hr : a.combine b = .ok r) (uS : Spec.UnionOf S a) (uT : Spec.UnionOf T b) :
    Spec.UnionOf (S ++ T) r := by
  obtain ⟨c1, c2, c3⟩ := combine_ok.mp hr
  obtain ⟨l2, z2⟩ := combineZip_ok.mp c2
  obtain ⟨l3, z3⟩ := combineZip_ok.mp c3
  refine ⟨fun t k v => ?_, fun p hp => ?_, fun p hp => ?_, fun n c hc t k v => ?_, fun n c hc t k v => ?_⟩
  · rw [global_union ha.global hb.global h1.global h1.fallback c1, uS.global, uT.global]
    simp only [List.mem_append, or_and_right, exists_or]
  · rcases List.mem_append.mp hp with hp | hp
    · rw [l2, uS.inputCount p hp]
    · rw [l2, h1.inputCount, uT.inputCount p hp]
  · rcases List.mem_append.mp hp with hp | hp
    · rw [l3, uS.outputCount p hp]
    · rw [l3, h1.outputCount, uT.outputCount p hp]
  · have hl := (List.getElem?_eq_some_iff.mp hc).1
    have hi : a.inputs[n]? = some (a.inputs[n]'(by omega)) := List.getElem?_eq_getElem _
    have hj : b.inputs[n]? = some (b.inputs[n]'(by have := h1.inputCount; omega)) := List.getElem?_eq_getElem _
    rw [(inputCombine_ok.mp ((z2 n _ c hi hc).1 _ hj)).2.2,
      input_union (ha.inputs _ (List.mem_of_getElem? hi)) (hb.inputs _ (List.mem_of_getElem? hj)) (h1.inputs n _ _ hi hj) (h2.inputs n _ _ hj hi),
      uS.inputs n _ hi, uT.inputs n _ hj]
    simp only [List.mem_append, or_and_right, exists_or]
  · have hl := (List.getElem?_eq_some_iff.mp hc).1
    have hi : a.outputs[n]? = some (a.outputs[n]'(by omega)) := List.getElem?_eq_getElem _
    have hj : b.outputs[n]? = some (b.outputs[n]'(by have := h1.outputCount; omega)) := List.getElem?_eq_getElem _
    rw [(outputCombine_ok.mp ((z3 n _ c hi hc).1 _ hj)).2.2,
      output_union (ha.outputs _ (List.mem_of_getElem? hi)) (h1.outputs n _ _ hi hj),
      uS.outputs n _ hi, uT.outputs n _ hj]
    simp only [List.mem_append, or_and_right, exists_or]

theorem union_one (p : Psbt L) : Spec.UnionOf [p] p := by
  refine ⟨fun t k v => by simp, fun q hq => ?_, fun q hq => ?_, fun n c hc t k v => ?_, fun n c hc t k v => ?_⟩
  · rw [List.mem_singleton.mp hq]
  · rw [List.mem_singleton.mp hq]
  · simp [hc]
  · simp [hc]

/-- Copies that go together can be gathered. -/
theorem gather_union {P : Psbt L → Prop} (hP : ∀ a b r, P a → P b → a.combine b = .ok r → P r) (t : Gathering (Psbt L))
    (h0 : ∀ p ∈ t.copies, P p) (h1 : ∀ p ∈ t.copies, Spec.UnknownsApart p)
    (h2 : ∀ p ∈ t.copies, ∀ q ∈ t.copies, Spec.Together p q) :
    ∃ r, Spec.gather t = .ok r ∧ Spec.UnionOf t.copies r ∧ Spec.UnknownsApart r ∧ P r := by
  induction t with
  | copy p =>
    exact ⟨p, rfl, union_one p, h1 p (List.mem_singleton.mpr rfl), h0 p (List.mem_singleton.mpr rfl)⟩
  | join x y ihx ihy =>
    obtain ⟨a, ea, ua, ka, pa⟩ := ihx (fun p hp => h0 p (mem_copies_left hp)) (fun p hp => h1 p (mem_copies_left hp))
      fun p hp q hq => h2 p (mem_copies_left hp) q (mem_copies_left hq)
    obtain ⟨b, eb, ub, kb, pb⟩ := ihy (fun p hp => h0 p (mem_copies_right hp)) (fun p hp => h1 p (mem_copies_right hp))
      fun p hp q hq => h2 p (mem_copies_right hp) q (mem_copies_right hq)
    have t1 := together_union (copies_some x) (copies_some y) h2 ua ub
    have t2 := together_union (copies_some y) (copies_some x) (fun p hp q hq => h2 p
      ((List.mem_append.mp hp).elim mem_copies_right mem_copies_left) q ((List.mem_append.mp hq).elim mem_copies_right mem_copies_left)) ub ua
    obtain ⟨r, hr⟩ := together_ok t1
    exact ⟨r, by simp only [Spec.gather, ea, eb, ok_bind, hr], union_step ka kb t1 t2 hr ua ub, unknowns_apart ka kb hr, hP _ _ _ pa pb hr⟩

/-- PSBTs as parsed with the same records are the same. -/
theorem union_unique {S : List (Psbt L)} (hS : ∃ p, p ∈ S) {a b : Psbt L} (ha : Sound a) (hb : Sound b) (ua : Spec.UnionOf S a)
    (ub : Spec.UnionOf S b) : a = b := by
  obtain ⟨p, hp⟩ := hS
  obtain ⟨g, is, os⟩ := a
  obtain ⟨g', is', os'⟩ := b
  have e1 : g = g' := global_same ha.global hb.global fun t k v => (ua.global t k v).trans (ub.global t k v).symm
  have e2 : is = is' := by
    refine List.ext_getElem ((ua.inputCount p hp).trans (ub.inputCount p hp).symm) fun n n1 n2 => ?_
    exact input_same (ha.inputs _ (List.getElem_mem n1)) (hb.inputs _ (List.getElem_mem n2)) fun t k v =>
      (ua.inputs n _ (List.getElem?_eq_getElem n1) t k v).trans (ub.inputs n _ (List.getElem?_eq_getElem n2) t k v).symm
  have e3 : os = os' := by
    refine List.ext_getElem ((ua.outputCount p hp).trans (ub.outputCount p hp).symm) fun n n1 n2 => ?_
    exact output_same (ha.outputs _ (List.getElem_mem n1)) (hb.outputs _ (List.getElem_mem n2)) fun t k v =>
      (ua.outputs n _ (List.getElem?_eq_getElem n1) t k v).trans (ub.outputs n _ (List.getElem?_eq_getElem n2) t k v).symm
  rw [e1, e2, e3]

end V2

namespace V0
variable {L : Lib}
open _root_.Psbt.Spec.V0 (singleGlobal singleInput singleOutput InputPair OutputPair GlobalPair)

theorem hasWitness {i : Input L} (hu : ∀ k v, i.unknown.get k = some v → k.ty ∉ singleInput) :
    HasType (InputPair i) 0x01 ↔ i.witnessUtxo ≠ none := by
  constructor
  · rintro ⟨k, v, h⟩
    generalize ht : (0x01 : UInt8) = t at h
    cases h with
    | witnessUtxo h => rw [h]; exact Option.some_ne_none _
    | unknown h => exact absurd (by rw [← ht]; decide) (hu _ _ h)
    | _ => exact absurd ht (by decide)
  · intro h
    obtain ⟨v, hv⟩ := Option.ne_none_iff_exists'.mp h
    exact ⟨_, _, .witnessUtxo hv⟩

theorem nonWitness_pair {i : Input L} (hu : ∀ k v, i.unknown.get k = some v → k.ty ∉ singleInput) {k x : Bytes} :
    InputPair i 0x00 k x ↔ k = [] ∧ ∃ v, i.nonWitnessUtxo = some v ∧ Spec.txBytes v = x := by
  constructor
  · intro h
    generalize ht : (0x00 : UInt8) = t at h
    cases h with
    | nonWitnessUtxo h => exact ⟨rfl, _, h, rfl⟩
    | unknown h => exact absurd (by rw [← ht]; decide) (hu _ _ h)
    | _ => exact absurd ht (by decide)
  · rintro ⟨rfl, v, h, rfl⟩; exact .nonWitnessUtxo h

theorem hasNonWitness {i : Input L} (hu : ∀ k v, i.unknown.get k = some v → k.ty ∉ singleInput) :
    HasType (InputPair i) 0x00 ↔ i.nonWitnessUtxo ≠ none := by
  constructor
  · rintro ⟨k, v, h⟩
    obtain ⟨-, w, h, -⟩ := (nonWitness_pair hu).mp h
    rw [h]; exact Option.some_ne_none _
  · intro h
    obtain ⟨v, hv⟩ := Option.ne_none_iff_exists'.mp h
    exact ⟨_, _, .nonWitnessUtxo hv⟩

theorem sighash_key {i : Input L} (hu : ∀ k v, i.unknown.get k = some v → k.ty ∉ singleInput) {k x : Bytes}
    (h : InputPair i 0x03 k x) : k = [] := by
  generalize ht : (0x03 : UInt8) = t at h
  cases h with
  | sighashType h => rfl
  | unknown h => exact absurd (by rw [← ht]; decide) (hu _ _ h)
  | _ => exact absurd ht (by decide)

theorem input_union {a b : Input L} (ha : ∀ k v, a.unknown.get k = some v → k.ty ∉ singleInput)
    (hb : ∀ k v, b.unknown.get k = some v → k.ty ∉ singleInput) (h1 : InputFits (InputPair a) (InputPair b))
    (h2 : InputFits (InputPair b) (InputPair a)) (t : UInt8) (k v : Bytes) :
    InputPair (a.combine b) t k v ↔ InputPair a t k v ∨ InputPair b t k v := by
  have hm : ∀ k v, (a.combine b).unknown.get k = some v → k.ty ∉ singleInput := fun k v h =>
    (map_origin h).elim (ha k v) (hb k v)
  refine records_union (precedence_input a b ha) h1.noConflict ?_ ?_ t k v
  · intro t k v ht hy
    rw [List.mem_singleton.mp ht] at hy ⊢
    obtain ⟨k', w, hx⟩ := h1.sighashType.mpr ⟨k, v, hy⟩
    rw [sighash_key hb hy]
    rw [sighash_key ha hx] at hx
    exact ⟨w, hx⟩
  · intro t k v ht
    rw [List.mem_singleton.mp ht, nonWitness_pair hm, nonWitness_pair ha, nonWitness_pair hb]
    have := nonWitness_union (a := (a.nonWitnessUtxo, a.witnessUtxo)) (b := (b.nonWitnessUtxo, b.witnessUtxo))
      (fun v w hv hw => h1.noConflict _ _ _ _ (.nonWitnessUtxo hv) (.nonWitnessUtxo hw))
      (fun hw hn => (hasWitness ha).mp (h2.utxo ((hasWitness hb).mpr hw) (hn.imp (hasNonWitness hb).mpr (hasNonWitness ha).mpr))) v
    rw [← and_or_left]
    exact and_congr_right fun _ => this

theorem output_union {a b : Output L} (ha : ∀ k v, a.unknown.get k = some v → k.ty ∉ singleOutput)
    (h1 : NoConflict (OutputPair a) (OutputPair b)) (t : UInt8) (k v : Bytes) :
    OutputPair (a.combine b) t k v ↔ OutputPair a t k v ∨ OutputPair b t k v :=
  records_union (precedence_output a b ha) h1 (fun _ _ _ h => absurd h List.not_mem_nil)
    (fun _ _ _ h => absurd h List.not_mem_nil) t k v

theorem xpub_pair {p : Psbt L} {k x : Bytes} : GlobalPair p 0x01 k x ↔
    (∃ y s, p.xpub.get y = some s ∧ k = y.bytes ∧ x = s.1.1 ++ s.2.flatMap Spec.le32) ∨
      (∃ u, p.unknown.get u = some x ∧ u.ty = 0x01 ∧ u.key = k) := by
  constructor
  · intro h
    generalize ht : (0x01 : UInt8) = t at h
    cases h with
    | xpub h => exact .inl ⟨_, _, h, rfl, rfl⟩
    | unknown h => exact .inr ⟨_, h, rfl, rfl⟩
    | _ => exact absurd ht (by decide)
  · rintro (⟨y, s, h, rfl, rfl⟩ | ⟨u, h, hu, rfl⟩)
    · exact .xpub h
    · rw [← hu]; exact .unknown h

theorem version_pair {p : Psbt L} (hu : ∀ k v, p.unknown.get k = some v → k.ty ∉ singleGlobal) {k x : Bytes} :
    GlobalPair p 0xFB k x ↔ k = [] ∧ p.version > 0 ∧ x = Spec.le32 p.version := by
  constructor
  · intro h
    generalize ht : (0xFB : UInt8) = t at h
    cases h with
    | version h => exact ⟨rfl, h, rfl⟩
    | unknown h => exact absurd (by rw [← ht]; decide) (hu _ _ h)
    | _ => exact absurd ht (by decide)
  · rintro ⟨rfl, h, rfl⟩; exact .version h

theorem global_union {a b c : Psbt L} (ha : Spec.V0.UnknownsApart a) (hb : Spec.V0.UnknownsApart b)
    (h1 : NoConflict (GlobalPair a) (GlobalPair b)) (hc : a.combine b = (c, .ok ())) (t : UInt8) (k v : Bytes) :
    GlobalPair c t k v ↔ GlobalPair a t k v ∨ GlobalPair b t k v := by
  obtain ⟨-, hx, hg⟩ := combine_ok.mp hc
  have hs : ∀ y s s', a.xpub.get y = some s → b.xpub.get y = some s' → s = s' := fun y s s' h h' =>
    keySource_inj (h1 _ _ _ _ (.xpub h) (.xpub h'))
  have hx' : ∀ y s, c.xpub.get y = some s ↔ a.xpub.get y = some s ∨ b.xpub.get y = some s := fun y s => by
    have := hx y
    rw [mergeOpt_union (hs y), Option.some.injEq] at this
    rw [← this, or_iff (hs y)]
  have hu : ∀ u w, c.unknown.get u = some w ↔ a.unknown.get u = some w ∨ b.unknown.get u = some w := fun u w => by
    have : c.unknown = a.unknown.extend b.unknown := by rw [hg]
    rw [this, BMap.get_extend, or_iff fun s t hs ht => (h1 _ _ _ _ (.unknown ht) (.unknown hs)).symm, or_comm]
  refine records_union (C102_v0 ha hc).global h1 (fun _ _ _ h => absurd h List.not_mem_nil) ?_ t k v
  intro t k v ht
  rcases List.mem_cons.mp ht with ht | ht
  · rw [ht, xpub_pair, xpub_pair, xpub_pair]
    simp only [hx', hu, or_and_right, exists_or]
    exact or_or_or_comm
  · rw [List.mem_singleton.mp ht, version_pair (unknowns_apart ha hb hc).global, version_pair ha.global, version_pair hb.global,
      ← and_or_left]
    refine and_congr_right fun _ => ?_
    have hv : c.version = vmax a.version b.version := by rw [hg]
    have he : a.version > 0 → b.version > 0 → a.version = b.version := fun x y => le32_inj (h1 _ _ _ _ (.version x) (.version y))
    have hz : ∀ n : UInt32, ¬ n > 0 → n = 0 := fun n h => UInt32.toNat.inj (by
      have : ¬ (0 : UInt32).toNat < n.toNat := fun h' => h (UInt32.lt_iff_toNat_lt.mpr h')
      have h0 : (0 : UInt32).toNat = 0 := rfl
      omega)
    have hle : ∀ n : UInt32, (0 : UInt32) ≤ n := fun n => UInt32.le_iff_toNat_le.mpr (Nat.zero_le _)
    have hle' : ∀ n : UInt32, n > 0 → ¬ n ≤ 0 := fun n h h' => absurd h (UInt32.not_lt.mpr h')
    rw [hv]
    by_cases xa : a.version > 0
    · by_cases xb : b.version > 0
      · rw [he xa xb, vmax_self]; simp
      · rw [hz _ xb, vmax, if_neg (hle' _ xa)]; simp [xa]
    · rw [hz _ xa, vmax, if_pos (hle _)]; simp

/-- Two PSBTs that go together can be combined. -/
theorem together_ok {p q : Psbt L} (h : Spec.V0.Together p q) : ∃ r, p.combine q = (r, .ok ()) := by
  obtain ⟨x, hx⟩ := V2.mergeXpubs_total (m := p.xpub) (n := q.xpub) fun x =>
    ⟨_, mergeOpt_union fun s s' h1 h2 => keySource_inj (h.global _ _ _ _ (.xpub h1) (.xpub h2))⟩
  exact ⟨{ p with
      version := vmax p.version q.version
      xpub := x
      proprietary := p.proprietary.extend q.proprietary
      unknown := p.unknown.extend q.unknown
      inputs := combineZip Input.combine p.inputs q.inputs
      outputs := combineZip Output.combine p.outputs q.outputs }, combine_ok.mpr ⟨h.transaction, hx, rfl⟩⟩

/-- What is gathered from copies that go together goes together. -/
theorem together_union {S T : List (Psbt L)} {a b : Psbt L} (hS : ∃ p, p ∈ S) (hT : ∃ p, p ∈ T)
    (h : ∀ p ∈ S ++ T, ∀ q ∈ S ++ T, Spec.V0.Together p q) (ta : ∀ p ∈ S, a.unsignedTx = p.unsignedTx)
    (tb : ∀ p ∈ T, b.unsignedTx = p.unsignedTx) (ha : Spec.V0.UnionOf S a) (hb : Spec.V0.UnionOf T b) : Spec.V0.Together a b where
  transaction := by
    obtain ⟨p, hp⟩ := hS
    obtain ⟨q, hq⟩ := hT
    rw [ta p hp, tb q hq]
    exact (h p (List.mem_append_left _ hp) q (List.mem_append_right _ hq)).transaction
  global := noConflict_union ha.global hb.global fun p hp q hq => (h p hp q hq).global
  inputCount := by
    obtain ⟨p, hp⟩ := hS
    obtain ⟨q, hq⟩ := hT
    rw [ha.inputCount p hp, hb.inputCount q hq]
    exact (h p (List.mem_append_left _ hp) q (List.mem_append_right _ hq)).inputCount
  outputCount := by
    obtain ⟨p, hp⟩ := hS
    obtain ⟨q, hq⟩ := hT
    rw [ha.outputCount p hp, hb.outputCount q hq]
    exact (h p (List.mem_append_left _ hp) q (List.mem_append_right _ hq)).outputCount
  inputs n i j hi hj := by
    have hn : ∀ p ∈ S ++ T, ∃ c, p.inputs[n]? = some c := fun p hp => by
      rcases List.mem_append.mp hp with hp | hp
      · exact ⟨_, List.getElem?_eq_getElem (by rw [← ha.inputCount p hp]; exact (List.getElem?_eq_some_iff.mp hi).1)⟩
      · exact ⟨_, List.getElem?_eq_getElem (by rw [← hb.inputCount p hp]; exact (List.getElem?_eq_some_iff.mp hj).1)⟩
    refine fits_union (f := fun (p : Psbt L) t k v => ∃ i, p.inputs[n]? = some i ∧ InputPair i t k v) (ha.inputs n i hi) (hb.inputs n j hj) hS hT
      fun p hp q hq => ?_
    obtain ⟨c, hc⟩ := hn p hp
    obtain ⟨d, hd⟩ := hn q hq
    simp only [hc, hd, Option.some.injEq, exists_eq_left']
    exact (h p hp q hq).inputs n c d hc hd
  outputs n i j hi hj := by
    refine noConflict_union (f := fun (p : Psbt L) t k v => ∃ i, p.outputs[n]? = some i ∧ OutputPair i t k v) (ha.outputs n i hi) (hb.outputs n j hj)
      fun p hp q hq => ?_
    rintro t k v w ⟨c, hc, h1⟩ ⟨d, hd, h2⟩
    exact (h p hp q hq).outputs n c d hc hd t k v w h1 h2

/-- Combining what was gathered from two lists of copies. -/
theorem union_step {S T : List (Psbt L)} {a b r : Psbt L} (ha : Spec.V0.UnknownsApart a) (hb : Spec.V0.UnknownsApart b)
    (h1 : Spec.V0.Together a b) (h2 : Spec.V0.Together b a) (hr : a.combine b = (r, .ok ())) (uS : Spec.V0.UnionOf S a)
    (uT : Spec.V0.UnionOf T b) : Spec.V0.UnionOf (S ++ T) r := by
  obtain ⟨-, -, hg⟩ := combine_ok.mp hr
  have e2 : r.inputs = combineZip Input.combine a.inputs b.inputs := by rw [hg]
  have e3 : r.outputs = combineZip Output.combine a.outputs b.outputs := by rw [hg]
  have l2 : r.inputs.length = a.inputs.length := by rw [e2, combineZip_length]
  have l3 : r.outputs.length = a.outputs.length := by rw [e3, combineZip_length]
  refine ⟨fun t k v => ?_, fun p hp => ?_, fun p hp => ?_, fun n c hc t k v => ?_, fun n c hc t k v => ?_⟩
  · rw [global_union ha hb h1.global hr, uS.global, uT.global]
    simp only [List.mem_append, or_and_right, exists_or]
  · rcases List.mem_append.mp hp with hp | hp
    · rw [l2, uS.inputCount p hp]
    · rw [l2, h1.inputCount, uT.inputCount p hp]
  · rcases List.mem_append.mp hp with hp | hp
    · rw [l3, uS.outputCount p hp]
    · rw [l3, h1.outputCount, uT.outputCount p hp]
  · have hl := (List.getElem?_eq_some_iff.mp hc).1
    have hi : a.inputs[n]? = some (a.inputs[n]'(by omega)) := List.getElem?_eq_getElem _
    have hj : b.inputs[n]? = some (b.inputs[n]'(by have := h1.inputCount; omega)) := List.getElem?_eq_getElem _
    rw [e2, combineZip_getElem?, hi, hj, Option.some.injEq] at hc
    rw [← hc, input_union (ha.inputs _ (List.mem_of_getElem? hi)) (hb.inputs _ (List.mem_of_getElem? hj)) (h1.inputs n _ _ hi hj) (h2.inputs n _ _ hj hi),
      uS.inputs n _ hi, uT.inputs n _ hj]
    simp only [List.mem_append, or_and_right, exists_or]
  · have hl := (List.getElem?_eq_some_iff.mp hc).1
    have hi : a.outputs[n]? = some (a.outputs[n]'(by omega)) := List.getElem?_eq_getElem _
    have hj : b.outputs[n]? = some (b.outputs[n]'(by have := h1.outputCount; omega)) := List.getElem?_eq_getElem _
    rw [e3, combineZip_getElem?, hi, hj, Option.some.injEq] at hc
    rw [← hc, output_union (ha.outputs _ (List.mem_of_getElem? hi)) (h1.outputs n _ _ hi hj), uS.outputs n _ hi, uT.outputs n _ hj]
    simp only [List.mem_append, or_and_right, exists_or]

theorem union_one (p : Psbt L) : Spec.V0.UnionOf [p] p := by
  refine ⟨fun t k v => by simp, fun q hq => ?_, fun q hq => ?_, fun n c hc t k v => ?_, fun n c hc t k v => ?_⟩
  · rw [List.mem_singleton.mp hq]
  · rw [List.mem_singleton.mp hq]
  · simp [hc]
  · simp [hc]

/-- Copies that go together can be gathered. -/
theorem gather_union {P : Psbt L → Prop} (hP : ∀ a b r, P a → P b → a.combine b = (r, .ok ()) → P r) (t : Gathering (Psbt L))
    (h0 : ∀ p ∈ t.copies, P p) (h1 : ∀ p ∈ t.copies, Spec.V0.UnknownsApart p)
    (h2 : ∀ p ∈ t.copies, ∀ q ∈ t.copies, Spec.V0.Together p q) :
    ∃ r, Spec.V0.gather t = .ok r ∧ Spec.V0.UnionOf t.copies r ∧ (∀ p ∈ t.copies, r.unsignedTx = p.unsignedTx) ∧
      Spec.V0.UnknownsApart r ∧ P r := by
  induction t with
  | copy p =>
    exact ⟨p, rfl, union_one p, fun q hq => by rw [List.mem_singleton.mp hq], h1 p (List.mem_singleton.mpr rfl),
      h0 p (List.mem_singleton.mpr rfl)⟩
  | join x y ihx ihy =>
    obtain ⟨a, ea, ua, ta, ka, pa⟩ := ihx (fun p hp => h0 p (mem_copies_left hp)) (fun p hp => h1 p (mem_copies_left hp))
      fun p hp q hq => h2 p (mem_copies_left hp) q (mem_copies_left hq)
    obtain ⟨b, eb, ub, tb, kb, pb⟩ := ihy (fun p hp => h0 p (mem_copies_right hp)) (fun p hp => h1 p (mem_copies_right hp))
      fun p hp q hq => h2 p (mem_copies_right hp) q (mem_copies_right hq)
    have t1 := together_union (copies_some x) (copies_some y) h2 ta tb ua ub
    have t2 := together_union (copies_some y) (copies_some x) (fun p hp q hq => h2 p
      ((List.mem_append.mp hp).elim mem_copies_right mem_copies_left) q ((List.mem_append.mp hq).elim mem_copies_right mem_copies_left)) tb ta ub ua
    obtain ⟨r, hr⟩ := together_ok t1
    have er : r.unsignedTx = a.unsignedTx := by rw [(combine_ok.mp hr).2.2]
    refine ⟨r, by simp only [Spec.V0.gather, ea, eb, ok_bind, hr], union_step ka kb t1 t2 hr ua ub, fun p hp => ?_,
      unknowns_apart ka kb hr, hP _ _ _ pa pb hr⟩
    rcases List.mem_append.mp hp with hp | hp
    · rw [er, ta p hp]
    · rw [er, t1.transaction, tb p hp]

/-- What the records of a PSBT v0 satisfy. -/
structure RecordsSound (p : Psbt L) : Prop where
  global : GlobalSound p
  inputs : ∀ i ∈ p.inputs, Spec.V0.InputWF i
  outputs : ∀ o ∈ p.outputs, Spec.V0.OutputWF o

theorem recordsSound {p : Psbt L} (h : Spec.V0.WF p) : RecordsSound p :=
  ⟨⟨h.version, fun i hi => (h.unsigned i hi).2, h.sizes, h.props, h.unknowns⟩, h.inputs, h.outputs⟩

theorem RecordsSound.combine {p q r : Psbt L} (hp : RecordsSound p) (hq : RecordsSound q) (h : p.combine q = (r, .ok ())) : RecordsSound r := by
  obtain ⟨-, -, hg⟩ := combine_ok.mp h
  have e1 : r.inputs = combineZip Input.combine p.inputs q.inputs := by rw [hg]
  have e2 : r.outputs = combineZip Output.combine p.outputs q.outputs := by rw [hg]
  refine ⟨⟨?_, ?_, ?_, ?_, ?_⟩, ?_, ?_⟩
  · have : r.version = vmax p.version q.version := by rw [hg]
    rw [this, hp.global.version, hq.global.version]; rfl
  · have : r.unsignedTx = p.unsignedTx := by rw [hg]
    rw [this]; exact hp.global.unsigned
  · exact fun x hx => ((merged_global h).1 x hx).elim (hp.global.sizes x) (hq.global.sizes x)
  · have : r.proprietary = p.proprietary.extend q.proprietary := by rw [hg]
    rw [this]; exact fun k v h => (V2.extend_some h).elim (hp.global.props k v) (hq.global.props k v)
  · have : r.unknown = p.unknown.extend q.unknown := by rw [hg]
    rw [this]; exact fun k v h => (V2.extend_some h).elim (hp.global.unknowns k v) (hq.global.unknowns k v)
  · rw [e1]
    refine mem_combineZip (P := fun i => Spec.V0.InputWF i) (fun a b ha hb => ?_) hp.inputs hq.inputs
    have s := InputSound.combine (a := a) (b := b) ⟨ha.ripemd160, ha.sha256, ha.hash160, ha.hash256, ha.unknowns⟩
      ⟨hb.ripemd160, hb.sha256, hb.hash160, hb.hash256, hb.unknowns⟩
    exact { s with
      sizes := fun x hx => ((merged_input a b).1 x hx).elim (ha.sizes x) (hb.sizes x)
      props := fun k v h => (V2.extend_some h).elim (ha.props k v) (hb.props k v) }
  · rw [e2]
    refine mem_combineZip (P := fun i => Spec.V0.OutputWF i) (fun a b ha hb => ?_) hp.outputs hq.outputs
    exact ⟨fun x hx => ((merged_output a b).1 x hx).elim (ha.sizes x) (hb.sizes x),
      fun k v h => (V2.extend_some h).elim (ha.props k v) (hb.props k v), OutputSound.combine ha.unknowns hb.unknowns⟩

/-- PSBTs as parsed with the same records are the same. -/
theorem union_unique {S : List (Psbt L)} (hS : ∃ p, p ∈ S) {a b : Psbt L} (ha : RecordsSound a) (hb : RecordsSound b)
    (ua : Spec.V0.UnionOf S a) (ub : Spec.V0.UnionOf S b) : a = b := by
  obtain ⟨p, hp⟩ := hS
  have e1 := global_same ha.global hb.global fun t k v => (ua.global t k v).trans (ub.global t k v).symm
  have e2 : a.inputs = b.inputs := by
    refine List.ext_getElem ((ua.inputCount p hp).trans (ub.inputCount p hp).symm) fun n n1 n2 => ?_
    exact input_same (ha.inputs _ (List.getElem_mem n1)) (hb.inputs _ (List.getElem_mem n2)) fun t k v =>
      (ua.inputs n _ (List.getElem?_eq_getElem n1) t k v).trans (ub.inputs n _ (List.getElem?_eq_getElem n2) t k v).symm
  have e3 : a.outputs = b.outputs := by
    refine List.ext_getElem ((ua.outputCount p hp).trans (ub.outputCount p hp).symm) fun n n1 n2 => ?_
    exact output_same (ha.outputs _ (List.getElem_mem n1)) (hb.outputs _ (List.getElem_mem n2)) fun t k v =>
      (ua.outputs n _ (List.getElem?_eq_getElem n1) t k v).trans (ub.outputs n _ (List.getElem?_eq_getElem n2) t k v).symm
  have v1 := ha.global.version
  have v2 := hb.global.version
  cases a; cases b
  simp only [accOf, GlobalAcc.mk.injEq, Option.some.injEq] at e1 e2 e3 v1 v2
  obtain ⟨rfl, -, rfl, rfl, rfl⟩ := e1
  subst e2 e3 v1 v2
  rfl

end V0
end Psbt
