/- Signing by several signers, PSBT v2. -/
import Verif.Props.V2Sign
import Verif.Lemmas.Combine
import Verif.Spec.Parallel
namespace Psbt.V2
open Psbt

variable {L : Lib} {S : SigLib L}

theorem outcome_congr {p a : Psbt L} {k : Provider S} {tx : Tx} (h : Spec.erase a = Spec.erase p) (n : Nat) :
    outcome S k tx a n = outcome S k tx p n := by
  rw [← outcome_erase k tx a n, h, outcome_erase]

theorem count_congr {p a : Psbt L} (h : Spec.erase a = Spec.erase p) : a.global.inputCount = p.global.inputCount := by
  have : (Spec.erase a).global.inputCount = (Spec.erase p).global.inputCount := by rw [h]
  exact this

theorem outputs_congr {p a : Psbt L} (h : Spec.erase a = Spec.erase p) : a.outputs = p.outputs := by
  have : (Spec.erase a).outputs = (Spec.erase p).outputs := by rw [h]
  exact this

theorem inputs_congr {p a : Psbt L} (h : Spec.erase a = Spec.erase p) (n : Nat) :
    a.inputs[n]?.map eraseI = p.inputs[n]?.map eraseI := by
  have := congrArg (fun q : Psbt L => q.inputs[n]?) h
  simp only [Spec.erase, List.getElem?_map] at this
  exact this

theorem length_congr {p a : Psbt L} (h : Spec.erase a = Spec.erase p) : a.inputs.length = p.inputs.length := by
  have := congrArg (fun q : Psbt L => q.inputs.length) h
  simpa only [Spec.erase, List.length_map] using this

theorem psbt_ext {p a : Psbt L} (h : Spec.erase a = Spec.erase p)
    (hf : a.global.txModifiableFlags = p.global.txModifiableFlags) (hi : a.inputs = p.inputs) : a = p := by
  obtain ⟨ag, ai, ao⟩ := a
  obtain ⟨pg, pi, po⟩ := p
  simp only at hf hi
  have ho := outputs_congr h
  simp only at ho
  subst hi ho
  have hg := congrArg (fun q : Psbt L => q.global) h
  simp only [Spec.erase] at hg
  have e1 : ag = { { ag with txModifiableFlags := 0 } with txModifiableFlags := ag.txModifiableFlags } := by cases ag; rfl
  have e2 : pg = { { pg with txModifiableFlags := 0 } with txModifiableFlags := pg.txModifiableFlags } := by cases pg; rfl
  rw [e1, e2, hg, hf]

/-- Signing a PSBT that differs in signatures and flags only gets as far, and reports the same. -/
theorem sign_congr {p a b : Psbt L} {k : Provider S} {tx : Tx} {r} (he : Spec.erase a = Spec.erase p)
    (h : p.sign S tx k = .ok (b, r)) : ∃ ab, a.sign S tx k = .ok (ab, r) := by
  have hno : ∀ n ∈ List.range p.global.inputCount.toNat, ∀ m, outcome S k tx p n ≠ .panic m := by
    intro n hn m hm
    obtain ⟨s, hs⟩ := sign_no_panic (by simpa using hn) hm
    rw [h] at hs; cases hs
  cases e : a.sign S tx k with
  | error x =>
    exfalso
    unfold Psbt.sign at e
    rcases signAll_ok k tx a (List.range a.global.inputCount.toNat) ⟨a, .empty, .empty⟩ rfl with ⟨-, h1⟩ | ⟨n, hn, m, hm, h1⟩
    · rw [h1] at e; cases e
    · rw [count_congr he] at hn
      rw [outcome_congr he] at hm
      exact hno n hn m hm
  | ok x =>
    obtain ⟨ab, r'⟩ := x
    refine ⟨ab, ?_⟩
    have h1 := (sign_ok h).2
    have h2 := (sign_ok e).2
    have hu : (final S k tx a).used = (final S k tx p).used := by
      apply BMap.ext_get
      intro j
      unfold final
      rw [fold_used, fold_used, count_congr he, outcome_congr he]
    have hr : (final S k tx a).errors = (final S k tx p).errors := by
      apply BMap.ext_get
      intro j
      unfold final
      rw [fold_err, fold_err, count_congr he, outcome_congr he]
    rw [hu, hr, ← h1] at h2
    rw [h2]

/-- The inputs after signing. -/
theorem sign_input {p q : Psbt L} {k : Provider S} {tx : Tx} {r} (h : p.sign S tx k = .ok (q, r)) (n : Nat) :
    q.inputs[n]? = p.inputs[n]?.map fun i =>
      if n < p.global.inputCount.toNat then { i with partialSigs := (outcome S k tx p n).sigs i.partialSigs } else i := by
  rw [(sign_ok h).1]
  have := fold_inputs (outcome S k tx p) (List.range p.global.inputCount.toNat) List.nodup_range ⟨p, .empty, .empty⟩ n
  simp only [List.mem_range] at this
  exact this

theorem signs_congr {p a : Psbt L} {tx : Tx} {n : Nat} (he : Spec.erase a = Spec.erase p) (P : EcdsaTy → Prop) (k : Provider S) :
    (∃ i m ty, Spec.Signs tx a n i m ty ∧ P ty) ↔ (∃ i m ty, Spec.Signs tx p n i m ty ∧ P ty) := by
  have key : ∀ x : Psbt L, (∃ i m ty, Spec.Signs tx x n i m ty ∧ P ty) ↔
      ∃ m ty keys, outcome S k tx x n = .signed m ty keys ∧ P ty := by
    intro x
    constructor
    · rintro ⟨i, m, ty, hs, hp⟩
      exact ⟨m, ty, _, outcome_signed.mpr ⟨i, hs, rfl⟩, hp⟩
    · rintro ⟨m, ty, keys, ho, hp⟩
      obtain ⟨i, hs, -⟩ := outcome_signed.mp ho
      exact ⟨i, m, ty, hs, hp⟩
  rw [key a, key p, outcome_congr he]

/-- The flags after signing depend neither on the keys nor on how often one signs. -/
theorem flags_eq {p a b : Psbt L} {ka kb : Provider S} {tx : Tx} {ra rb}
    (ha : p.sign S tx ka = .ok (a, ra)) (hb : p.sign S tx kb = .ok (b, rb)) :
    a.global.txModifiableFlags = b.global.txModifiableFlags := by
  obtain ⟨a0, a1, a2, a3⟩ := C34_flags ha
  obtain ⟨b0, b1, b2, b3⟩ := C34_flags hb
  apply UInt8.toNat_inj.mp
  apply Nat.eq_of_testBit_eq
  intro x
  change Spec.flag a x = Spec.flag b x
  by_cases h0 : x = 0
  · subst h0; exact Bool.eq_iff_iff.mpr (a0.trans b0.symm)
  by_cases h1 : x = 1
  · subst h1; exact Bool.eq_iff_iff.mpr (a1.trans b1.symm)
  by_cases h2 : x = 2
  · subst h2; exact Bool.eq_iff_iff.mpr (a2.trans b2.symm)
  · rw [a3 x (by omega), b3 x (by omega)]

theorem flags_again {p a b : Psbt L} {ka kb : Provider S} {tx : Tx} {ra rb}
    (ha : p.sign S tx ka = .ok (a, ra)) (hb : a.sign S tx kb = .ok (b, rb)) :
    b.global.txModifiableFlags = a.global.txModifiableFlags := by
  have he := C33_frame ha
  obtain ⟨a0, a1, a2, a3⟩ := C34_flags ha
  obtain ⟨b0, b1, b2, b3⟩ := C34_flags hb
  have all : ∀ P : EcdsaTy → Prop, (∀ n i m ty, Spec.Signs tx a n i m ty → P ty) ↔ ∀ n i m ty, Spec.Signs tx p n i m ty → P ty := by
    intro P
    constructor
    · intro h n i m ty hs
      obtain ⟨i', m', ty', hs', e⟩ := (signs_congr he (fun t => t = ty) kb).mpr ⟨i, m, ty, hs, rfl⟩
      exact e ▸ h n i' m' ty' hs'
    · intro h n i m ty hs
      obtain ⟨i', m', ty', hs', e⟩ := (signs_congr he (fun t => t = ty) kb).mp ⟨i, m, ty, hs, rfl⟩
      exact e ▸ h n i' m' ty' hs'
  have ex : ∀ P : EcdsaTy → Prop, (∃ n i m ty, Spec.Signs tx a n i m ty ∧ P ty) ↔ ∃ n i m ty, Spec.Signs tx p n i m ty ∧ P ty := by
    intro P
    exact exists_congr fun n => signs_congr he P kb
  apply UInt8.toNat_inj.mp
  apply Nat.eq_of_testBit_eq
  intro x
  change Spec.flag b x = Spec.flag a x
  by_cases h0 : x = 0
  · subst h0
    rw [Bool.eq_iff_iff, b0, a0, all fun ty => ty.1 = 0x81 ∨ ty.1 = 0x82 ∨ ty.1 = 0x83]
    exact ⟨fun h => h.1, fun h => ⟨h, h.2⟩⟩
  by_cases h1 : x = 1
  · subst h1
    rw [Bool.eq_iff_iff, b1, a1, all fun ty => ty.1 = 0x02 ∨ ty.1 = 0x82]
    exact ⟨fun h => h.1, fun h => ⟨h, h.2⟩⟩
  by_cases h2 : x = 2
  · subst h2
    rw [Bool.eq_iff_iff, b2, a2, ex fun ty => ty.1 = 0x03 ∨ ty.1 = 0x83]
    exact ⟨fun h => h.elim id .inr, .inl⟩
  · rw [b3 x (by omega)]

theorem addSigs_get {m : Hash32} {ty : EcdsaTy} (keys : List S.SK) (sigs : BMap L.pubkey.T (EcdsaSig L)) (pk : L.pubkey.T) :
    (Spec.addSigs S m ty keys sigs).get pk = ((Spec.addSigs S m ty keys .empty).get pk).or (sigs.get pk) := by
  have key : ∀ keys : List S.SK, ∀ s t : BMap L.pubkey.T (EcdsaSig L), ∀ o : Option (EcdsaSig L), s.get pk = (t.get pk).or o →
      (Spec.addSigs S m ty keys s).get pk = ((Spec.addSigs S m ty keys t).get pk).or o := by
    intro keys
    induction keys with
    | nil => exact fun s t o h => h
    | cons sk sks ih =>
      intro s t o h
      apply ih
      rw [BMap.get_insert, BMap.get_insert]
      by_cases hp : pk = S.pub sk
      · simp [hp]
      · simp only [if_neg hp, h]
  exact key keys sigs .empty _ (by rw [BMap.get_empty]; rfl)

theorem addSigs_none {m : Hash32} {ty : EcdsaTy} (keys : List S.SK) (pk : L.pubkey.T) :
    (Spec.addSigs S m ty keys .empty).get pk = none ↔ pk ∉ keys.map S.pub := by
  constructor
  · intro h hm
    obtain ⟨_, _, _, h'⟩ := addSigs_mem (m := m) (ty := ty) keys .empty hm
    rw [h] at h'; cases h'
  · intro h
    rw [addSigs_other _ _ h, BMap.get_empty]

end Psbt.V2
