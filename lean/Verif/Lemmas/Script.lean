/- The script predicates recognise exactly the templates. -/
import Verif.Spec.Script
namespace Psbt
open Spec

theorem isP2sh_iff {s : Bytes} : isP2sh s = true ↔ P2sh s := by
  simp only [isP2sh, Bool.and_eq_true, beq_iff_eq]
  constructor
  · rintro ⟨⟨⟨hl, h0⟩, h1⟩, h22⟩
    match s, hl, h0, h1, h22 with
    | a :: b :: r, hl, h0, h1, h22 =>
      simp only [List.length_cons] at hl
      have e : r = r.take 20 ++ r.drop 20 := (List.take_append_drop 20 r).symm
      have hd : r.drop 20 = [0x87] := by
        have hl' : (r.drop 20).length = 1 := by simp; omega
        obtain ⟨x, hx⟩ := List.length_eq_one_iff.mp hl'
        have : (r.drop 20)[0]? = some 0x87 := by simpa using h22
        rw [hx] at this ⊢
        simpa using this
      refine ⟨⟨r.take 20, by simp; omega⟩, ?_⟩
      simp only [List.getElem?_cons_zero, Option.some.injEq, List.getElem?_cons_succ] at h0 h1
      subst h0 h1
      rw [hd] at e
      simpa using e
  · rintro ⟨⟨h, hl⟩, rfl⟩
    simp [hl]

theorem two_prefix {s : Bytes} {n : Nat} {a b : UInt8} :
    (s.length = n + 2 ∧ s[0]? = some a) ∧ s[1]? = some b ↔ ∃ h : FixedBytes n, s = [a, b] ++ h.1 := by
  constructor
  · rintro ⟨⟨hl, h0⟩, h1⟩
    match s, hl, h0, h1 with
    | x :: y :: r, hl, h0, h1 =>
      simp only [List.getElem?_cons_zero, Option.some.injEq, List.getElem?_cons_succ] at h0 h1
      subst h0 h1
      exact ⟨⟨r, by simpa using hl⟩, rfl⟩
  · rintro ⟨⟨h, hl⟩, rfl⟩
    simp [hl]

theorem isP2wpkh_iff {s : Bytes} : isP2wpkh s = true ↔ P2wpkh s := by
  simp only [isP2wpkh, Bool.and_eq_true, beq_iff_eq]; exact two_prefix
theorem isP2wsh_iff {s : Bytes} : isP2wsh s = true ↔ P2wsh s := by
  simp only [isP2wsh, Bool.and_eq_true, beq_iff_eq]; exact two_prefix
theorem isP2tr_iff {s : Bytes} : isP2tr s = true ↔ P2tr s := by
  simp only [isP2tr, Bool.and_eq_true, beq_iff_eq]; exact two_prefix

theorem isP2pkh_iff {s : Bytes} : isP2pkh s = true ↔ P2pkh s := by
  simp only [isP2pkh, Bool.and_eq_true, beq_iff_eq]
  constructor
  · rintro ⟨⟨⟨⟨⟨hl, h0⟩, h1⟩, h2⟩, h23⟩, h24⟩
    match s, hl, h0, h1, h2, h23, h24 with
    | a :: b :: c :: r, hl, h0, h1, h2, h23, h24 =>
      simp only [List.length_cons] at hl
      have e : r = r.take 20 ++ r.drop 20 := (List.take_append_drop 20 r).symm
      have hd : r.drop 20 = [0x88, 0xac] := by
        have hl' : (r.drop 20).length = 2 := by simp; omega
        obtain ⟨x, y, hx⟩ : ∃ x y, r.drop 20 = [x, y] := by
          match r.drop 20, hl' with
          | [x, y], _ => exact ⟨x, y, rfl⟩
        have a1 : (r.drop 20)[0]? = some 0x88 := by simpa using h23
        have a2 : (r.drop 20)[1]? = some 0xac := by simpa using h24
        rw [hx] at a1 a2 ⊢
        simp only [List.getElem?_cons_zero, Option.some.injEq, List.getElem?_cons_succ] at a1 a2
        rw [a1, a2]
      refine ⟨⟨r.take 20, by simp; omega⟩, ?_⟩
      simp only [List.getElem?_cons_zero, Option.some.injEq, List.getElem?_cons_succ] at h0 h1 h2
      subst h0 h1 h2
      rw [hd] at e
      simpa using e
  · rintro ⟨⟨h, hl⟩, rfl⟩
    simp [hl]

theorem isWitnessProgram_iff {s : Bytes} : isWitnessProgram s = true ↔ WitnessProgram s := by
  constructor
  · intro h
    match s, h with
    | v :: p :: r, h =>
      simp only [isWitnessProgram, Bool.and_eq_true, Bool.or_eq_true, beq_iff_eq, decide_eq_true_eq] at h
      obtain ⟨⟨⟨hl, hv⟩, hp⟩, hr⟩ := h
      have h2 : (2 : Nat) ≤ p.toNat := UInt8.le_iff_toNat_le.mp hp.1
      have h40 : p.toNat ≤ 40 := UInt8.le_iff_toNat_le.mp hp.2
      refine ⟨v, r, hv, by omega, by omega, ?_⟩
      rw [hr]
      simp
  · rintro ⟨v, prog, hv, h2, h40, rfl⟩
    have e : (UInt8.ofNat prog.length).toNat = prog.length := by
      rw [UInt8.toNat_ofNat']; omega
    simp only [isWitnessProgram, List.cons_append, List.nil_append, Bool.and_eq_true, Bool.or_eq_true, beq_iff_eq,
      decide_eq_true_eq, List.length_cons, e, UInt8.le_iff_toNat_le]
    refine ⟨⟨⟨by omega, ?_⟩, ?_⟩, trivial⟩
    · simpa [UInt8.le_iff_toNat_le] using hv
    · exact ⟨h2, h40⟩

theorem Spec.P2wpkh.witness {s : Bytes} (h : P2wpkh s) : WitnessProgram s := by
  obtain ⟨⟨h, hl⟩, rfl⟩ := h
  exact ⟨0, h, .inl rfl, by omega, by omega, by rw [hl]; rfl⟩
theorem Spec.P2wsh.witness {s : Bytes} (h : P2wsh s) : WitnessProgram s := by
  obtain ⟨⟨h, hl⟩, rfl⟩ := h
  exact ⟨0, h, .inl rfl, by omega, by omega, by rw [hl]; rfl⟩
theorem Spec.P2tr.witness {s : Bytes} (h : P2tr s) : WitnessProgram s := by
  obtain ⟨⟨h, hl⟩, rfl⟩ := h
  exact ⟨0x51, h, .inr (by decide), by omega, by omega, by rw [hl]; rfl⟩

theorem Spec.P2sh.not_witness {s : Bytes} (h : P2sh s) : ¬ WitnessProgram s := by
  obtain ⟨⟨h, hl⟩, rfl⟩ := h
  rintro ⟨v, prog, hv, -, -, e⟩
  simp only [List.cons_append, List.nil_append, List.cons.injEq] at e
  obtain ⟨rfl, -⟩ := e
  revert hv; decide

theorem Spec.P2wpkh.not_wsh {s : Bytes} (h : P2wpkh s) : ¬ P2wsh s := by
  obtain ⟨⟨h, hl⟩, rfl⟩ := h
  rintro ⟨h', e⟩
  simp at e
theorem Spec.P2wpkh.not_tr {s : Bytes} (h : P2wpkh s) : ¬ P2tr s := by
  obtain ⟨⟨h, hl⟩, rfl⟩ := h
  rintro ⟨h', e⟩
  simp at e
theorem Spec.P2wsh.not_tr {s : Bytes} (h : P2wsh s) : ¬ P2tr s := by
  obtain ⟨⟨h, hl⟩, rfl⟩ := h
  rintro ⟨h', e⟩
  simp at e

theorem redeem_is {f : Bytes → Bool} {P : Bytes → Prop} (hf : ∀ s, f s = true ↔ P s) {redeem : Option Bytes} :
    (redeem.map f).getD false = true ↔ ∃ r, redeem = some r ∧ P r := by
  cases redeem <;> simp [hf]

theorem outputTypeOf_iff {spk : Bytes} {redeem : Option Bytes} {t : OutputType} :
    outputTypeOf spk redeem = some t ↔ SpendType spk redeem t := by
  unfold outputTypeOf
  have b {c : Bool} {P : Prop} (h : c = true ↔ P) : c = false ↔ ¬ P := by rw [← h]; simp
  constructor
  · intro h
    split at h
    · rename_i hc
      simp only [Bool.not_eq_eq_eq_not, Bool.not_true, Bool.or_eq_false_iff] at hc
      cases h
      exact .bare ((b isP2sh_iff).mp hc.2) ((b isWitnessProgram_iff).mp hc.1)
    · split at h
      · rename_i hc; cases h; exact .wpkh (isP2wpkh_iff.mp hc)
      · split at h
        · rename_i hc; cases h; exact .wsh (isP2wsh_iff.mp hc)
        · split at h
          · rename_i hs
            have hs := isP2sh_iff.mp hs
            split at h
            · rename_i hc
              obtain ⟨r, hr, hp⟩ := (redeem_is (f := isP2wpkh) (fun _ => isP2wpkh_iff)).mp hc
              cases h; exact .shWpkh hs hr hp
            · rename_i hn1
              rw [redeem_is (fun _ => isP2wpkh_iff)] at hn1
              split at h
              · rename_i hc
                obtain ⟨r, hr, hp⟩ := (redeem_is (f := isP2wsh) (fun _ => isP2wsh_iff)).mp hc
                cases h; exact .shWsh hs hr hp
              · rename_i hn2
                rw [redeem_is (fun _ => isP2wsh_iff)] at hn2
                cases h
                exact .sh hs (fun r hr => ⟨fun hp => hn1 ⟨r, hr, hp⟩, fun hp => hn2 ⟨r, hr, hp⟩⟩)
          · split at h
            · rename_i hc; cases h; exact .tr (isP2tr_iff.mp hc)
            · cases h
  · intro h
    cases h with
    | wpkh h =>
      rw [if_neg (by simp [isWitnessProgram_iff.mpr h.witness]), if_pos (isP2wpkh_iff.mpr h)]
    | wsh h =>
      rw [if_neg (by simp [isWitnessProgram_iff.mpr h.witness]), if_neg (fun e => (isP2wpkh_iff.mp e).not_wsh h),
        if_pos (isP2wsh_iff.mpr h)]
    | tr h =>
      rw [if_neg (by simp [isWitnessProgram_iff.mpr h.witness]), if_neg (fun e => (isP2wpkh_iff.mp e).not_tr h),
        if_neg (fun e => (isP2wsh_iff.mp e).not_tr h), if_neg (fun e => (isP2sh_iff.mp e).not_witness h.witness),
        if_pos (isP2tr_iff.mpr h)]
    | shWpkh h hr hp =>
      rw [if_neg (by simp [isP2sh_iff.mpr h]), if_neg (fun e => h.not_witness (isP2wpkh_iff.mp e).witness),
        if_neg (fun e => h.not_witness (isP2wsh_iff.mp e).witness), if_pos (isP2sh_iff.mpr h),
        if_pos ((redeem_is (f := isP2wpkh) (fun _ => isP2wpkh_iff)).mpr ⟨_, hr, hp⟩)]
    | shWsh h hr hp =>
      rw [if_neg (by simp [isP2sh_iff.mpr h]), if_neg (fun e => h.not_witness (isP2wpkh_iff.mp e).witness),
        if_neg (fun e => h.not_witness (isP2wsh_iff.mp e).witness), if_pos (isP2sh_iff.mpr h),
        if_neg, if_pos ((redeem_is (f := isP2wsh) (fun _ => isP2wsh_iff)).mpr ⟨_, hr, hp⟩)]
      rw [redeem_is (fun _ => isP2wpkh_iff)]
      rintro ⟨r, hr', hp'⟩
      rw [hr] at hr'; cases hr'
      exact hp'.not_wsh hp
    | sh h hn =>
      rw [if_neg (by simp [isP2sh_iff.mpr h]), if_neg (fun e => h.not_witness (isP2wpkh_iff.mp e).witness),
        if_neg (fun e => h.not_witness (isP2wsh_iff.mp e).witness), if_pos (isP2sh_iff.mpr h), if_neg, if_neg]
      · rw [redeem_is (fun _ => isP2wsh_iff)]; rintro ⟨r, hr, hp⟩; exact (hn r hr).2 hp
      · rw [redeem_is (fun _ => isP2wpkh_iff)]; rintro ⟨r, hr, hp⟩; exact (hn r hr).1 hp
    | bare h1 h2 =>
      rw [if_pos]
      simp [(b isP2sh_iff).mpr h1, (b isWitnessProgram_iff).mpr h2]

theorem outputTypeOf_none {spk : Bytes} {redeem : Option Bytes} :
    outputTypeOf spk redeem = none ↔ WitnessProgram spk ∧ ¬ P2wpkh spk ∧ ¬ P2wsh spk ∧ ¬ P2tr spk := by
  constructor
  · intro h
    have no : ∀ t, ¬ SpendType spk redeem t := fun t ht => by rw [outputTypeOf_iff.mpr ht] at h; cases h
    have hsh : ¬ P2sh spk := by
      intro hs
      by_cases h1 : ∃ r, redeem = some r ∧ P2wpkh r
      · obtain ⟨r, hr, hp⟩ := h1; exact no _ (.shWpkh hs hr hp)
      · by_cases h2 : ∃ r, redeem = some r ∧ P2wsh r
        · obtain ⟨r, hr, hp⟩ := h2; exact no _ (.shWsh hs hr hp)
        · exact no _ (.sh hs fun r hr => ⟨fun hp => h1 ⟨r, hr, hp⟩, fun hp => h2 ⟨r, hr, hp⟩⟩)
    refine ⟨?_, fun e => no _ (.wpkh e), fun e => no _ (.wsh e), fun e => no _ (.tr e)⟩
    exact Classical.byContradiction fun hw => no _ (.bare hsh hw)
  · rintro ⟨hw, h1, h2, h3⟩
    cases e : outputTypeOf spk redeem with
    | none => rfl
    | some t =>
      have := outputTypeOf_iff.mp e
      cases this with
      | wpkh h => exact absurd h h1
      | wsh h => exact absurd h h2
      | tr h => exact absurd h h3
      | shWpkh h _ _ => exact absurd hw h.not_witness
      | shWsh h _ _ => exact absurd hw h.not_witness
      | sh h _ => exact absurd hw h.not_witness
      | bare _ h => exact absurd hw h

theorem p2wpkhScriptCode_iff {s c : Bytes} :
    p2wpkhScriptCode s = some c ↔ ∃ h : FixedBytes 20, s = [0x00, 0x14] ++ h.1 ∧ c = [0x76, 0xa9, 0x14] ++ h.1 ++ [0x88, 0xac] := by
  unfold p2wpkhScriptCode
  constructor
  · intro h
    split at h
    · rename_i hp
      obtain ⟨k, rfl⟩ := isP2wpkh_iff.mp hp
      cases h
      exact ⟨k, rfl, rfl⟩
    · cases h
  · rintro ⟨k, rfl, rfl⟩
    rw [if_pos (isP2wpkh_iff.mpr ⟨k, rfl⟩)]
    rfl

end Psbt
