/- C38, C55: sighash types and their text, key providers. -/
import Verif.Props.V2Sighash
import Verif.Spec.DemoSig
import Verif.Spec.SighashText
namespace Psbt
open Psbt

variable {L : Lib} {S : SigLib L}

/-! ### C38 -/

/-- C38. Conversion from a number to an ECDSA sighash type: it succeeds exactly for the six standard values, and is the
inverse of the conversion to a number. -/
theorem C38_ecdsa (n : UInt32) (t : EcdsaTy) :
    (ecdsaHashTy n = some t ↔ ofEcdsaTy t = n) ∧ ecdsaHashTy (ofEcdsaTy t) = some t ∧
    ((∃ t, ecdsaHashTy n = some t) ↔ n = 1 ∨ n = 2 ∨ n = 3 ∨ n = 0x81 ∨ n = 0x82 ∨ n = 0x83) := by
  refine ⟨by rw [V2.ecdsaHashTy_iff]; exact eq_comm, V2.ecdsaHashTy_iff.mpr rfl, ?_⟩
  constructor
  · rintro ⟨t, h⟩
    rw [V2.ecdsaHashTy_iff] at h
    subst h
    rcases V2.ecdsaTy_cases t with h | h | h | h | h | h <;> rw [h] <;> decide
  · intro h
    cases e : ecdsaHashTy n with
    | some t => exact ⟨t, rfl⟩
    | none =>
      refine absurd ?_ (V2.ecdsaHashTy_none.mp e)
      simpa using h

theorem tapTy_cases (t : TapTy) :
    t.1 = 0 ∨ t.1 = 1 ∨ t.1 = 2 ∨ t.1 = 3 ∨ t.1 = 0x81 ∨ t.1 = 0x82 ∨ t.1 = 0x83 := by
  obtain ⟨n, h⟩ := t
  revert n
  exact forall_u8 (by decide +kernel)

theorem taproot_iff {n : UInt32} {t : TapTy} : taprootHashTy n = some t ↔ ofTapTy t = n := by
  unfold taprootHashTy ofTapTy
  constructor
  · intro h
    split at h
    · cases h
    · rename_i hn
      split at h
      · cases h
        have : n.toNat ≤ 255 := by simpa [UInt32.lt_iff_toNat_lt] using hn
        apply UInt32.toNat_inj.mp
        simp
        omega
      · cases h
  · rintro rfl
    have h1 : ¬ t.1.toUInt32 > 0xff := by
      have := t.1.toNat_lt
      simp only [gt_iff_lt, UInt32.lt_iff_toNat_lt, UInt8.toNat_toUInt32, UInt32.reduceToNat]
      omega
    have h2 : t.1.toUInt32.toUInt8 = t.1 := by simp
    rw [if_neg h1, dif_pos (by rw [h2]; exact t.2)]
    congr 1
    exact Subtype.ext h2

/-- C38. The same for taproot sighash types, with seven standard values. -/
theorem C38_taproot (n : UInt32) (t : TapTy) :
    (taprootHashTy n = some t ↔ ofTapTy t = n) ∧ taprootHashTy (ofTapTy t) = some t ∧
    ((∃ t, taprootHashTy n = some t) ↔ n = 0 ∨ n = 1 ∨ n = 2 ∨ n = 3 ∨ n = 0x81 ∨ n = 0x82 ∨ n = 0x83) := by
  refine ⟨taproot_iff, taproot_iff.mpr rfl, ?_⟩
  constructor
  · rintro ⟨t, h⟩
    rw [taproot_iff] at h
    subst h
    unfold ofTapTy
    rcases tapTy_cases t with h | h | h | h | h | h | h <;> rw [h] <;> decide
  · rintro (rfl | rfl | rfl | rfl | rfl | rfl | rfl) <;> exact ⟨_, rfl⟩

/-- C38. The raw number is not altered. -/
theorem C38_u32 (n : UInt32) : sighashToU32 (sighashFromU32 n) = n := rfl

theorem digitOf_hexDigit {n : Nat} (h : n < 16) : digitOf (hexDigit n) = some n := by
  have : ∀ n : Fin 16, digitOf (hexDigit n.1) = some n.1 := by decide
  exact this ⟨n, h⟩

theorem hexDigit_ne {n : Nat} (h : n < 16) : hexDigit n ≠ 'x' ∧ hexDigit n ≠ '+' := by
  have : ∀ n : Fin 16, hexDigit n.1 ≠ 'x' ∧ hexDigit n.1 ≠ '+' := by decide
  exact this ⟨n, h⟩

theorem radixLoop_hexStr (n : Nat) (hn : n < 2 ^ 32) (cs : List Char) : radixLoop 0 (hexStr n ++ cs) = radixLoop n cs := by
  induction n using Nat.strongRecOn generalizing cs with
  | ind n ih =>
    rw [hexStr]
    split
    · rename_i h
      rw [List.singleton_append, radixLoop, digitOf_hexDigit h]
      simp only [Nat.zero_mul, Nat.zero_add, hn, if_true]
    · rename_i h
      rw [List.append_assoc, ih (n / 16) (by omega) (by omega), List.singleton_append, radixLoop,
        digitOf_hexDigit (Nat.mod_lt _ (by decide))]
      have : n / 16 * 16 + n % 16 = n := by omega
      simp only [this, hn, if_true]

theorem hexStr_chars (n : Nat) : hexStr n ≠ [] ∧ ∀ c ∈ hexStr n, c ≠ 'x' ∧ c ≠ '+' := by
  induction n using Nat.strongRecOn with
  | ind n ih =>
    rw [hexStr]
    split
    · rename_i h
      refine ⟨by simp, ?_⟩
      intro c hc
      rw [List.mem_singleton] at hc
      subst hc
      exact hexDigit_ne h
    · rename_i h
      refine ⟨by simp, ?_⟩
      intro c hc
      rcases List.mem_append.mp hc with hc | hc
      · exact (ih (n / 16) (by omega)).2 c hc
      · rw [List.mem_singleton] at hc
        subst hc
        exact hexDigit_ne (Nat.mod_lt _ (by decide))

theorem trim0x_of_no_x {s : List Char} (h : ∀ c ∈ s, c ≠ 'x') : trim0x s = s := by
  unfold trim0x
  split
  · rename_i cs
    exact absurd rfl (h 'x' (by simp))
  · rfl

theorem fromStrRadix16_of_no_plus {s : List Char} (hs : s ≠ []) (h : ∀ c ∈ s, c ≠ '+') : fromStrRadix16 s = radixLoop 0 s := by
  unfold fromStrRadix16
  split
  · exact absurd rfl hs
  · exact absurd rfl (h '+' (by simp))
  · exact absurd rfl (h '+' (by simp))
  · rfl

theorem tapOfName_tapName (t : TapTy) : tapOfName (tapName t) = some t := by
  obtain ⟨n, h⟩ := t
  have := tapTy_cases ⟨n, h⟩
  simp only at this
  rcases this with rfl | rfl | rfl | rfl | rfl | rfl | rfl <;> rfl

theorem tapOfName_none {s : List Char} (h : s.head? ≠ some 'S') : tapOfName s = none := by
  unfold tapOfName
  iterate 7
    rw [if_neg]
    rotate_left
    · intro e
      rw [e] at h
      exact h rfl

theorem tapOfName_0x (s : List Char) : tapOfName ('0' :: 'x' :: s) = none := tapOfName_none (by simp)

/-- C38. Writing a sighash type as text and reading it back gives the same number, whether or not it is standard. -/
theorem C38_text (n : UInt32) : sighashFromStr (sighashDisplay n) = some n := by
  unfold sighashFromStr sighashDisplay
  cases e : taprootHashTy n with
  | some t =>
    simp only [tapOfName_tapName]
    rw [taproot_iff.mp e]
  | none =>
    simp only [tapOfName_0x]
    obtain ⟨h1, h2⟩ := hexStr_chars n.toNat
    have : trim0x ('0' :: 'x' :: hexStr n.toNat) = hexStr n.toNat := by
      rw [trim0x, trim0x_of_no_x fun c hc => (h2 c hc).1]
    rw [this, fromStrRadix16_of_no_plus h1 fun c hc => (h2 c hc).2]
    have := radixLoop_hexStr n.toNat n.toNat_lt []
    rw [List.append_nil, radixLoop] at this
    rw [this]
    simp

/-- C38. No two numbers have the same text. -/
theorem C38_text_injective {n m : UInt32} (h : sighashDisplay n = sighashDisplay m) : n = m := by
  have := C38_text n
  rw [h, C38_text] at this
  exact (Option.some.inj this).symm

/-- C38. Reading a number in hexadecimal, with or without the prefix `0x`. -/
theorem C38_hex (n : UInt32) : sighashFromStr ('0' :: 'x' :: hexStr n.toNat) = some n ∧ sighashFromStr (hexStr n.toNat) = some n := by
  obtain ⟨h1, h2⟩ := hexStr_chars n.toNat
  have hr := radixLoop_hexStr n.toNat n.toNat_lt []
  rw [List.append_nil, radixLoop] at hr
  constructor
  · unfold sighashFromStr
    simp only [tapOfName_0x]
    have : trim0x ('0' :: 'x' :: hexStr n.toNat) = hexStr n.toNat := by
      rw [trim0x, trim0x_of_no_x fun c hc => (h2 c hc).1]
    rw [this, fromStrRadix16_of_no_plus h1 fun c hc => (h2 c hc).2, hr]
    simp
  · unfold sighashFromStr
    have hd : ∀ c ∈ hexStr n.toNat, digitOf c ≠ none := by
      intro c hc hn
      have hloop : ∀ (l : List Char) (acc : Nat), c ∈ l → radixLoop acc l = none := by
        intro l
        induction l with
        | nil => intro _ h; cases h
        | cons d l ih =>
          intro acc hm
          rw [radixLoop]
          rcases List.mem_cons.mp hm with rfl | hm
          · rw [hn]
          · split
            · rfl
            · split
              · exact ih _ hm
              · rfl
      rw [hloop _ _ hc] at hr
      cases hr
    have hno : tapOfName (hexStr n.toNat) = none := by
      apply tapOfName_none
      intro h
      exact hd 'S' (List.mem_of_mem_head? h) (by decide)
    simp only [hno]
    rw [trim0x_of_no_x fun c hc => (h2 c hc).1, fromStrRadix16_of_no_plus h1 fun c hc => (h2 c hc).2, hr]
    simp

theorem digitOf_iff {c : Char} {d : Nat} : digitOf c = some d ↔ (c, d) ∈ Spec.anyDigits := by
  constructor
  · intro h
    have key : ∀ n : Fin 128, ∀ d, digitOf (Char.ofNat n.1) = some d → (Char.ofNat n.1, d) ∈ Spec.anyDigits := by
      have : ∀ n : Fin 128, ∀ d ∈ (digitOf (Char.ofNat n.1)).toList, (Char.ofNat n.1, d) ∈ Spec.anyDigits := by decide +kernel
      intro n d hd
      exact this n d (by rw [hd]; exact List.mem_singleton.mpr rfl)
    have hc : c.toNat < 128 := by
      unfold digitOf at h
      simp only at h
      split at h
      · omega
      split at h
      · omega
      split at h
      · omega
      · cases h
    have := key ⟨c.toNat, hc⟩ d
    rw [Char.ofNat_toNat] at this
    exact this h
  · intro h
    have : ∀ x ∈ Spec.anyDigits, digitOf x.1 = some x.2 := by decide
    exact this _ h

theorem value_snoc (a : Nat) (ds : List (Char × Nat)) : a ≤ ds.foldl (fun a d => 16 * a + d.2) a := by
  induction ds generalizing a with
  | nil => exact Nat.le_refl _
  | cons d ds ih => exact Nat.le_trans (by simp only; omega) (ih _)

theorem radixLoop_iff {acc : Nat} (ha : acc < 2 ^ 32) {s : List Char} {n : Nat} : radixLoop acc s = some n ↔
    ∃ ds : List (Char × Nat), s = ds.map Prod.fst ∧ (∀ d ∈ ds, d ∈ Spec.anyDigits) ∧ ds.foldl (fun a d => 16 * a + d.2) acc = n ∧ n < 2 ^ 32 := by
  induction s generalizing acc with
  | nil =>
    rw [radixLoop]
    constructor
    · intro h; cases h; exact ⟨[], rfl, by simp, rfl, ha⟩
    · rintro ⟨ds, h1, -, h3, -⟩
      have : ds = [] := List.map_eq_nil_iff.mp h1.symm
      subst this
      exact congrArg some h3
  | cons c s ih =>
    rw [radixLoop]
    constructor
    · intro h
      split at h
      · cases h
      · rename_i d hd
        split at h
        · rename_i hlt
          obtain ⟨ds, h1, h2, h3, h4⟩ := (ih hlt).mp h
          refine ⟨(c, d) :: ds, by rw [h1]; rfl, ?_, ?_, h4⟩
          · intro x hx
            rcases List.mem_cons.mp hx with rfl | hx
            · exact digitOf_iff.mp hd
            · exact h2 x hx
          · rw [List.foldl_cons, Nat.mul_comm]; exact h3
        · cases h
    · rintro ⟨ds, h1, h2, h3, h4⟩
      cases ds with
      | nil => cases h1
      | cons x ds =>
        simp only [List.map_cons, List.cons.injEq] at h1
        obtain ⟨rfl, rfl⟩ := h1
        have hx := digitOf_iff.mpr (h2 _ List.mem_cons_self)
        rw [hx]
        simp only [List.foldl_cons] at h3
        have hle := value_snoc (16 * acc + x.2) ds
        rw [h3] at hle
        have hlt : acc * 16 + x.2 < 2 ^ 32 := by omega
        simp only [hlt, if_true]
        refine (ih hlt).mpr ⟨ds, rfl, fun d hd => h2 d (List.mem_cons_of_mem _ hd), ?_, h4⟩
        rw [Nat.mul_comm]; exact h3

theorem anyDigit_char : ∀ d ∈ Spec.anyDigits, d.1 ≠ 'x' ∧ d.1 ≠ '+' ∧ d.1 ≠ 'S' := by decide

theorem radix16_iff {s : List Char} {n : UInt32} : fromStrRadix16 s = some n.toNat ↔
    ∃ (plus : Bool) (ds : List (Char × Nat)), s = (if plus then ['+'] else []) ++ ds.map Prod.fst ∧ (∀ d ∈ ds, d ∈ Spec.anyDigits) ∧
      ds ≠ [] ∧ Spec.value ds = n.toNat := by
  have no : ∀ {ds : List (Char × Nat)} {cs : List Char}, (∀ d ∈ ds, d ∈ Spec.anyDigits) → '+' :: cs ≠ ds.map Prod.fst := by
    intro ds cs h e
    cases ds with
    | nil => cases e
    | cons d ds =>
      simp only [List.map_cons, List.cons.injEq] at e
      exact (anyDigit_char d (h d List.mem_cons_self)).2.1 e.1.symm
  unfold fromStrRadix16
  split
  · refine ⟨nofun, ?_⟩
    rintro ⟨plus, ds, h1, h2, h3, h4⟩
    exact absurd (List.map_eq_nil_iff.mp (List.append_eq_nil_iff.mp h1.symm).2) h3
  · refine ⟨nofun, ?_⟩
    rintro ⟨plus, ds, h1, h2, h3, h4⟩
    cases plus with
    | true =>
      simp only [if_true, List.cons_append, List.nil_append, List.cons.injEq, true_and] at h1
      exact absurd (List.map_eq_nil_iff.mp h1.symm) h3
    | false => exact absurd h1 (no h2)
  · rename_i cs hcs
    rw [radixLoop_iff (by decide)]
    constructor
    · rintro ⟨ds, rfl, h2, h3, h4⟩
      exact ⟨true, ds, rfl, h2, fun e => hcs (by rw [e]; rfl), h3⟩
    · rintro ⟨plus, ds, h1, h2, h3, h4⟩
      cases plus with
      | true =>
        simp only [if_true, List.cons_append, List.nil_append, List.cons.injEq, true_and] at h1
        exact ⟨ds, h1, h2, h4, n.toNat_lt⟩
      | false => exact absurd h1 (no h2)
  · rename_i h0 h1 h2
    rw [radixLoop_iff (by decide)]
    constructor
    · rintro ⟨ds, e1, e2, e3, e4⟩
      exact ⟨false, ds, e1, e2, fun e => h0 (by rw [e1, e]; rfl), e3⟩
    · rintro ⟨plus, ds, e1, e2, e3, e4⟩
      cases plus with
      | true => exact absurd e1 (h2 _)
      | false => exact ⟨ds, e1, e2, e4, n.toNat_lt⟩

theorem trim0x_split (s : List Char) : ∃ k, s = (List.replicate k ['0', 'x']).flatten ++ trim0x s := by
  fun_induction trim0x s with
  | case1 cs ih =>
    obtain ⟨k, h⟩ := ih
    exact ⟨k + 1, by rw [List.replicate_succ, List.flatten_cons, List.append_assoc, ← h]; rfl⟩
  | case2 cs => exact ⟨0, rfl⟩

theorem trim0x_replicate (k : Nat) (s : List Char) : trim0x ((List.replicate k ['0', 'x']).flatten ++ s) = trim0x s := by
  induction k with
  | zero => rfl
  | succ k ih =>
    rw [List.replicate_succ, List.flatten_cons, List.append_assoc]
    exact ih

theorem tapOfName_some {s : List Char} {t : TapTy} (h : tapOfName s = some t) : ∃ x, (x, ofTapTy t) ∈ Spec.sighashNames ∧ s = x.toList := by
  unfold tapOfName at h
  iterate 7
    split at h
    · rename_i e; cases h; exact ⟨_, by simp only [Spec.sighashNames, ofTapTy]; decide, e⟩
  cases h

/-- C38. Exactly these texts are read: the seven names, and hexadecimal numbers that fit into 32 bits, in either case. -/
theorem C38_reads_iff (s : List Char) (n : UInt32) : sighashFromStr s = some n ↔ Spec.SighashText s n := by
  unfold sighashFromStr
  constructor
  · intro h
    split at h
    · rename_i t ht
      cases h
      obtain ⟨x, h1, rfl⟩ := tapOfName_some ht
      exact .name h1
    · split at h
      · rename_i m hm
        cases h
        have hlt : m < 2 ^ 32 := by
          unfold fromStrRadix16 at hm
          split at hm
          · cases hm
          · cases hm
          · exact ((radixLoop_iff (by decide)).mp hm).choose_spec.2.2.2
          · exact ((radixLoop_iff (by decide)).mp hm).choose_spec.2.2.2
        have e : (UInt32.ofNat m).toNat = m := by simp [Nat.mod_eq_of_lt hlt]
        rw [← e] at hm
        obtain ⟨plus, ds, h1, h2, h3, h4⟩ := radix16_iff.mp hm
        obtain ⟨k, hk⟩ := trim0x_split s
        rw [hk, h1, ← List.append_assoc]
        exact .number k plus h2 h3 h4
      · cases h
  · intro h
    cases h with
    | name h =>
      simp only [Spec.sighashNames, List.mem_cons, List.not_mem_nil, or_false, Prod.mk.injEq] at h
      rcases h with ⟨rfl, rfl⟩ | ⟨rfl, rfl⟩ | ⟨rfl, rfl⟩ | ⟨rfl, rfl⟩ | ⟨rfl, rfl⟩ | ⟨rfl, rfl⟩ | ⟨rfl, rfl⟩ <;> rfl
    | @number ds n k plus h1 h2 h3 =>
      have hr := radix16_iff.mpr ⟨plus, ds, rfl, h1, h2, h3⟩
      have hx : ∀ c ∈ (if plus then ['+'] else []) ++ ds.map Prod.fst, c ≠ 'x' ∧ c ≠ 'S' := by
        intro c hc
        rcases List.mem_append.mp hc with hc | hc
        · cases plus with
          | true => obtain rfl := List.mem_singleton.mp hc; decide
          | false => cases hc
        · obtain ⟨d, hd, rfl⟩ := List.mem_map.mp hc
          exact ⟨(anyDigit_char d (h1 d hd)).1, (anyDigit_char d (h1 d hd)).2.2⟩
      have hS : tapOfName ((List.replicate k ['0', 'x']).flatten ++ (if plus then ['+'] else []) ++ ds.map Prod.fst) = none := by
        apply tapOfName_none
        intro e
        rw [List.append_assoc] at e
        cases k with
        | zero => exact (hx 'S' (List.mem_of_mem_head? e)).2 rfl
        | succ k => rw [List.replicate_succ] at e; simp at e
      rw [hS]
      simp only
      rw [List.append_assoc, trim0x_replicate, trim0x_of_no_x fun c hc => (hx c hc).1, hr]
      simp

/-- C38. What is written is a name where there is one, and otherwise `0x` and the number in lower case without leading zeros. -/
theorem C38_writes (n : UInt32) :
    (∀ x, (x, n) ∈ Spec.sighashNames → sighashDisplay n = x.toList) ∧
    ((∀ x, (x, n) ∉ Spec.sighashNames) → ∃ ds, (∀ d ∈ ds, d ∈ Spec.lowerDigits) ∧ ds.head?.map Prod.snd ≠ some 0 ∧ Spec.value ds = n.toNat ∧
      sighashDisplay n = '0' :: 'x' :: ds.map Prod.fst) := by
  constructor
  · intro x h
    simp only [Spec.sighashNames, List.mem_cons, List.not_mem_nil, or_false, Prod.mk.injEq] at h
    rcases h with ⟨rfl, rfl⟩ | ⟨rfl, rfl⟩ | ⟨rfl, rfl⟩ | ⟨rfl, rfl⟩ | ⟨rfl, rfl⟩ | ⟨rfl, rfl⟩ | ⟨rfl, rfl⟩ <;> rfl
  · intro h
    have hn : taprootHashTy n = none := by
      cases e : taprootHashTy n with
      | none => rfl
      | some t =>
        exfalso
        obtain ⟨x, hx, -⟩ := tapOfName_some (tapOfName_tapName t)
        rw [taproot_iff.mp e] at hx
        exact h x hx
    have hn0 : n.toNat ≠ 0 := by
      intro e
      refine h "SIGHASH_DEFAULT" ?_
      obtain rfl : n = 0 := UInt32.toNat_inj.mp e
      simp [Spec.sighashNames]
    have hd : ∀ k : Fin 16, (hexDigit k.1, k.1) ∈ Spec.lowerDigits := by decide
    have key : ∀ m : Nat, m ≠ 0 → ∃ ds, (∀ d ∈ ds, d ∈ Spec.lowerDigits) ∧ ds ≠ [] ∧ ds.head?.map Prod.snd ≠ some 0 ∧
        Spec.value ds = m ∧ hexStr m = ds.map Prod.fst := by
      intro m
      induction m using Nat.strongRecOn with
      | _ m ih =>
        intro hm
        by_cases hlt : m < 16
        · refine ⟨[(hexDigit m, m)], ?_, by simp, by simpa using hm, by simp [Spec.value], by unfold hexStr; simp [hlt]⟩
          intro d h
          obtain rfl := List.mem_singleton.mp h
          exact hd ⟨m, hlt⟩
        · obtain ⟨ds, h1, h2, h3, h4, h5⟩ := ih (m / 16) (by omega) (by omega)
          refine ⟨ds ++ [(hexDigit (m % 16), m % 16)], ?_, by simp, ?_, ?_, ?_⟩
          · intro d h
            rcases List.mem_append.mp h with h | h
            · exact h1 d h
            · obtain rfl := List.mem_singleton.mp h
              exact hd ⟨m % 16, Nat.mod_lt _ (by decide)⟩
          · cases ds with
            | nil => exact absurd rfl h2
            | cons a l => exact h3
          · unfold Spec.value at h4 ⊢
            rw [List.foldl_append, h4]
            simp only [List.foldl_cons, List.foldl_nil]
            omega
          · rw [hexStr]; simp [hlt, h5]
    obtain ⟨ds, h1, -, h3, h4, h5⟩ := key n.toNat hn0
    refine ⟨ds, h1, h3, h4, ?_⟩
    unfold sighashDisplay
    rw [hn, h5]

-- Concrete texts.
example : sighashDisplay 0x81 = "SIGHASH_ALL|SIGHASH_ANYONECANPAY".toList ∧ sighashDisplay 0xdeadbeef = "0xdeadbeef".toList ∧
    sighashFromStr "0xDEADBEEF".toList = some 0xdeadbeef ∧ sighashFromStr "0x100000000".toList = none ∧
    sighashFromStr "SIGHASH_SOME".toList = none ∧ sighashFromStr "0x0x+1F".toList = some 0x1f ∧ sighashFromStr "0x".toList = none ∧
    sighashFromStr "G".toList = none := by decide +kernel

/-! ### C55 -/

/-- C55. An extended private key answers a request exactly if it is for a key origin with its own fingerprint, with the key
derived from it along the path. -/
theorem C55_xpriv (x : S.Xpriv) (r : KeyRequest L) (sk : S.SK) : getKeyXpriv S x r = .ok (some sk) ↔
    ∃ path y, r = .bip32 (S.fingerprint x, path) ∧ S.derive x path = some y ∧ sk = S.toPriv y := by
  unfold getKeyXpriv
  constructor
  · intro h
    split at h
    · cases h
    · rename_i fp path
      split at h
      · rename_i hf
        subst hf
        split at h
        · rename_i y hy; cases h; exact ⟨path, y, rfl, hy, rfl⟩
        · cases h
      · cases h
  · rintro ⟨path, y, rfl, hy, rfl⟩
    simp only [if_true, hy]

/-- C55. A map from public to private keys answers a request exactly if it is for a public key it has, with the private key
stored for it. -/
theorem C55_map (m : BMap L.pubkey.T S.SK) (r : KeyRequest L) (sk : S.SK) : getKeyMap S m r = .ok (some sk) ↔
    ∃ pk, r = .pubkey pk ∧ m.get pk = some sk := by
  unfold getKeyMap
  constructor
  · intro h
    split at h
    · rename_i pk; exact ⟨pk, rfl, by injection h⟩
    · cases h
  · rintro ⟨pk, rfl, h⟩
    simp only [h]

/-- C55, in part: a set of extended private keys answers a request exactly if it is for a key origin whose fingerprint is
that of the *parent* of one of its keys, with the key derived from the first such key along the path. The full property asks
for the key's own fingerprint instead; see `C55_set_counterexample`. -/
theorem C55_set_partial (xs : List S.Xpriv) (r : KeyRequest L) (sk : S.SK) : getKeySet S xs r = .ok (some sk) ↔
    ∃ fp path pre x post y, r = .bip32 (fp, path) ∧ xs = pre ++ x :: post ∧ (∀ z ∈ pre, S.parentFingerprint z ≠ fp) ∧
      S.parentFingerprint x = fp ∧ S.derive x path = some y ∧ sk = S.toPriv y := by
  have loop : ∀ (fp : FixedBytes 4) (path : List UInt32) (xs : List S.Xpriv), getKeySetLoop S fp path xs = .ok (some sk) ↔
      ∃ pre x post y, xs = pre ++ x :: post ∧ (∀ z ∈ pre, S.parentFingerprint z ≠ fp) ∧
        S.parentFingerprint x = fp ∧ S.derive x path = some y ∧ sk = S.toPriv y := by
    intro fp path xs
    induction xs with
    | nil =>
      rw [getKeySetLoop]
      simp
    | cons a xs ih =>
      rw [getKeySetLoop]
      by_cases ha : S.parentFingerprint a = fp
      · rw [if_pos ha]
        constructor
        · intro h
          split at h
          · rename_i y hy; cases h; exact ⟨[], a, xs, y, rfl, by simp, ha, hy, rfl⟩
          · cases h
        · rintro ⟨pre, x, post, y, h1, h2, h3, h4, h5⟩
          cases pre with
          | nil =>
            cases h1
            rw [h4, h5]
          | cons b pre =>
            cases h1
            exact absurd ha (h2 a (by simp))
      · rw [if_neg ha, ih]
        constructor
        · rintro ⟨pre, x, post, y, rfl, h2, h3⟩
          refine ⟨a :: pre, x, post, y, rfl, ?_, h3⟩
          intro z hz
          rcases List.mem_cons.mp hz with rfl | hz
          · exact ha
          · exact h2 z hz
        · rintro ⟨pre, x, post, y, h1, h2, h3⟩
          cases pre with
          | nil => cases h1; exact absurd h3.1 ha
          | cons b pre =>
            cases h1
            exact ⟨pre, x, post, y, rfl, fun z hz => h2 z (List.mem_cons_of_mem _ hz), h3⟩
  unfold getKeySet
  constructor
  · intro h
    split at h
    · cases h
    · rename_i fp path
      obtain ⟨pre, x, post, y, h⟩ := (loop fp path xs).mp h
      exact ⟨fp, path, pre, x, post, y, rfl, h⟩
  · rintro ⟨fp, path, pre, x, post, y, rfl, h⟩
    exact (loop fp path xs).mpr ⟨pre, x, post, y, h⟩

/-- C55. A request of the kind that a provider does not answer at all is refused as such, and no other request is. -/
theorem C55_not_supported (x : S.Xpriv) (m : BMap L.pubkey.T S.SK) (xs : List S.Xpriv) (r : KeyRequest L) :
    (getKeyXpriv S x r = .error .notSupported ↔ ∃ pk, r = .pubkey pk) ∧
    (getKeySet S xs r = .error .notSupported ↔ ∃ pk, r = .pubkey pk) ∧
    (getKeyMap S m r = .error .notSupported ↔ ∃ o, r = .bip32 o) := by
  have loop : ∀ (fp : FixedBytes 4) (path : List UInt32) (xs : List S.Xpriv),
      getKeySetLoop S fp path xs ≠ .error .notSupported := by
    intro fp path xs
    induction xs with
    | nil => rw [getKeySetLoop]; simp
    | cons a xs ih =>
      rw [getKeySetLoop]
      split
      · split <;> simp
      · exact ih
  refine ⟨?_, ?_, ?_⟩
  · cases r with
    | pubkey pk => simp [getKeyXpriv]
    | bip32 o =>
      obtain ⟨fp, path⟩ := o
      simp only [getKeyXpriv]
      split
      · split <;> simp
      · simp
  · cases r with
    | pubkey pk => simp [getKeySet]
    | bip32 o => obtain ⟨fp, path⟩ := o; simpa [getKeySet] using loop fp path xs
  · cases r <;> simp [getKeyMap]

/-- C55. The other failures are those to derive the key at the path: they are reported instead of taken for a key that is not
there. -/
theorem C55_derivation_failed (x : S.Xpriv) (m : BMap L.pubkey.T S.SK) (xs : List S.Xpriv) (r : KeyRequest L) :
    (getKeyXpriv S x r = .error .bip32 ↔ ∃ path, r = .bip32 (S.fingerprint x, path) ∧ S.derive x path = none) ∧
    (getKeySet S xs r = .error .bip32 ↔ ∃ fp path pre y post, r = .bip32 (fp, path) ∧ xs = pre ++ y :: post ∧
      (∀ z ∈ pre, S.parentFingerprint z ≠ fp) ∧ S.parentFingerprint y = fp ∧ S.derive y path = none) ∧
    getKeyMap S m r ≠ .error .bip32 := by
  have loop : ∀ (fp : FixedBytes 4) (path : List UInt32) (xs : List S.Xpriv),
      getKeySetLoop S fp path xs = .error .bip32 ↔ ∃ pre y post, xs = pre ++ y :: post ∧
        (∀ z ∈ pre, S.parentFingerprint z ≠ fp) ∧ S.parentFingerprint y = fp ∧ S.derive y path = none := by
    intro fp path xs
    induction xs with
    | nil => rw [getKeySetLoop]; simp
    | cons a xs ih =>
      rw [getKeySetLoop]
      by_cases ha : S.parentFingerprint a = fp
      · rw [if_pos ha]
        constructor
        · intro h
          split at h
          · cases h
          · rename_i hy; exact ⟨[], a, xs, rfl, by simp, ha, hy⟩
        · rintro ⟨pre, x, post, h1, h2, h3, h4⟩
          cases pre with
          | nil => cases h1; rw [h4]
          | cons b pre => cases h1; exact absurd ha (h2 a (by simp))
      · rw [if_neg ha, ih]
        constructor
        · rintro ⟨pre, x, post, rfl, h2, h3⟩
          refine ⟨a :: pre, x, post, rfl, ?_, h3⟩
          intro z hz
          rcases List.mem_cons.mp hz with rfl | hz
          · exact ha
          · exact h2 z hz
        · rintro ⟨pre, x, post, h1, h2, h3⟩
          cases pre with
          | nil => cases h1; exact absurd h3.1 ha
          | cons b pre => cases h1; exact ⟨pre, x, post, rfl, fun z hz => h2 z (List.mem_cons_of_mem _ hz), h3⟩
  refine ⟨?_, ?_, ?_⟩
  · unfold getKeyXpriv
    constructor
    · intro h
      split at h
      · cases h
      · rename_i fp path
        split at h
        · rename_i hf
          subst hf
          split at h
          · cases h
          · rename_i hy; exact ⟨path, rfl, hy⟩
        · cases h
    · rintro ⟨path, rfl, hy⟩
      simp only [if_true, hy]
  · unfold getKeySet
    constructor
    · intro h
      split at h
      · cases h
      · rename_i fp path
        obtain ⟨pre, y, post, h⟩ := (loop fp path xs).mp h
        exact ⟨fp, path, pre, y, post, rfl, h⟩
    · rintro ⟨fp, path, pre, y, post, rfl, h⟩
      exact (loop fp path xs).mpr ⟨pre, y, post, h⟩
  · cases r <;> simp [getKeyMap]

/-- C55 fails for sets of extended keys: a set does not answer the request for its only member's own fingerprint, and does
answer the request for the fingerprint of its parent, with the key that is at the path below the member. -/
theorem C55_set_counterexample : ∃ (x : (Demo.sigLib false).Xpriv) (path : List UInt32) (sk : (Demo.sigLib false).SK),
    getKeyXpriv (Demo.sigLib false) x (.bip32 ((Demo.sigLib false).fingerprint x, path)) = .ok (some sk) ∧
    getKeySet (Demo.sigLib false) [x] (.bip32 ((Demo.sigLib false).fingerprint x, path)) = .ok none ∧
    (Demo.sigLib false).parentFingerprint x ≠ (Demo.sigLib false).fingerprint x ∧
    getKeySet (Demo.sigLib false) [x] (.bip32 ((Demo.sigLib false).parentFingerprint x, path)) = .ok (some sk) :=
  ⟨((1 : UInt8), (2 : UInt8)), [7], (3 : UInt8), rfl, rfl, by decide, rfl⟩

-- Requests that are answered.
example : getKeyXpriv (Demo.sigLib false) ((0 : UInt8), (1 : UInt8)) (.bip32 (Demo.rep 4 1, [7, 8])) = .ok (some (3 : UInt8)) := rfl
example : ∃ m : BMap (Demo.lib false).pubkey.T UInt8, getKeyMap (Demo.sigLib false) m (.pubkey (Demo.val 33 (by decide) 5)) = .ok (some (5 : UInt8)) :=
  ⟨BMap.empty.insert (Demo.val 33 (by decide) 5) 5, rfl⟩
example : getKeySet (Demo.sigLib false) [((8 : UInt8), (1 : UInt8)), ((4 : UInt8), (1 : UInt8))] (.bip32 (Demo.rep 4 4, [7, 8])) =
    .ok (some (3 : UInt8)) := rfl

end Psbt
