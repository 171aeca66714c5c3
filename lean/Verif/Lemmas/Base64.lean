import Verif.Model.Text
import Verif.Spec.Base64
namespace Psbt.Spec

theorem val_char : ∀ n : Fin 64, b64Val (b64Char n) = some n.1 ∧ b64Char n ≠ 61 := by decide +kernel
theorem alphabet_char : ∀ n : Fin 64, b64Alphabet[n.1]! = b64Char n := by decide +kernel
theorem char_val_all : ∀ c : Fin 256, ∀ v ∈ b64Val (UInt8.ofNat c), v < 64 ∧ b64Char v = UInt8.ofNat c := by decide +kernel

theorem b64Val_char {n : Nat} (h : n < 64) : b64Val (b64Char n) = some n := (val_char ⟨n, h⟩).1
theorem b64Char_pad {n : Nat} (h : n < 64) : b64Char n ≠ 61 := (val_char ⟨n, h⟩).2
theorem b64Val_some {c : UInt8} {v : Nat} (h : b64Val c = some v) : v < 64 ∧ b64Char v = c := by
  have := char_val_all ⟨c.toNat, c.toNat_lt⟩ v (by simpa using h)
  simpa using this

/-- Induction three bytes at a time. -/
theorem three_induction {P : Bytes → Prop} (h0 : P []) (h1 : ∀ a, P [a]) (h2 : ∀ a b, P [a, b])
    (h3 : ∀ a b c r, P r → P (a :: b :: c :: r)) : ∀ b, P b
  | [] => h0
  | [a] => h1 a
  | [a, b] => h2 a b
  | a :: b :: c :: r => h3 a b c r (three_induction h0 h1 h2 h3 r)

theorem ofNat_toNat' {a : UInt8} {n : Nat} (h : n = a.toNat) : UInt8.ofNat n = a := by subst h; simp

theorem b64Decode_encode : ∀ b, b64Decode (b64Encode b) = some b := by
  apply three_induction
  · rfl
  · intro a
    have := a.toNat_lt
    simp only [b64Encode, b64Decode, b64Last]
    rw [b64Val_char (by omega), b64Val_char (by omega)]
    simp only [Option.bind_eq_bind, Option.bind_some, ↓reduceIte, true_and]
    rw [if_pos (by omega), ofNat_toNat' (a := a) (by omega)]
  · intro a b
    have := a.toNat_lt
    have := b.toNat_lt
    simp only [b64Encode, b64Decode, b64Last]
    rw [b64Val_char (by omega), b64Val_char (by omega), b64Val_char (by omega)]
    simp only [Option.bind_eq_bind, Option.bind_some, ↓reduceIte]
    rw [if_neg (b64Char_pad (by omega)), if_pos (by omega), ofNat_toNat' (a := a) (by omega), ofNat_toNat' (a := b) (by omega)]
  · intro a b c r ih
    have := a.toNat_lt
    have := b.toNat_lt
    have := c.toNat_lt
    have hg : b64Group (a.toNat / 4) (a.toNat % 4 * 16 + b.toNat / 16) (b.toNat % 16 * 4 + c.toNat / 64) (c.toNat % 64) = [a, b, c] := by
      simp only [b64Group]
      rw [ofNat_toNat' (a := a) (by omega), ofNat_toNat' (a := b) (by omega), ofNat_toNat' (a := c) (by omega)]
    simp only [b64Encode]
    cases hr : b64Encode r with
    | nil =>
      have : r = [] := by rw [hr] at ih; simpa [b64Decode] using ih.symm
      subst this
      simp only [b64Decode, b64Last]
      rw [b64Val_char (by omega), b64Val_char (by omega), b64Val_char (by omega), b64Val_char (by omega)]
      simp only [Option.bind_eq_bind, Option.bind_some]
      rw [if_neg (b64Char_pad (by omega)), if_neg (b64Char_pad (by omega)), hg]
    | cons x y =>
      rw [hr] at ih
      rw [b64Decode.eq_3 _ _ _ _ _ (by simp)]
      rw [b64Val_char (by omega), b64Val_char (by omega), b64Val_char (by omega), b64Val_char (by omega), ih]
      simp [hg]

theorem toNat_ofNat' {n : Nat} (h : n < 256) : (UInt8.ofNat n).toNat = n := by simp; omega

theorem group_encode {a b c d : UInt8} {w x y z : Nat} (ha : b64Val a = some w) (hb : b64Val b = some x) (hc : b64Val c = some y)
    (hd : b64Val d = some z) (r : Bytes) : b64Encode (b64Group w x y z ++ r) = a :: b :: c :: d :: b64Encode r := by
  obtain ⟨h1, rfl⟩ := b64Val_some ha
  obtain ⟨h2, rfl⟩ := b64Val_some hb
  obtain ⟨h3, rfl⟩ := b64Val_some hc
  obtain ⟨h4, rfl⟩ := b64Val_some hd
  simp only [b64Group, List.cons_append, List.nil_append, b64Encode]
  rw [toNat_ofNat' (by omega), toNat_ofNat' (by omega), toNat_ofNat' (by omega)]
  congr
  all_goals omega

theorem b64Decode_some : ∀ {s b}, b64Decode s = some b → s = b64Encode b := by
  intro s
  induction s using b64Decode.induct with
  | case1 => intro b h; cases h; rfl
  | case2 a b c d =>
    intro r h
    simp only [b64Decode, b64Last, Option.bind_eq_bind, Option.bind_eq_some_iff] at h
    obtain ⟨w, hw, x, hx, h⟩ := h
    split at h
    · rename_i hc
      split at h
      · rename_i hd
        cases h
        obtain ⟨h1, rfl⟩ := b64Val_some hw
        obtain ⟨h2, rfl⟩ := b64Val_some hx
        simp only [b64Encode]
        rw [toNat_ofNat' (by omega), hc, hd.1]
        have e1 : (w * 4 + x / 16) / 4 = w := by omega
        have e2 : (w * 4 + x / 16) % 4 * 16 = x := by omega
        rw [e1, e2]
      · cases h
    · simp only [Option.bind_eq_bind, Option.bind_eq_some_iff] at h
      obtain ⟨y, hy, h⟩ := h
      split at h
      · rename_i hd
        split at h
        · rename_i h0
          cases h
          obtain ⟨h1, rfl⟩ := b64Val_some hw
          obtain ⟨h2, rfl⟩ := b64Val_some hx
          obtain ⟨h3, rfl⟩ := b64Val_some hy
          simp only [b64Encode]
          rw [toNat_ofNat' (by omega), toNat_ofNat' (by omega), hd]
          have e1 : (w * 4 + x / 16) / 4 = w := by omega
          have e2 : (w * 4 + x / 16) % 4 * 16 + (x % 16 * 16 + y / 4) / 16 = x := by omega
          have e3 : (x % 16 * 16 + y / 4) % 16 * 4 = y := by omega
          rw [e1, e2, e3]
        · cases h
      · simp only [Option.bind_eq_bind, Option.bind_eq_some_iff] at h
        obtain ⟨z, hz, h⟩ := h
        cases h
        have := group_encode hw hx hy hz []
        rw [List.append_nil] at this
        rw [this]; rfl
  | case3 a b c d r hr ih =>
    intro t h
    rw [b64Decode.eq_3 _ _ _ _ _ hr] at h
    simp only [Option.bind_eq_bind, Option.bind_eq_some_iff] at h
    obtain ⟨w, hw, x, hx, y, hy, z, hz, rest, h1, h2⟩ := h
    cases h2
    rw [group_encode hw hx hy hz, ih h1]
  | case4 s h1 h2 h3 =>
    intro b h
    rw [b64Decode.eq_4 s h1 h2 h3] at h
    cases h

theorem bits6 (v : Nat) : bitsOf 6 v = [decide (v / 32 % 2 = 1), decide (v / 16 % 2 = 1), decide (v / 8 % 2 = 1), decide (v / 4 % 2 = 1),
    decide (v / 2 % 2 = 1), decide (v % 2 = 1)] := by
  simp [bitsOf, List.range, List.range.loop]
theorem bits8 (v : Nat) : bitsOf 8 v = [decide (v / 128 % 2 = 1), decide (v / 64 % 2 = 1), decide (v / 32 % 2 = 1), decide (v / 16 % 2 = 1),
    decide (v / 8 % 2 = 1), decide (v / 4 % 2 = 1), decide (v / 2 % 2 = 1), decide (v % 2 = 1)] := by
  simp [bitsOf, List.range, List.range.loop]

theorem bits6_length (v : Nat) : (bitsOf 6 v).length = 6 := by simp [bitsOf]
theorem bits8_length (v : Nat) : (bitsOf 8 v).length = 8 := by simp [bitsOf]

theorem flatMap_bits_length {α : Type} (f : α → List Bool) (n : Nat) (hf : ∀ a, (f a).length = n) :
    ∀ l : List α, (l.flatMap f).length = l.length * n
  | [] => by simp
  | a :: l => by
    rw [List.flatMap_cons, List.length_append, hf, flatMap_bits_length f n hf l, List.length_cons, Nat.add_mul]
    omega

def unbits (l : List Bool) : Nat := l.foldl (fun n b => n * 2 + b.toNat) 0
theorem unbits_bits : ∀ v : Fin 64, unbits (bitsOf 6 v) = v := by decide +kernel

theorem bits6_inj {v w : Nat} (hv : v < 64) (hw : w < 64) (h : bitsOf 6 v = bitsOf 6 w) : v = w :=
  (unbits_bits ⟨v, hv⟩).symm.trans ((congrArg unbits h).trans (unbits_bits ⟨w, hw⟩))

theorem flatMap_bits_inj : ∀ {l m : List Nat}, (∀ v ∈ l, v < 64) → (∀ v ∈ m, v < 64) → l.flatMap (bitsOf 6) = m.flatMap (bitsOf 6) → l = m
  | [], [], _, _, _ => rfl
  | [], b :: m, _, _, h => by
    have := congrArg List.length h
    simp only [flatMap_bits_length (bitsOf 6) 6 bits6_length, List.length_cons, List.length_nil] at this
    omega
  | a :: l, [], _, _, h => by
    have := congrArg List.length h
    simp only [flatMap_bits_length (bitsOf 6) 6 bits6_length, List.length_cons, List.length_nil] at this
    omega
  | a :: l, b :: m, hl, hm, h => by
    rw [List.flatMap_cons, List.flatMap_cons] at h
    obtain ⟨h1, h2⟩ := List.append_inj h (by rw [bits6_length, bits6_length])
    rw [bits6_inj (hl a (by simp)) (hm b (by simp)) h1, flatMap_bits_inj (fun v hv => hl v (by simp [hv])) (fun v hv => hm v (by simp [hv])) h2]

/-- Data has at most one base64 form. -/
theorem base64_unique {b s t : Bytes} (hs : Base64 b s) (ht : Base64 b t) : s = t := by
  obtain ⟨v, z, k, hv, hz, hk, hl, hb, rfl⟩ := hs
  obtain ⟨v', z', k', hv', hz', hk', hl', hb', rfl⟩ := ht
  have e := congrArg List.length hb
  have e' := congrArg List.length hb'
  rw [List.length_append, flatMap_bits_length (bitsOf 6) 6 bits6_length, flatMap_bits_length (fun b : UInt8 => bitsOf 8 b.toNat) 8 (fun b => bits8_length b.toNat),
    List.length_replicate] at e e'
  have hzz : z = z' := by omega
  have hvv : v = v' := flatMap_bits_inj hv hv' (by rw [hb, hb', hzz])
  subst hvv
  simp only [List.length_append, List.length_map, List.length_replicate] at hl hl'
  have hkk : k = k' := by omega
  rw [hkk]

theorem alphabet_eq {v : Nat} (h : v < 64) : b64Alphabet[v]! = b64Char v := alphabet_char ⟨v, h⟩

theorem alphabet_map {l : List Nat} (h : ∀ v ∈ l, v < 64) : l.map (fun v => b64Alphabet[v]!) = l.map b64Char :=
  List.map_congr_left fun v hv => alphabet_eq (h v hv)

/-- A base64 form, with the characters as the program computes them. -/
theorem base64_intro {b s : Bytes} (vals : List Nat) (zeros pads : Nat) (h : ∀ v ∈ vals, v < 64) (hz : zeros < 6) (hp : pads < 4)
    (hl : s.length % 4 = 0) (hb : vals.flatMap (bitsOf 6) = b.flatMap (fun b => bitsOf 8 b.toNat) ++ List.replicate zeros false)
    (hs : s = vals.map b64Char ++ List.replicate pads 61) : Base64 b s :=
  ⟨vals, zeros, pads, h, hz, hp, hl, hb, by rw [alphabet_map h]; exact hs⟩

theorem base64_elim {b s : Bytes} (h : Base64 b s) : ∃ (vals : List Nat) (zeros pads : Nat), (∀ v ∈ vals, v < 64) ∧ zeros < 6 ∧ pads < 4 ∧
    s.length % 4 = 0 ∧ vals.flatMap (bitsOf 6) = b.flatMap (fun b => bitsOf 8 b.toNat) ++ List.replicate zeros false ∧
    s = vals.map b64Char ++ List.replicate pads 61 := by
  obtain ⟨v, z, k, hv, hz, hk, hl, hb, hs⟩ := h
  exact ⟨v, z, k, hv, hz, hk, hl, hb, by rw [alphabet_map hv] at hs; exact hs⟩

theorem base64_encode : ∀ b, Base64 b (b64Encode b) := by
  apply three_induction
  · exact base64_intro [] 0 0 (by simp) (by omega) (by omega) rfl rfl rfl
  · intro a
    have := a.toNat_lt
    refine base64_intro [a.toNat / 4, a.toNat % 4 * 16] 4 2 ?_ (by omega) (by omega) (by simp [b64Encode]) ?_ (by simp [b64Encode, List.replicate])
    · intro v hv
      simp only [List.mem_cons, List.not_mem_nil, or_false] at hv
      omega
    · simp only [List.flatMap_cons, List.flatMap_nil, bits6, bits8, List.replicate, List.cons_append, List.nil_append, List.append_nil,
        List.cons.injEq, decide_eq_decide, decide_eq_false_iff_not, and_true]
      and_intros <;> first | trivial | omega
  · intro a b
    have := a.toNat_lt
    have := b.toNat_lt
    refine base64_intro [a.toNat / 4, a.toNat % 4 * 16 + b.toNat / 16, b.toNat % 16 * 4] 2 1 ?_ (by omega) (by omega) (by simp [b64Encode]) ?_ (by simp [b64Encode, List.replicate])
    · intro v hv
      simp only [List.mem_cons, List.not_mem_nil, or_false] at hv
      omega
    · simp only [List.flatMap_cons, List.flatMap_nil, bits6, bits8, List.replicate, List.cons_append, List.nil_append, List.append_nil,
        List.cons.injEq, decide_eq_decide, decide_eq_false_iff_not, and_true]
      and_intros <;> first | trivial | omega
  · intro a b c r ih
    have := a.toNat_lt
    have := b.toNat_lt
    have := c.toNat_lt
    obtain ⟨v, z, k, hv, hz, hk, hl, hb, hs⟩ := base64_elim ih
    refine base64_intro (a.toNat / 4 :: (a.toNat % 4 * 16 + b.toNat / 16) :: (b.toNat % 16 * 4 + c.toNat / 64) :: (c.toNat % 64) :: v) z k
      ?_ hz hk ?_ ?_ ?_
    · intro w hw
      simp only [List.mem_cons] at hw
      rcases hw with h | h | h | h | h
      · omega
      · omega
      · omega
      · omega
      · exact hv w h
    · simp only [b64Encode, List.length_cons]; omega
    · rw [List.flatMap_cons, List.flatMap_cons, List.flatMap_cons, List.flatMap_cons, hb, List.flatMap_cons, List.flatMap_cons,
        List.flatMap_cons]
      simp only [bits6, bits8, List.cons_append, List.nil_append, List.append_nil, List.cons.injEq, decide_eq_decide, and_true]
      and_intros <;> first | trivial | omega
    · simp only [b64Encode, List.map_cons, List.cons_append]; rw [hs]

theorem encode_iff {b s : Bytes} : b64Encode b = s ↔ Base64 b s :=
  ⟨fun h => h ▸ base64_encode b, fun h => base64_unique (base64_encode b) h⟩

theorem decode_iff {b s : Bytes} : b64Decode s = some b ↔ Base64 b s := by
  rw [← encode_iff]
  exact ⟨fun h => (b64Decode_some h).symm, fun h => h ▸ b64Decode_encode b⟩

theorem decode_none {s : Bytes} : b64Decode s = none ↔ ∀ b, ¬ Base64 b s := by
  constructor
  · intro h b hb
    rw [decode_iff.2 hb] at h; cases h
  · intro h
    cases hd : b64Decode s with
    | none => rfl
    | some b => exact absurd (decode_iff.1 hd) (h b)

theorem base64_data_unique {b c s : Bytes} (hb : Base64 b s) (hc : Base64 c s) : b = c :=
  Option.some.inj ((decode_iff.2 hb).symm.trans (decode_iff.2 hc))

end Psbt.Spec
