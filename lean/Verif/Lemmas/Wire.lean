/- Round-trip and inversion lemmas for the consensus codecs. -/
import Verif.Model.Wire
namespace Psbt

/-! ### Little-endian integers -/

@[simp] theorem leEnc_length (k n : Nat) : (leEnc k n).length = k := by
  induction k generalizing n with
  | zero => rfl
  | succ k ih => simp [leEnc, ih]

theorem leDec_leEnc (k n : Nat) : leDec (leEnc k n) = n % 256 ^ k := by
  induction k generalizing n with
  | zero => simp [leEnc, leDec, Nat.mod_one]
  | succ k ih =>
    have h : (256 : Nat) ^ (k + 1) = 256 * 256 ^ k := by rw [Nat.pow_succ, Nat.mul_comm]
    simp only [leEnc, leDec, ih, UInt8.toNat_ofNat']
    rw [h, Nat.mod_mul]

theorem leDec_lt (b : Bytes) : leDec b < 256 ^ b.length := by
  induction b with
  | nil => simp [leDec]
  | cons a r ih =>
    have := a.toNat_lt
    simp only [leDec, List.length_cons, Nat.pow_succ]
    omega

theorem leEnc_leDec (b : Bytes) : leEnc b.length (leDec b) = b := by
  induction b with
  | nil => rfl
  | cons a r ih =>
    have h := a.toNat_lt
    simp only [leDec, List.length_cons, leEnc]
    congr 1
    · apply UInt8.toNat_inj.mp
      rw [UInt8.toNat_ofNat']; omega
    · rw [show (a.toNat + 256 * leDec r) / 256 = leDec r by omega, ih]

theorem leDec_leEnc_of_lt {k n : Nat} (h : n < 256 ^ k) : leDec (leEnc k n) = n := by
  rw [leDec_leEnc, Nat.mod_eq_of_lt h]

theorem leEnc_leDec' {k : Nat} {b : Bytes} (h : b.length = k) : leEnc k (leDec b) = b := by
  subst h; exact leEnc_leDec b

/-! ### Reading -/

theorem readN_append {n : Nat} {x r : Bytes} (h : x.length = n) : readN n (x ++ r) = .ok (x, r) := by
  subst h; simp [readN]

theorem readN_ok {n : Nat} {b x r : Bytes} (h : readN n b = .ok (x, r)) : b = x ++ r ∧ x.length = n := by
  unfold readN at h
  split at h
  · rename_i hn
    cases h
    exact ⟨(List.take_append_drop n b).symm, by simp [hn]⟩
  · cases h

@[simp] theorem decU8_cons (a : UInt8) (r : Bytes) : decU8 (a :: r) = .ok (a, r) := rfl

theorem decU8_ok {b : Bytes} {a : UInt8} {r : Bytes} (h : decU8 b = .ok (a, r)) : b = a :: r := by
  cases b with
  | nil => cases h
  | cons x y => cases h; rfl

/-- Monadic inversion for decoders. -/
theorem bind_ok {ε α β : Type} {x : Except ε α} {f : α → Except ε β} {b : β} :
    (x >>= f) = .ok b ↔ ∃ a, x = .ok a ∧ f a = .ok b := by
  cases x with
  | error e => simp [bind, Except.bind]
  | ok a => simp [bind, Except.bind]

@[simp] theorem ok_bind {ε α β : Type} (a : α) (f : α → Except ε β) :
    ((Except.ok a : Except ε α) >>= f) = f a := rfl

@[simp] theorem error_bind {ε α β : Type} (e : ε) (f : α → Except ε β) :
    ((Except.error e : Except ε α) >>= f) = .error e := rfl

theorem mapErr_ok {ε ε' α : Type} {f : ε → ε'} {x : Except ε α} {a : α} :
    mapErr f x = .ok a ↔ x = .ok a := by cases x <;> simp [mapErr]

@[simp] theorem mapErr_of_ok {ε ε' α : Type} (f : ε → ε') (a : α) : mapErr f (.ok a : Except ε α) = .ok a := rfl

/-- A codec: the decoder inverts the encoder whatever follows. -/
def RT {α : Type} (e : α → Bytes) (d : Dec α) (a : α) : Prop := ∀ r, d (e a ++ r) = .ok (a, r)

/-- Canonicity: the decoder only accepts what the encoder writes. -/
def Canon {α : Type} (e : α → Bytes) (d : Dec α) : Prop := ∀ b a r, d b = .ok (a, r) → b = e a ++ r

theorem decU32_enc (n : UInt32) (r : Bytes) : decU32 (encU32 n ++ r) = .ok (n, r) := by
  unfold decU32 encU32
  rw [readN_append (leEnc_length _ _)]
  simp only [ok_bind]
  rw [leDec_leEnc_of_lt (by have := n.toNat_lt; simpa using this)]
  simp

theorem decU32_ok {b : Bytes} {n : UInt32} {r : Bytes} (h : decU32 b = .ok (n, r)) : b = encU32 n ++ r := by
  unfold decU32 at h
  simp only [bind_ok] at h
  obtain ⟨⟨x, r'⟩, h1, h2⟩ := h
  cases h2
  obtain ⟨rfl, hl⟩ := readN_ok h1
  have := leDec_lt x
  rw [hl] at this
  unfold encU32
  rw [UInt32.toNat_ofNat_of_lt' (by simpa using this), leEnc_leDec' hl]

theorem decU64_enc (n : UInt64) (r : Bytes) : decU64 (encU64 n ++ r) = .ok (n, r) := by
  unfold decU64 encU64
  rw [readN_append (leEnc_length _ _)]
  simp only [ok_bind]
  rw [leDec_leEnc_of_lt (by have := n.toNat_lt; simpa using this)]
  simp

theorem decU64_ok {b : Bytes} {n : UInt64} {r : Bytes} (h : decU64 b = .ok (n, r)) : b = encU64 n ++ r := by
  unfold decU64 at h
  simp only [bind_ok] at h
  obtain ⟨⟨x, r'⟩, h1, h2⟩ := h
  cases h2
  obtain ⟨rfl, hl⟩ := readN_ok h1
  have := leDec_lt x
  rw [hl] at this
  unfold encU64
  rw [UInt64.toNat_ofNat_of_lt' (by simpa using this), leEnc_leDec' hl]

@[simp] theorem encU32_length (n : UInt32) : (encU32 n).length = 4 := leEnc_length _ _
@[simp] theorem encU64_length (n : UInt64) : (encU64 n).length = 8 := leEnc_length _ _

/-! ### Compact size -/

theorem decVar_enc {n : Nat} (h : n < 2 ^ 64) (r : Bytes) : decVar (encVar n ++ r) = .ok (n, r) := by
  unfold encVar
  split
  · rename_i h1
    have e : (UInt8.ofNat n).toNat = n := by rw [UInt8.toNat_ofNat']; omega
    have ne : ∀ c : UInt8, 0xFD ≤ c.toNat → UInt8.ofNat n ≠ c := by
      intro c hc heq; rw [← heq, e] at hc; omega
    simp only [decVar, List.cons_append, decU8_cons, ok_bind, List.nil_append]
    rw [if_neg (ne _ (by decide)), if_neg (ne _ (by decide)), if_neg (ne _ (by decide)), e]
  · split
    · rename_i h1 h2
      simp only [decVar, List.cons_append, decU8_cons, ok_bind]
      simp only [show ((0xFD : UInt8) = 0xFF) = False by decide, show ((0xFD : UInt8) = 0xFE) = False by decide,
        if_false, if_true]
      rw [readN_append (leEnc_length _ _)]
      simp only [ok_bind]
      rw [leDec_leEnc_of_lt (by omega), if_neg (by omega)]
    · split
      · rename_i h1 h2 h3
        simp only [decVar, List.cons_append, decU8_cons, ok_bind]
        simp only [show ((0xFE : UInt8) = 0xFF) = False by decide, if_false, if_true]
        rw [readN_append (leEnc_length _ _)]
        simp only [ok_bind]
        rw [leDec_leEnc_of_lt (by omega), if_neg (by omega)]
      · rename_i h1 h2 h3
        simp only [decVar, List.cons_append, decU8_cons, ok_bind, if_true]
        rw [readN_append (leEnc_length _ _)]
        simp only [ok_bind]
        rw [leDec_leEnc_of_lt (by omega), if_neg (by omega)]

theorem decVar_ok {b : Bytes} {n : Nat} {r : Bytes} (h : decVar b = .ok (n, r)) :
    b = encVar n ++ r ∧ n < 2 ^ 64 := by
  unfold decVar at h
  simp only [bind_ok] at h
  obtain ⟨⟨c, r1⟩, h1, h2⟩ := h
  rw [decU8_ok h1]
  simp only at h2
  split at h2
  · rename_i hc
    simp only [bind_ok] at h2
    obtain ⟨⟨x, r2⟩, h3, h4⟩ := h2
    simp only at h4
    split at h4
    · cases h4
    · rename_i hge
      cases h4
      obtain ⟨rfl, hl⟩ := readN_ok h3
      have := leDec_lt x
      rw [hl] at this
      refine ⟨?_, by omega⟩
      unfold encVar
      rw [if_neg (by omega), if_neg (by omega), if_neg (by omega), leEnc_leDec' hl, hc]
      rfl
  · split at h2
    · rename_i hc
      simp only [bind_ok] at h2
      obtain ⟨⟨x, r2⟩, h3, h4⟩ := h2
      simp only at h4
      split at h4
      · cases h4
      · rename_i hge
        cases h4
        obtain ⟨rfl, hl⟩ := readN_ok h3
        have := leDec_lt x
        rw [hl] at this
        refine ⟨?_, by omega⟩
        unfold encVar
        rw [if_neg (by omega), if_neg (by omega), if_pos (by omega), leEnc_leDec' hl, hc]
        rfl
    · split at h2
      · rename_i hc
        simp only [bind_ok] at h2
        obtain ⟨⟨x, r2⟩, h3, h4⟩ := h2
        simp only at h4
        split at h4
        · cases h4
        · rename_i hge
          cases h4
          obtain ⟨rfl, hl⟩ := readN_ok h3
          have := leDec_lt x
          rw [hl] at this
          refine ⟨?_, by omega⟩
          unfold encVar
          rw [if_neg (by omega), if_pos (by omega), leEnc_leDec' hl, hc]
          rfl
      · rename_i n1 n2 n3
        cases h2
        have hlt : c.toNat < 0xFD := by
          have hb := c.toNat_lt
          have e1 : c.toNat ≠ 0xFF := fun e => n1 (UInt8.toNat_inj.mp e)
          have e2 : c.toNat ≠ 0xFE := fun e => n2 (UInt8.toNat_inj.mp e)
          have e3 : c.toNat ≠ 0xFD := fun e => n3 (UInt8.toNat_inj.mp e)
          omega
        refine ⟨?_, by omega⟩
        unfold encVar
        rw [if_pos hlt]
        simp

theorem encVar_length_pos (n : Nat) : 0 < (encVar n).length := by
  unfold encVar
  split
  · simp
  · split
    · simp
    · split <;> simp

theorem encVar_ne_nil (n : Nat) : encVar n ≠ [] := by
  intro h; have := encVar_length_pos n; rw [h] at this; simp at this

theorem encVar_length_le (n : Nat) : (encVar n).length ≤ 9 := by
  unfold encVar
  split
  · simp
  · split
    · simp
    · split <;> simp

theorem encVar_length_mono {m n : Nat} (h : m ≤ n) : (encVar m).length ≤ (encVar n).length := by
  unfold encVar
  repeat' split
  all_goals simp
  all_goals omega

/-! ### Byte vectors -/

theorem decVecFin_enc {v : Bytes} (h : v.length < 2 ^ 64) (r : Bytes) :
    decVecFin (encVec v ++ r) = .ok (v, r) := by
  unfold decVecFin encVec
  rw [List.append_assoc, decVar_enc h]
  simp only [ok_bind]
  exact readN_append rfl

theorem decVecFin_ok {b v r : Bytes} (h : decVecFin b = .ok (v, r)) :
    b = encVec v ++ r ∧ v.length < 2 ^ 64 := by
  unfold decVecFin at h
  simp only [bind_ok] at h
  obtain ⟨⟨n, r1⟩, h1, h2⟩ := h
  obtain ⟨rfl, hn⟩ := decVar_ok h1
  obtain ⟨rfl, hl⟩ := readN_ok h2
  simp only at hl
  subst hl
  exact ⟨by simp [encVec], hn⟩

/-- The exact bound under which a byte vector written by `encVec` can be read by `decVec`. -/
def VecFits (v : Bytes) : Prop := (encVec v).length ≤ MAX_VEC_SIZE

instance (v : Bytes) : Decidable (VecFits v) := inferInstanceAs (Decidable (_ ≤ _))

theorem VecFits.lt {v : Bytes} (h : VecFits v) : v.length < MAX_VEC_SIZE := by
  have := encVar_length_pos v.length
  simp only [VecFits, encVec, List.length_append] at h
  omega

theorem VecFits.lt64 {v : Bytes} (h : VecFits v) : v.length < 2 ^ 64 := by
  have := h.lt
  simp only [MAX_VEC_SIZE] at this
  omega

theorem VecFits.mono {v w : Bytes} (h : VecFits v) (hl : w.length ≤ v.length) : VecFits w := by
  have := encVar_length_mono hl
  simp only [VecFits, encVec, List.length_append] at *
  omega

theorem decVec_enc {v : Bytes} (h : VecFits v) (r : Bytes) : decVec (encVec v ++ r) = .ok (v, r) := by
  have h' := h
  unfold VecFits at h'
  unfold decVec
  rw [List.take_append, List.drop_append, List.take_of_length_le h', List.drop_eq_nil_of_le h',
    decVecFin_enc h.lt64]
  simp

theorem decVec_ok {b v r : Bytes} (h : decVec b = .ok (v, r)) : b = encVec v ++ r ∧ VecFits v := by
  unfold decVec at h
  simp only [bind_ok] at h
  obtain ⟨⟨v1, r1⟩, h1, h2⟩ := h
  cases h2
  obtain ⟨h3, -⟩ := decVecFin_ok h1
  constructor
  · rw [← List.append_assoc, ← h3, List.take_append_drop]
  · have := congrArg List.length h3
    simp only [List.length_take, List.length_append] at this
    show (encVec v1).length ≤ MAX_VEC_SIZE
    omega

/-! ### Lists -/

theorem decMany_enc {α : Type} {e : α → Bytes} {d : Dec α} (l : List α) (h : ∀ a ∈ l, RT e d a) (r : Bytes) :
    decMany d l.length (l.flatMap e ++ r) = .ok (l, r) := by
  induction l with
  | nil => rfl
  | cons a t ih =>
    simp only [List.flatMap_cons, List.length_cons, decMany, List.append_assoc]
    rw [h a (by simp)]
    simp only [ok_bind]
    rw [ih (fun b hb => h b (by simp [hb]))]
    rfl

theorem decMany_ok {α : Type} {e : α → Bytes} {d : Dec α} {n : Nat} {b : Bytes} {l : List α} {r : Bytes}
    (hc : Canon e d) (h : decMany d n b = .ok (l, r)) : b = l.flatMap e ++ r ∧ l.length = n := by
  induction n generalizing b l with
  | zero => cases h; simp
  | succ n ih =>
    simp only [decMany, bind_ok] at h
    obtain ⟨⟨x, r1⟩, h1, ⟨xs, r2⟩, h2, h3⟩ := h
    cases h3
    obtain ⟨h4, h5⟩ := ih h2
    have h6 := hc _ _ _ h1
    subst h4
    subst h6
    simp [h5]

theorem decList_enc {α : Type} {e : α → Bytes} {d : Dec α} {l : List α} (hl : l.length < 2 ^ 64)
    (h : ∀ a ∈ l, RT e d a) (r : Bytes) : decList d (encList e l ++ r) = .ok (l, r) := by
  unfold decList encList
  rw [List.append_assoc, decVar_enc hl]
  simp only [ok_bind]
  exact decMany_enc l h r

theorem decList_ok {α : Type} {e : α → Bytes} {d : Dec α} {b : Bytes} {l : List α} {r : Bytes}
    (hc : Canon e d) (h : decList d b = .ok (l, r)) : b = encList e l ++ r ∧ l.length < 2 ^ 64 := by
  unfold decList at h
  simp only [bind_ok] at h
  obtain ⟨⟨n, r1⟩, h1, h2⟩ := h
  obtain ⟨rfl, hn⟩ := decVar_ok h1
  obtain ⟨h3, h4⟩ := decMany_ok hc h2
  subst h4
  simp only at h3
  subst h3
  exact ⟨by simp [encList], hn⟩

theorem consensusDeser_enc {α : Type} {e : α → Bytes} {d : Dec α} {a : α} (h : RT e d a) :
    consensusDeser d (e a) = .ok a := by
  have := h []
  rw [List.append_nil] at this
  simp [consensusDeser, this]

theorem consensusDeser_ok {α : Type} {d : Dec α} {b : Bytes} {a : α} (h : consensusDeser d b = .ok a) :
    d b = .ok (a, []) := by
  unfold consensusDeser at h
  simp only [bind_ok] at h
  obtain ⟨⟨x, r⟩, h1, h2⟩ := h
  simp only at h2
  split at h2
  · rename_i hr; subst hr; cases h2; exact h1
  · cases h2

/-! ### Transactions -/

theorem decHash32_enc (t : Hash32) (r : Bytes) : decHash32 (t.1 ++ r) = .ok (t, r) := by
  obtain ⟨t, ht⟩ := t
  unfold decHash32
  have hl : 32 ≤ (t ++ r).length := by simp [ht]
  rw [dif_pos hl]
  congr 2
  · apply Subtype.ext; simp [← ht]
  · simp [← ht]

theorem decHash32_ok {b : Bytes} {t : Hash32} {r : Bytes} (h : decHash32 b = .ok (t, r)) : b = t.1 ++ r := by
  unfold decHash32 at h
  split at h
  · cases h; simp
  · cases h

theorem decOutPoint_enc (o : OutPoint) : RT encOutPoint decOutPoint o := by
  intro r
  simp [decOutPoint, encOutPoint, decHash32_enc, decU32_enc]

theorem decOutPoint_ok : Canon encOutPoint decOutPoint := by
  intro b a r h
  simp only [decOutPoint, bind_ok] at h
  obtain ⟨⟨t, r1⟩, h1, ⟨v, r2⟩, h2, h3⟩ := h
  cases h3
  have h4 := decU32_ok h2
  simp only at h4
  subst h4
  rw [decHash32_ok h1]
  simp [encOutPoint]

theorem encVec_length (v : Bytes) : (encVec v).length = (encVar v.length).length + v.length := by
  simp [encVec]

/-- Sizes representable in memory (`Vec` lengths are below `2^63` in Rust). -/
def TxIn.Small (i : TxIn) : Prop :=
  i.scriptSig.length < 2 ^ 64 ∧ i.witness.length < 2 ^ 64 ∧ ∀ w ∈ i.witness, w.length < 2 ^ 64
def Tx.Small (t : Tx) : Prop :=
  t.input.length < 2 ^ 64 ∧ t.output.length < 2 ^ 64 ∧ (∀ i ∈ t.input, i.Small) ∧
    (∀ o ∈ t.output, o.scriptPubkey.length < 2 ^ 64)

/-- `TxIn` with its witness removed. -/
def TxIn.stripped (i : TxIn) : TxIn := { i with witness := [] }

theorem decTxIn_enc {i : TxIn} (h : i.scriptSig.length < 2 ^ 64) (r : Bytes) :
    decTxIn (encTxIn i ++ r) = .ok (i.stripped, r) := by
  simp only [decTxIn, encTxIn, List.append_assoc]
  rw [decOutPoint_enc]
  simp only [ok_bind]
  rw [decVecFin_enc h]
  simp only [ok_bind]
  rw [decU32_enc]
  rfl

theorem encTxIn_stripped (i : TxIn) : encTxIn i.stripped = encTxIn i := rfl

theorem decTxIn_ok {b : Bytes} {i : TxIn} {r : Bytes} (h : decTxIn b = .ok (i, r)) :
    b = encTxIn i ++ r ∧ i.scriptSig.length < 2 ^ 64 ∧ i.witness = [] := by
  simp only [decTxIn, bind_ok] at h
  obtain ⟨⟨o, r1⟩, h1, ⟨s, r2⟩, h2, ⟨q, r3⟩, h3, h4⟩ := h
  cases h4
  have h5 := decOutPoint_ok _ _ _ h1
  obtain ⟨h6, h7⟩ := decVecFin_ok h2
  have h8 := decU32_ok h3
  simp only at h6 h8
  subst h5; subst h6; subst h8
  exact ⟨by simp [encTxIn], h7, rfl⟩

theorem decTxOut_enc {o : TxOut} (h : o.scriptPubkey.length < 2 ^ 64) : RT encTxOut decTxOut o := by
  intro r
  simp only [decTxOut, encTxOut, List.append_assoc]
  rw [decU64_enc]
  simp only [ok_bind]
  rw [decVecFin_enc h]
  rfl

theorem decTxOut_ok {b : Bytes} {o : TxOut} {r : Bytes} (h : decTxOut b = .ok (o, r)) :
    b = encTxOut o ++ r ∧ o.scriptPubkey.length < 2 ^ 64 := by
  simp only [decTxOut, bind_ok] at h
  obtain ⟨⟨v, r1⟩, h1, ⟨s, r2⟩, h2, h3⟩ := h
  cases h3
  have h5 := decU64_ok h1
  obtain ⟨h6, h7⟩ := decVecFin_ok h2
  simp only at h6
  subst h5; subst h6
  exact ⟨by simp [encTxOut], h7⟩

theorem decWitness_enc {w : List Bytes} (h : w.length < 2 ^ 64) (h' : ∀ x ∈ w, x.length < 2 ^ 64) :
    RT encWitness decWitness w := by
  intro r
  exact decList_enc h (fun a ha r => decVecFin_enc (h' a ha) r) r

theorem decWitness_ok {b : Bytes} {w : List Bytes} {r : Bytes} (h : decWitness b = .ok (w, r)) :
    b = encWitness w ++ r ∧ w.length < 2 ^ 64 :=
  decList_ok (fun _ _ _ h => (decVecFin_ok h).1) h


theorem decMany_all {α : Type} {d : Dec α} {P : α → Prop} (hP : ∀ b a r, d b = .ok (a, r) → P a)
    {n : Nat} {b : Bytes} {l : List α} {r : Bytes} (h : decMany d n b = .ok (l, r)) : ∀ a ∈ l, P a := by
  induction n generalizing b l with
  | zero => cases h; simp
  | succ n ih =>
    simp only [decMany, bind_ok] at h
    obtain ⟨⟨x, r1⟩, h1, ⟨xs, r2⟩, h2, h3⟩ := h
    cases h3
    intro a ha
    rcases List.mem_cons.mp ha with rfl | ha
    · exact hP _ _ _ h1
    · exact ih h2 a ha

theorem decList_all {α : Type} {d : Dec α} {P : α → Prop} (hP : ∀ b a r, d b = .ok (a, r) → P a)
    {b : Bytes} {l : List α} {r : Bytes} (h : decList d b = .ok (l, r)) : ∀ a ∈ l, P a := by
  simp only [decList, bind_ok] at h
  obtain ⟨⟨n, r1⟩, -, h2⟩ := h
  exact decMany_all hP h2

theorem decTxIns_enc {l : List TxIn} (hl : l.length < 2 ^ 64) (h : ∀ i ∈ l, i.scriptSig.length < 2 ^ 64) (r : Bytes) :
    decList decTxIn (encList encTxIn l ++ r) = .ok (l.map TxIn.stripped, r) := by
  have e : encList encTxIn l = encList encTxIn (l.map TxIn.stripped) := by
    simp [encList, List.flatMap_map, encTxIn_stripped]
  rw [e]
  apply decList_enc (by simpa using hl)
  intro a ha r
  obtain ⟨i, hi, rfl⟩ := List.mem_map.mp ha
  exact decTxIn_enc (h i hi) r

theorem decWitnesses_enc {l : List TxIn} (h : ∀ i ∈ l, i.Small) (r : Bytes) :
    decWitnesses (l.map TxIn.stripped) (l.flatMap (fun i => encWitness i.witness) ++ r) = .ok (l, r) := by
  induction l with
  | nil => rfl
  | cons a t ih =>
    have ha := h a (by simp)
    simp only [List.map_cons, List.flatMap_cons, List.append_assoc, decWitnesses]
    rw [decWitness_enc ha.2.1 ha.2.2]
    simp only [ok_bind]
    rw [ih (fun i hi => h i (by simp [hi]))]
    rfl

theorem decWitnesses_ok {is : List TxIn} {b : Bytes} {js : List TxIn} {r : Bytes}
    (h : decWitnesses is b = .ok (js, r)) :
    b = js.flatMap (fun i => encWitness i.witness) ++ r ∧ js.map TxIn.stripped = is.map TxIn.stripped ∧
      ∀ j ∈ js, j.witness.length < 2 ^ 64 ∧ ∀ w ∈ j.witness, w.length < 2 ^ 64 := by
  induction is generalizing b js with
  | nil => cases h; simp
  | cons i is ih =>
    simp only [decWitnesses, bind_ok] at h
    obtain ⟨⟨w, r1⟩, h1, ⟨js', r2⟩, h2, h3⟩ := h
    cases h3
    obtain ⟨h4, h5, h6⟩ := ih h2
    obtain ⟨h7, h8⟩ := decWitness_ok h1
    have h9 : ∀ x ∈ w, x.length < 2 ^ 64 := decList_all (fun _ _ _ h => (decVecFin_ok h).2) h1
    simp only at h4
    subst h4
    subst h7
    refine ⟨by simp, by simp [h5, TxIn.stripped], ?_⟩
    intro j hj
    rcases List.mem_cons.mp hj with rfl | hj
    · exact ⟨h8, h9⟩
    · exact h6 j hj

theorem encList_nil {α : Type} (e : α → Bytes) : encList e [] = [0] := rfl

theorem decTxLegacy_enc {t : Tx} (h : t.Small) (hw : ∀ i ∈ t.input, i.witness = []) :
    RT encTxLegacy decTxLegacy t := by
  intro r
  obtain ⟨h1, h2, h3, h4⟩ := h
  have hs : t.input.map TxIn.stripped = t.input := by
    conv => rhs; rw [← List.map_id t.input]
    apply List.map_congr_left
    intro i hi
    have := hw i hi
    cases i; simp_all [TxIn.stripped]
  simp only [decTxLegacy, encTxLegacy, List.append_assoc]
  rw [decU32_enc]; simp only [ok_bind]
  rw [decTxIns_enc h1 (fun i hi => (h3 i hi).1)]; simp only [ok_bind]
  rw [decList_enc h2 (fun o ho => decTxOut_enc (h4 o ho))]; simp only [ok_bind]
  rw [decU32_enc, hs]; rfl

theorem decTxLegacy_ok {b : Bytes} {t : Tx} {r : Bytes} (h : decTxLegacy b = .ok (t, r)) :
    b = encTxLegacy t ++ r ∧ t.Small ∧ ∀ i ∈ t.input, i.witness = [] := by
  simp only [decTxLegacy, bind_ok] at h
  obtain ⟨⟨v, r1⟩, h1, ⟨is, r2⟩, h2, ⟨os, r3⟩, h3, ⟨l, r4⟩, h4, h5⟩ := h
  cases h5
  simp only at h2 h3 h4
  have g1 := decU32_ok h1
  obtain ⟨g2, k2⟩ := decList_ok (fun _ _ _ h => (decTxIn_ok h).1) h2
  obtain ⟨g3, k3⟩ := decList_ok (fun _ _ _ h => (decTxOut_ok h).1) h3
  have g4 := decU32_ok h4
  have a2 : ∀ i ∈ is, i.scriptSig.length < 2 ^ 64 ∧ i.witness = [] :=
    decList_all (fun _ _ _ h => (decTxIn_ok h).2) h2
  have a3 : ∀ o ∈ os, o.scriptPubkey.length < 2 ^ 64 := decList_all (fun _ _ _ h => (decTxOut_ok h).2) h3
  subst g1; subst g2; subst g3; subst g4
  refine ⟨by simp [encTxLegacy], ⟨k2, k3, ?_, a3⟩, fun i hi => (a2 i hi).2⟩
  intro i hi
  exact ⟨(a2 i hi).1, by simp [(a2 i hi).2], by simp [(a2 i hi).2]⟩

theorem decTx_enc {t : Tx} (h : t.Small) : RT encTx decTx t := by
  intro r
  obtain ⟨h1, h2, h3, h4⟩ := h
  unfold encTx
  split
  · rename_i hseg
    simp only [decTx, List.append_assoc]
    rw [decU32_enc]; simp only [ok_bind]
    have e0 : ∀ x : Bytes, decList decTxIn ([0, 1] ++ x) = .ok ([], 1 :: x) := by
      intro x; rfl
    rw [e0]
    simp only [ok_bind, if_true, decU8_cons]
    rw [decTxIns_enc h1 (fun i hi => (h3 i hi).1)]; simp only [ok_bind]
    rw [decList_enc h2 (fun o ho => decTxOut_enc (h4 o ho))]; simp only [ok_bind]
    rw [decWitnesses_enc h3]; simp only [ok_bind]
    rw [if_neg, decU32_enc]
    · rfl
    · rintro ⟨hne, hall⟩
      simp only [Tx.usesSegwit, Bool.or_eq_true, List.any_eq_true, List.isEmpty_iff] at hseg
      rcases hseg with ⟨i, hi, hi'⟩ | hseg
      · have := List.all_eq_true.mp hall i hi
        simp_all
      · exact hne hseg
  · rename_i hseg
    simp only [Tx.usesSegwit, Bool.not_eq_true, Bool.or_eq_false_iff, List.any_eq_false] at hseg
    have hw : ∀ i ∈ t.input, i.witness = [] := by
      intro i hi
      have := hseg.1 i hi
      simpa using this
    have hne : t.input ≠ [] := by
      intro e; rw [e] at hseg; simp at hseg
    have hs : t.input.map TxIn.stripped = t.input := by
      conv => rhs; rw [← List.map_id t.input]
      apply List.map_congr_left
      intro i hi
      have := hw i hi
      cases i; simp_all [TxIn.stripped]
    simp only [decTx, encTxLegacy, List.append_assoc]
    rw [decU32_enc]; simp only [ok_bind]
    rw [decTxIns_enc h1 (fun i hi => (h3 i hi).1), hs]; simp only [ok_bind]
    rw [if_neg hne]
    rw [decList_enc h2 (fun o ho => decTxOut_enc (h4 o ho))]; simp only [ok_bind]
    rw [decU32_enc]; rfl

theorem decTx_ok {b : Bytes} {t : Tx} {r : Bytes} (h : decTx b = .ok (t, r)) : b = encTx t ++ r ∧ t.Small := by
  simp only [decTx, bind_ok] at h
  obtain ⟨⟨v, r1⟩, h1, ⟨is, r2⟩, h2, h⟩ := h
  simp only at h2 h
  have g1 := decU32_ok h1
  obtain ⟨g2, k2⟩ := decList_ok (fun _ _ _ h => (decTxIn_ok h).1) h2
  subst g1; subst g2
  split at h
  · rename_i his
    subst his
    simp only [bind_ok] at h
    obtain ⟨⟨fl, r3⟩, h3, h⟩ := h
    simp only at h3 h
    have g3 := decU8_ok h3
    subst g3
    split at h
    · rename_i hfl
      subst hfl
      simp only [bind_ok] at h
      obtain ⟨⟨is, r4⟩, h4, ⟨os, r5⟩, h5, ⟨js, r6⟩, h6, h⟩ := h
      simp only at h5 h6 h
      obtain ⟨g4, k4⟩ := decList_ok (fun _ _ _ h => (decTxIn_ok h).1) h4
      obtain ⟨g5, k5⟩ := decList_ok (fun _ _ _ h => (decTxOut_ok h).1) h5
      obtain ⟨g6, m6, k6⟩ := decWitnesses_ok h6
      have a4 : ∀ i ∈ is, i.scriptSig.length < 2 ^ 64 ∧ i.witness = [] :=
        decList_all (fun _ _ _ h => (decTxIn_ok h).2) h4
      have a5 : ∀ o ∈ os, o.scriptPubkey.length < 2 ^ 64 := decList_all (fun _ _ _ h => (decTxOut_ok h).2) h5
      split at h
      · cases h
      · rename_i hcond
        simp only [bind_ok] at h
        obtain ⟨⟨l, r7⟩, h7, h⟩ := h
        cases h
        have g7 := decU32_ok h7
        subst g4; subst g5; subst g6; subst g7
        have hjl : js.length = is.length := by
          have := congrArg List.length m6; simpa using this
        have hsm : ∀ j ∈ js, j.Small := by
          intro j hj
          have hjm : j.stripped ∈ is.map TxIn.stripped := by rw [← m6]; exact List.mem_map_of_mem hj
          obtain ⟨i, hi, hij⟩ := List.mem_map.mp hjm
          have : j.scriptSig = i.scriptSig := by
            have := congrArg TxIn.scriptSig hij; exact this.symm
          exact ⟨by rw [this]; exact (a4 i hi).1, k6 j hj⟩
        have hins : encList encTxIn is = encList encTxIn js := by
          have e : ∀ l : List TxIn, encList encTxIn l = encList encTxIn (l.map TxIn.stripped) := by
            intro l; simp [encList, List.flatMap_map, encTxIn_stripped]
          rw [e is, e js, m6]
        refine ⟨?_, ⟨by simpa [hjl] using k4, k5, hsm, a5⟩⟩
        have hseg : Tx.usesSegwit ⟨v, l, js, os⟩ = true := by
          simp only [Tx.usesSegwit, Bool.or_eq_true, List.any_eq_true, List.isEmpty_iff]
          by_cases hjs : js = []
          · exact Or.inr hjs
          · left
            have : ¬ js.all (fun i => i.witness.isEmpty) = true := fun e => hcond ⟨hjs, e⟩
            simpa using this
        unfold encTx
        rw [if_pos hseg, hins]
        simp [encList_nil]
    · cases h
  · rename_i his
    simp only [bind_ok] at h
    obtain ⟨⟨os, r3⟩, h3, ⟨l, r4⟩, h4, h5⟩ := h
    cases h5
    simp only at h3 h4
    obtain ⟨g3, k3⟩ := decList_ok (fun _ _ _ h => (decTxOut_ok h).1) h3
    have g4 := decU32_ok h4
    have a2 : ∀ i ∈ is, i.scriptSig.length < 2 ^ 64 ∧ i.witness = [] :=
      decList_all (fun _ _ _ h => (decTxIn_ok h).2) h2
    have a3 : ∀ o ∈ os, o.scriptPubkey.length < 2 ^ 64 := decList_all (fun _ _ _ h => (decTxOut_ok h).2) h3
    subst g3; subst g4
    have hseg : Tx.usesSegwit ⟨v, l, is, os⟩ = false := by
      simp only [Tx.usesSegwit, Bool.or_eq_false_iff, List.any_eq_false]
      refine ⟨?_, by simpa using his⟩
      intro i hi
      simp [(a2 i hi).2]
    refine ⟨by simp [encTx, hseg, encTxLegacy], ⟨k2, k3, ?_, a3⟩⟩
    intro i hi
    exact ⟨(a2 i hi).1, by simp [(a2 i hi).2], by simp [(a2 i hi).2]⟩

end Psbt
