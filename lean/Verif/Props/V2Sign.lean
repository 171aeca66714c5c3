/- C33-C35, C39: signing a PSBT v2. -/
import Verif.Lemmas.Sign
import Verif.Props.V2Extract
import Verif.Spec.DemoSig
namespace Psbt.V2
open Psbt

variable {L : Lib} {S : SigLib L}

/-! ### What the loop does with an input -/

theorem signingAlgorithm_iff (p : Psbt L) (n : Nat) : p.signingAlgorithm n = .ok .ecdsa ↔ ∃ i, Spec.Signable p n i := by
  unfold Psbt.signingAlgorithm
  rw [bind_ok]
  constructor
  · rintro ⟨t, h1, h2⟩
    obtain ⟨i, u, h3, h4, h5⟩ := (C36_output_type_iff p n t).mp h1
    refine ⟨i, h3, u, t, h4, h5, ?_⟩
    rintro rfl
    cases h2
  · rintro ⟨i, h3, u, t, h4, h5, h6⟩
    refine ⟨t, (C36_output_type_iff p n t).mpr ⟨i, u, h3, h4, h5⟩, ?_⟩
    cases t <;> first | rfl | exact absurd rfl h6

theorem signingAlgorithm_no_panic (p : Psbt L) (n : Nat) (s : String) : p.signingAlgorithm n ≠ .error (.panic s) := by
  unfold Psbt.signingAlgorithm
  intro h
  cases e : p.outputType n with
  | ok t => rw [e] at h; cases h
  | error x =>
    rw [e] at h
    have hx : x = .panic s := by injection h
    subst hx
    exact (C36_total p n).1 s e

theorem sighashEcdsa_alg {p : Psbt L} {n : Nat} {tx : Tx} {r : Hash32 × EcdsaTy} (h : p.sighashEcdsa n tx = .ok r) :
    p.signingAlgorithm n = .ok .ecdsa := by
  unfold Psbt.sighashEcdsa at h
  rw [bind_ok] at h
  obtain ⟨a, h1, h2⟩ := h
  rw [h1]
  cases a with
  | ecdsa => rfl
  | schnorr => cases h2

theorem signable_of_signs {tx : Tx} {p : Psbt L} {n : Nat} {i : Input L} {m : Hash32} {ty : EcdsaTy}
    (h : Spec.Signs tx p n i m ty) : Spec.Signable p n i := by
  obtain ⟨hi, u, hu, hd, hm⟩ := h
  have hs := (C37_sighash_iff p n tx m ty).mpr ⟨i, u, hi, hu, hd, hm⟩
  obtain ⟨i', h'⟩ := (signingAlgorithm_iff p n).mp (sighashEcdsa_alg hs)
  rw [hasInput_unique hi h'.1]
  exact h'

theorem signs_unique {tx : Tx} {p : Psbt L} {n : Nat} {i i' : Input L} {m m' : Hash32} {ty ty' : EcdsaTy}
    (h : Spec.Signs tx p n i m ty) (h' : Spec.Signs tx p n i' m' ty') : i = i' ∧ m = m' ∧ ty = ty' := by
  refine ⟨hasInput_unique h.1 h'.1, ?_⟩
  obtain ⟨hi, u, hu, hd, hm⟩ := h
  obtain ⟨hi', u', hu', hd', hm'⟩ := h'
  have h1 := (C37_sighash_iff p n tx m ty).mpr ⟨i, u, hi, hu, hd, hm⟩
  have h2 := (C37_sighash_iff p n tx m' ty').mpr ⟨i', u', hi', hu', hd', hm'⟩
  rw [h1] at h2
  cases h2
  exact ⟨rfl, rfl⟩

theorem signs_iff {tx : Tx} {p : Psbt L} {n : Nat} {m : Hash32} {ty : EcdsaTy} :
    p.sighashEcdsa n tx = .ok (m, ty) ↔ ∃ i, Spec.Signs tx p n i m ty := by
  rw [C37_sighash_iff]
  constructor
  · rintro ⟨i, u, h1, h2, h3, h4⟩; exact ⟨i, h1, u, h2, h3, h4⟩
  · rintro ⟨i, h1, u, h2, h3, h4⟩; exact ⟨i, u, h1, h2, h3, h4⟩

theorem outcome_of_signable {k : Provider S} {tx : Tx} {p : Psbt L} {n : Nat} {i : Input L} (h : Spec.Signable p n i) :
    outcome S k tx p n = match p.sighashEcdsa n tx with
      | .error (.panic s) => .panic s
      | .error (.err e) => if (Spec.keysFor S k i).isEmpty then .panic "at this stage we know its ok" else .fail e
      | .ok (m, ty) => .signed m ty (Spec.keysFor S k i) := by
  unfold outcome
  rw [(signingAlgorithm_iff p n).mpr ⟨i, h⟩]
  simp only [h.1.1]
  cases p.sighashEcdsa n tx with
  | ok r => rfl
  | error x => cases x <;> rfl

theorem outcome_skip {k : Provider S} {tx : Tx} {p : Psbt L} {n : Nat} (h : ¬ ∃ i, Spec.Signable p n i) :
    outcome S k tx p n = .skip := by
  unfold outcome
  cases e : p.signingAlgorithm n with
  | error x =>
    cases x with
    | err x => rfl
    | panic s => exact absurd e (signingAlgorithm_no_panic p n s)
  | ok a =>
    cases a with
    | schnorr => rfl
    | ecdsa => exact absurd ((signingAlgorithm_iff p n).mp e) h

theorem outcome_signed {k : Provider S} {tx : Tx} {p : Psbt L} {n : Nat} {m : Hash32} {ty : EcdsaTy} {keys : List S.SK} :
    outcome S k tx p n = .signed m ty keys ↔ ∃ i, Spec.Signs tx p n i m ty ∧ keys = Spec.keysFor S k i := by
  constructor
  · intro h
    by_cases hs : ∃ i, Spec.Signable p n i
    · obtain ⟨i, hi⟩ := hs
      rw [outcome_of_signable hi] at h
      cases e : p.sighashEcdsa n tx with
      | error x =>
        simp only [e] at h
        cases x with
        | panic s => cases h
        | err x => simp only at h; split at h <;> cases h
      | ok r =>
        obtain ⟨m', ty'⟩ := r
        simp only [e] at h
        cases h
        obtain ⟨j, hj⟩ := signs_iff.mp e
        rw [hasInput_unique hi.1 hj.1]
        exact ⟨j, hj, rfl⟩
    · rw [outcome_skip hs] at h; cases h
  · rintro ⟨i, h, rfl⟩
    rw [outcome_of_signable (signable_of_signs h), signs_iff.mpr ⟨i, h⟩]

theorem outcome_fail {k : Provider S} {tx : Tx} {p : Psbt L} {n : Nat} {e : SignErr} :
    outcome S k tx p n = .fail e ↔
      ∃ i, Spec.Signable p n i ∧ Spec.keysFor S k i ≠ [] ∧ p.sighashEcdsa n tx = .error (.err e) := by
  constructor
  · intro h
    by_cases hs : ∃ i, Spec.Signable p n i
    · obtain ⟨i, hi⟩ := hs
      rw [outcome_of_signable hi] at h
      cases e' : p.sighashEcdsa n tx with
      | error x =>
        simp only [e'] at h
        cases x with
        | panic s => cases h
        | err x =>
          simp only [List.isEmpty_iff] at h
          split at h
          · cases h
          · rename_i hk; cases h; exact ⟨i, hi, hk, rfl⟩
      | ok r =>
        obtain ⟨m', ty'⟩ := r
        simp only [e'] at h
        cases h
    · rw [outcome_skip hs] at h; cases h
  · rintro ⟨i, h, hk, he⟩
    rw [outcome_of_signable h, he]
    simp only [List.isEmpty_iff, hk, if_false]

theorem outcome_panic {k : Provider S} {tx : Tx} {p : Psbt L} {n : Nat} :
    (∃ s, outcome S k tx p n = .panic s) ↔
      ∃ i, Spec.Signable p n i ∧ ((Spec.keysFor S k i = [] ∧ ∃ e, p.sighashEcdsa n tx = .error (.err e)) ∨
        ∃ s, p.sighashEcdsa n tx = .error (.panic s)) := by
  constructor
  · rintro ⟨s, h⟩
    by_cases hs : ∃ i, Spec.Signable p n i
    · obtain ⟨i, hi⟩ := hs
      refine ⟨i, hi, ?_⟩
      rw [outcome_of_signable hi] at h
      cases e' : p.sighashEcdsa n tx with
      | error x =>
        simp only [e'] at h
        cases x with
        | panic s => exact .inr ⟨s, rfl⟩
        | err x =>
          simp only [List.isEmpty_iff] at h
          split at h
          · rename_i hk; exact .inl ⟨hk, x, rfl⟩
          · cases h
      | ok r =>
        obtain ⟨m', ty'⟩ := r
        simp only [e'] at h
        cases h
    · rw [outcome_skip hs] at h; cases h
  · rintro ⟨i, h, ⟨hk, e, he⟩ | ⟨s, he⟩⟩
    · rw [outcome_of_signable h, he]
      simp only [List.isEmpty_iff, hk, if_true]
      exact ⟨_, rfl⟩
    · rw [outcome_of_signable h, he]
      exact ⟨_, rfl⟩

/-- The state after the loop. -/
def final (S : SigLib L) (k : Provider S) (tx : Tx) (p : Psbt L) : Signing L :=
  (List.range p.global.inputCount.toNat).foldl (fun s n => applyState s n (outcome S k tx p n)) ⟨p, .empty, .empty⟩

theorem sign_ok {p q : Psbt L} {tx : Tx} {k : Provider S} {r} (h : p.sign S tx k = .ok (q, r)) :
    q = (final S k tx p).psbt ∧
    r = if (final S k tx p).errors.isEmpty then .ok (final S k tx p).used else .error ((final S k tx p).used, (final S k tx p).errors) := by
  unfold Psbt.sign at h
  rcases signAll_ok k tx p (List.range p.global.inputCount.toNat) ⟨p, .empty, .empty⟩ rfl with ⟨-, h1⟩ | ⟨n, -, m, -, h1⟩
  · rw [h1] at h
    cases h
    exact ⟨rfl, rfl⟩
  · rw [h1] at h; cases h

theorem sign_panic {p : Psbt L} {tx : Tx} {k : Provider S} :
    (∃ r, p.sign S tx k = .ok r) ∨ ((∃ s, p.sign S tx k = .error (.panic s)) ∧ ∃ n s, outcome S k tx p n = .panic s) := by
  unfold Psbt.sign
  rcases signAll_ok k tx p (List.range p.global.inputCount.toNat) ⟨p, .empty, .empty⟩ rfl with ⟨-, h1⟩ | ⟨n, -, m, h2, h1⟩
  · rw [h1]; exact .inl ⟨_, rfl⟩
  · rw [h1]; exact .inr ⟨⟨m, rfl⟩, n, m, h2⟩

theorem sign_no_panic {p : Psbt L} {tx : Tx} {k : Provider S} {n : Nat} {s : String} (hn : n < p.global.inputCount.toNat)
    (h : outcome S k tx p n = .panic s) : ∃ s, p.sign S tx k = .error (.panic s) := by
  unfold Psbt.sign
  rcases signAll_ok k tx p (List.range p.global.inputCount.toNat) ⟨p, .empty, .empty⟩ rfl with ⟨h2, h1⟩ | ⟨n, -, m, h2, h1⟩
  · exact absurd h (h2 n (by simpa using hn) s)
  · rw [h1]; exact ⟨m, rfl⟩

/-! ### C33 -/

/-- C33. Whatever the result of signing, the PSBT differs from the one before at most in the partial signatures of its
inputs and in the modifiable flags (`Spec.erase` blanks exactly these two fields). -/
theorem C33_frame {p q : Psbt L} {tx : Tx} {k : Provider S} {r} (h : p.sign S tx k = .ok (q, r)) :
    Spec.erase q = Spec.erase p := by
  rw [(sign_ok h).1]
  exact fold_erase _ _ _

/-- C33. The partial signatures after signing, exactly: an input that has a message to sign gets a signature of that message
for each key the provider has, under that key; every other input stays as it is. -/
theorem C33_signatures {p q : Psbt L} {tx : Tx} {k : Provider S} {r} (h : p.sign S tx k = .ok (q, r)) {n : Nat} {i : Input L}
    (hi : p.inputs[n]? = some i) :
    (∀ m ty, Spec.Signs tx p n i m ty →
      q.inputs[n]? = some { i with partialSigs := Spec.addSigs S m ty (Spec.keysFor S k i) i.partialSigs }) ∧
    ((¬ ∃ m ty, Spec.Signs tx p n i m ty) → q.inputs[n]? = some i) := by
  rw [(sign_ok h).1]
  have hf := fold_inputs (outcome S k tx p) (List.range p.global.inputCount.toNat) List.nodup_range ⟨p, .empty, .empty⟩ n
  constructor
  · intro m ty hs
    refine hf.trans ?_
    simp only [hi, Option.map_some, List.mem_range, hs.1.2, if_true]
    rw [outcome_signed.mpr ⟨i, hs, rfl⟩]
    rfl
  · intro hs
    refine hf.trans ?_
    have hno : ∀ m ty keys, outcome S k tx p n ≠ .signed m ty keys := by
      intro m ty keys e
      obtain ⟨j, hj, -⟩ := outcome_signed.mp e
      have := hj.1.1
      rw [hi] at this
      cases this
      exact hs ⟨m, ty, hj⟩
    simp only [hi, Option.map_some]
    split
    · cases e : outcome S k tx p n with
      | signed m ty keys => exact absurd e (hno m ty keys)
      | _ => rfl
    · rfl

theorem addSigs_other {m : Hash32} {ty : EcdsaTy} (keys : List S.SK) (sigs : BMap L.pubkey.T (EcdsaSig L)) {pk : L.pubkey.T}
    (h : pk ∉ keys.map S.pub) : (Spec.addSigs S m ty keys sigs).get pk = sigs.get pk := by
  induction keys generalizing sigs with
  | nil => rfl
  | cons sk sks ih =>
    simp only [List.map_cons, List.mem_cons, not_or] at h
    rw [Spec.addSigs, ih _ h.2, BMap.get_insert, if_neg h.1]

theorem addSigs_mem {m : Hash32} {ty : EcdsaTy} (keys : List S.SK) (sigs : BMap L.pubkey.T (EcdsaSig L)) {pk : L.pubkey.T}
    (h : pk ∈ keys.map S.pub) :
    ∃ sk ∈ keys, S.pub sk = pk ∧ (Spec.addSigs S m ty keys sigs).get pk = some ⟨S.signEcdsa m sk, ty⟩ := by
  induction keys generalizing sigs with
  | nil => simp at h
  | cons sk sks ih =>
    rw [Spec.addSigs]
    by_cases hm : pk ∈ sks.map S.pub
    · obtain ⟨sk', h1, h2⟩ := ih (sigs.insert (S.pub sk) ⟨S.signEcdsa m sk, ty⟩) hm
      exact ⟨sk', List.mem_cons_of_mem _ h1, h2⟩
    · simp only [List.map_cons, List.mem_cons, hm, or_false] at h
      subst h
      refine ⟨sk, List.mem_cons_self, rfl, ?_⟩
      rw [addSigs_other _ _ hm, BMap.get_insert, if_pos rfl]

/-- C33. Signatures of other keys are kept as they are; the signature found for a key after signing either was there before
or is the key's signature of the input's message; no key loses its signature. -/
theorem C33_existing_signatures {p q : Psbt L} {tx : Tx} {k : Provider S} {r} (h : p.sign S tx k = .ok (q, r)) {n : Nat}
    {i j : Input L} (hi : p.inputs[n]? = some i) (hj : q.inputs[n]? = some j) (pk : L.pubkey.T) :
    (pk ∉ (Spec.keysFor S k i).map S.pub → j.partialSigs.get pk = i.partialSigs.get pk) ∧
    (j.partialSigs.get pk = i.partialSigs.get pk ∨
      ∃ m ty sk, Spec.Signs tx p n i m ty ∧ sk ∈ Spec.keysFor S k i ∧ S.pub sk = pk ∧
        j.partialSigs.get pk = some ⟨S.signEcdsa m sk, ty⟩) ∧
    (i.partialSigs.get pk ≠ none → j.partialSigs.get pk ≠ none) := by
  obtain ⟨h1, h2⟩ := C33_signatures h hi
  by_cases hs : ∃ m ty, Spec.Signs tx p n i m ty
  · obtain ⟨m, ty, hs⟩ := hs
    have := h1 m ty hs
    rw [hj] at this
    cases this
    by_cases hk : pk ∈ (Spec.keysFor S k i).map S.pub
    · obtain ⟨sk, h3, h4, h5⟩ := addSigs_mem (m := m) (ty := ty) _ i.partialSigs hk
      refine ⟨fun h => absurd hk h, .inr ⟨m, ty, sk, hs, h3, h4, h5⟩, fun _ => ?_⟩
      simp only [h5, ne_eq, reduceCtorEq, not_false_eq_true]
    · have := addSigs_other (m := m) (ty := ty) _ i.partialSigs hk
      exact ⟨fun _ => this, .inl this, fun h => by simpa only [this] using h⟩
  · have := h2 hs
    rw [hj] at this
    cases this
    exact ⟨fun _ => rfl, .inl rfl, fun h => h⟩

theorem determineLockTime_erase (p : Psbt L) : (Spec.erase p).determineLockTime = p.determineLockTime := by
  unfold Psbt.determineLockTime Spec.erase
  simp only [List.any_map, List.all_map, List.map_map]
  rfl

theorem unsignedTx_erase (p : Psbt L) : (Spec.erase p).unsignedTx = p.unsignedTx := by
  unfold Psbt.unsignedTx
  rw [determineLockTime_erase]
  simp only [Spec.erase, List.map_map]
  rfl

theorem id_erase (p : Psbt L) : (Spec.erase p).id = p.id := by
  unfold Psbt.id
  rw [unsignedTx_erase]

theorem fee_erase (p : Psbt L) : (Spec.erase p).fee = p.fee := by
  unfold Psbt.fee Psbt.fundingUtxos
  simp only [Spec.erase, List.map_map]
  rfl

/-- C33. The unsigned transaction, the unique id, the lock time and the fee are the same before and after. -/
theorem C33_same_transaction {p q : Psbt L} {tx : Tx} {k : Provider S} {r} (h : p.sign S tx k = .ok (q, r)) :
    q.unsignedTx = p.unsignedTx ∧ q.id = p.id ∧ q.determineLockTime = p.determineLockTime ∧ q.fee = p.fee := by
  have := C33_frame h
  exact ⟨by rw [← unsignedTx_erase q, this, unsignedTx_erase], by rw [← id_erase q, this, id_erase],
    by rw [← determineLockTime_erase q, this, determineLockTime_erase], by rw [← fee_erase q, this, fee_erase]⟩

theorem signer_sign_iff {p q : Psbt L} {k : Provider S} {used} : Signer.sign S p k = .ok (q, used) ↔
    ∃ tx, p.unsignedTx = .ok tx ∧ p.sign S tx k = .ok (q, .ok used) := by
  unfold Signer.sign Signer.unsignedTx expect
  cases p.unsignedTx with
  | error e =>
    cases e <;> simp
  | ok tx =>
    simp only
    cases e : p.sign S tx k with
    | error x => cases x with
      | err x => exact x.elim
      | panic s => simp [e]
    | ok r =>
      obtain ⟨q', r⟩ := r
      cases r <;> simp [e]

/-- C33, for the public entry point: what `Signer::sign` returns is the PSBT it was made of, up to partial signatures and
modifiable flags, and describes the same transaction. -/
theorem C33_signer {p q : Psbt L} {k : Provider S} {used} (h : Signer.sign S p k = .ok (q, used)) :
    Spec.erase q = Spec.erase p ∧ q.unsignedTx = p.unsignedTx ∧ q.id = p.id ∧ q.fee = p.fee ∧
    ∃ tx, p.unsignedTx = .ok tx ∧ p.sign S tx k = .ok (q, .ok used) := by
  obtain ⟨tx, h1, h2⟩ := signer_sign_iff.mp h
  obtain ⟨h3, h4, -, h5⟩ := C33_same_transaction h2
  exact ⟨C33_frame h2, h3, h4, h5, tx, h1, h2⟩

/-! ### C34 -/

/-- C34. The modifiable flags after signing, bit by bit. Bit 0 (inputs modifiable) stays only if every message signed had
ANYONECANPAY, bit 1 (outputs modifiable) only if every one was NONE, bit 2 (SIGHASH_SINGLE) is set in addition if one was
SINGLE; the other bits are as before. -/
theorem C34_flags {p q : Psbt L} {tx : Tx} {k : Provider S} {r} (h : p.sign S tx k = .ok (q, r)) :
    (Spec.flag q 0 = true ↔ Spec.flag p 0 = true ∧
      ∀ n i m ty, Spec.Signs tx p n i m ty → ty.1 = 0x81 ∨ ty.1 = 0x82 ∨ ty.1 = 0x83) ∧
    (Spec.flag q 1 = true ↔ Spec.flag p 1 = true ∧ ∀ n i m ty, Spec.Signs tx p n i m ty → ty.1 = 0x02 ∨ ty.1 = 0x82) ∧
    (Spec.flag q 2 = true ↔ Spec.flag p 2 = true ∨ ∃ n i m ty, Spec.Signs tx p n i m ty ∧ (ty.1 = 0x03 ∨ ty.1 = 0x83)) ∧
    (∀ b, 2 < b → Spec.flag q b = Spec.flag p b) := by
  have hq : q.global.txModifiableFlags =
      (List.range p.global.inputCount.toNat).foldl (fun fl n => (outcome S k tx p n).flags fl) p.global.txModifiableFlags := by
    rw [(sign_ok h).1]
    exact fold_flags _ _ _
  have hb := fun b => fold_bits (outcome S k tx p) (List.range p.global.inputCount.toNat) p.global.txModifiableFlags b
  rw [← hq] at hb
  have all : ∀ P : EcdsaTy → Prop, (∀ n ∈ List.range p.global.inputCount.toNat, ∀ m ty keys,
      outcome S k tx p n = .signed m ty keys → P ty) ↔ ∀ n i m ty, Spec.Signs tx p n i m ty → P ty := by
    intro P
    constructor
    · intro h n i m ty hs
      exact h n (by simpa using hs.1.2) m ty _ (outcome_signed.mpr ⟨i, hs, rfl⟩)
    · intro h n _ m ty keys ho
      obtain ⟨i, hs, -⟩ := outcome_signed.mp ho
      exact h n i m ty hs
  have ex : ∀ P : EcdsaTy → Prop, (∃ n ∈ List.range p.global.inputCount.toNat, ∃ m ty keys,
      outcome S k tx p n = .signed m ty keys ∧ P ty) ↔ ∃ n i m ty, Spec.Signs tx p n i m ty ∧ P ty := by
    intro P
    constructor
    · rintro ⟨n, _, m, ty, keys, ho, hp⟩
      obtain ⟨i, hs, -⟩ := outcome_signed.mp ho
      exact ⟨n, i, m, ty, hs, hp⟩
    · rintro ⟨n, i, m, ty, hs, hp⟩
      exact ⟨n, by simpa using hs.1.2, m, ty, _, outcome_signed.mpr ⟨i, hs, rfl⟩, hp⟩
  refine ⟨?_, ?_, ?_, ?_⟩
  · rw [Spec.flag, hb 0, all fun ty => ty.1 = 0x81 ∨ ty.1 = 0x82 ∨ ty.1 = 0x83]
    simp [Spec.flag]
  · rw [Spec.flag, hb 1, all fun ty => ty.1 = 0x02 ∨ ty.1 = 0x82]
    simp [Spec.flag]
  · rw [Spec.flag, hb 2, ex fun ty => ty.1 = 0x03 ∨ ty.1 = 0x83]
    simp [Spec.flag]
  · intro b h2
    rw [Bool.eq_iff_iff, Spec.flag, hb b]
    have h0 : b ≠ 0 := by omega
    have h1 : b ≠ 1 := by omega
    have h2' : b ≠ 2 := by omega
    simp [Spec.flag, h0, h1, h2', h2]

/-- C34. The flags after `Signer::ecdsa_clear_tx_modifiable` with one sighash type; nothing else changes. -/
theorem C34_clear (p : Psbt L) (ty : EcdsaTy) :
    (Spec.flag (Signer.ecdsaClearTxModifiable p ty) 0 = true ↔ Spec.flag p 0 = true ∧ (ty.1 = 0x81 ∨ ty.1 = 0x82 ∨ ty.1 = 0x83)) ∧
    (Spec.flag (Signer.ecdsaClearTxModifiable p ty) 1 = true ↔ Spec.flag p 1 = true ∧ (ty.1 = 0x02 ∨ ty.1 = 0x82)) ∧
    (Spec.flag (Signer.ecdsaClearTxModifiable p ty) 2 = true ↔ Spec.flag p 2 = true ∨ ty.1 = 0x03 ∨ ty.1 = 0x83) ∧
    (∀ b, 2 < b → Spec.flag (Signer.ecdsaClearTxModifiable p ty) b = Spec.flag p b) ∧
    { (Signer.ecdsaClearTxModifiable p ty) with global := p.global } = p ∧
    { (Signer.ecdsaClearTxModifiable p ty).global with txModifiableFlags := p.global.txModifiableFlags } = p.global := by
  refine ⟨?_, ?_, ?_, ?_, rfl, ?_⟩
  · rw [Signer.ecdsaClearTxModifiable, flag_clearTx]
    simp only [if_true, Bool.and_eq_true, Bool.or_eq_true, beq_iff_eq, or_assoc]
    exact and_comm
  · rw [Signer.ecdsaClearTxModifiable, flag_clearTx]
    simp only [Nat.one_ne_zero, if_false, if_true, Bool.and_eq_true, Bool.or_eq_true, beq_iff_eq]
    exact and_comm
  · rw [Signer.ecdsaClearTxModifiable, flag_clearTx]
    simp only [show ¬ (2 : Nat) = 0 by decide, show ¬ (2 : Nat) = 1 by decide, if_false, if_true, Bool.or_eq_true, beq_iff_eq]
    exact or_comm
  · intro b hb
    rw [Signer.ecdsaClearTxModifiable, flag_clearTx, if_neg (by omega), if_neg (by omega), if_neg (by omega)]
  · rw [Signer.ecdsaClearTxModifiable, clearTxModifiable_eq]

/-! ### C35 -/

/-- C35. The reports, exactly. An input is listed as signed, with these keys, if and only if it has a message to sign, and the
keys are those the provider has for its key origins; it is listed with an error if and only if ECDSA signing applies to it,
the provider has a key for it and its message cannot be computed, and the error is that failure. Signing succeeds if and only
if no error is listed. -/
theorem C35_reports {p q : Psbt L} {tx : Tx} {k : Provider S} {r} (h : p.sign S tx k = .ok (q, r)) :
    ∃ (used : BMap Nat (List L.pubkey.T)) (errors : BMap Nat SignErr),
      (r = .ok used ∧ errors.l = [] ∨ r = .error (used, errors) ∧ errors.l ≠ []) ∧
      (∀ n pks, used.get n = some pks ↔ ∃ i m ty, Spec.Signs tx p n i m ty ∧ pks = (Spec.keysFor S k i).map S.pub) ∧
      (∀ n e, errors.get n = some e ↔
        ∃ i, Spec.Signable p n i ∧ Spec.keysFor S k i ≠ [] ∧ p.sighashEcdsa n tx = .error (.err e)) := by
  obtain ⟨-, hr⟩ := sign_ok h
  refine ⟨(final S k tx p).used, (final S k tx p).errors, ?_, ?_, ?_⟩
  · rw [hr]
    by_cases he : (final S k tx p).errors.isEmpty = true
    · rw [if_pos he]; exact .inl ⟨rfl, List.isEmpty_iff.mp he⟩
    · rw [if_neg he]; exact .inr ⟨rfl, fun hl => he (List.isEmpty_iff.mpr hl)⟩
  · intro n pks
    have : (final S k tx p).used.get n = _ := fold_used (outcome S k tx p) _ _ n
    rw [this]
    simp only [List.mem_range]
    constructor
    · intro h
      split at h
      · cases e : outcome S k tx p n with
        | signed m ty keys =>
          rw [e] at h
          cases h
          obtain ⟨i, hs, rfl⟩ := outcome_signed.mp e
          exact ⟨i, m, ty, hs, rfl⟩
        | _ => rw [e] at h; cases h
      · cases h
    · rintro ⟨i, m, ty, hs, rfl⟩
      rw [if_pos hs.1.2, outcome_signed.mpr ⟨i, hs, rfl⟩]
      rfl
  · intro n e
    have : (final S k tx p).errors.get n = _ := fold_err (outcome S k tx p) _ _ n
    rw [this]
    simp only [List.mem_range]
    constructor
    · intro h
      split at h
      · cases e' : outcome S k tx p n with
        | fail x =>
          rw [e'] at h
          cases h
          exact outcome_fail.mp e'
        | _ => rw [e'] at h; cases h
      · cases h
    · rintro ⟨i, hs, h1, h2⟩
      rw [if_pos hs.1.2, outcome_fail.mpr ⟨i, hs, h1, h2⟩]
      rfl

/-- C35. An input's failure does not keep another input from being signed: which input gets signed is decided input by input
(this is `C33_signatures` and `C35_reports`, which hold for failing runs too); here, that whatever another input's outcome,
an input with a message and a key ends up with a signature under that key. -/
theorem C35_independent {p q : Psbt L} {tx : Tx} {k : Provider S} {r} (h : p.sign S tx k = .ok (q, r)) {n : Nat} {i : Input L}
    {m : Hash32} {ty : EcdsaTy} (hs : Spec.Signs tx p n i m ty) {sk : S.SK} (hk : sk ∈ Spec.keysFor S k i) :
    ∃ j sig, q.inputs[n]? = some j ∧ j.partialSigs.get (S.pub sk) = some sig ∧ sig.ty = ty ∧
      ∃ sk' ∈ Spec.keysFor S k i, S.pub sk' = S.pub sk ∧ sig.der = S.signEcdsa m sk' := by
  have := (C33_signatures h hs.1.1).1 m ty hs
  obtain ⟨sk', h1, h2, h3⟩ := addSigs_mem (m := m) (ty := ty) (Spec.keysFor S k i) i.partialSigs (List.mem_map_of_mem (f := S.pub) hk)
  exact ⟨_, _, this, h3, rfl, sk', h1, h2, rfl⟩

/-- C35. When signing panics, for a transaction with at least as many inputs as the PSBT: exactly if some input that ECDSA
signing applies to has no message (say, because a script is missing or its sighash type is not standard) and the provider
has no key for it. -/
theorem C35_panics_iff {p : Psbt L} {tx : Tx} {k : Provider S} (hl : p.inputs.length ≤ tx.input.length) :
    (∃ s, p.sign S tx k = .error (.panic s)) ↔
      ∃ n i e, Spec.Signable p n i ∧ Spec.keysFor S k i = [] ∧ p.sighashEcdsa n tx = .error (.err e) := by
  have key : ∀ n, (∃ s, outcome S k tx p n = .panic s) ↔
      ∃ i e, Spec.Signable p n i ∧ Spec.keysFor S k i = [] ∧ p.sighashEcdsa n tx = .error (.err e) := by
    intro n
    rw [outcome_panic]
    constructor
    · rintro ⟨i, h, ⟨h1, e, h2⟩ | ⟨s, h2⟩⟩
      · exact ⟨i, e, h, h1, h2⟩
      · have : n < tx.input.length := Nat.lt_of_lt_of_le (List.getElem?_eq_some_iff.mp h.1.1).1 hl
        exact absurd h2 (C37_never_panics_partial p n tx this s)
    · rintro ⟨i, e, h, h1, h2⟩
      exact ⟨i, h, .inl ⟨h1, e, h2⟩⟩
  constructor
  · rintro ⟨s, h⟩
    rcases sign_panic (p := p) (tx := tx) (k := k) with ⟨r, h'⟩ | ⟨-, n, s', h'⟩
    · rw [h'] at h; cases h
    · exact ⟨n, (key n).mp ⟨s', h'⟩⟩
  · rintro ⟨n, i, e, h⟩
    obtain ⟨s, hs⟩ := (key n).mpr ⟨i, e, h⟩
    exact sign_no_panic h.1.1.2 hs

theorem signer_unsignedTx_len {p : Psbt L} {tx : Tx} (h : p.unsignedTx = .ok tx) : p.inputs.length ≤ tx.input.length := by
  obtain ⟨n, -, rfl⟩ := unsignedTx_ok.mp h
  simp

/-- C35, for the public entry point: when `Signer::sign` panics. The full property (no panic) fails, see
`C35_panic_counterexample`. -/
theorem C35_never_panics_partial {p : Psbt L} {tx : Tx} {k : Provider S} (ht : p.unsignedTx = .ok tx) :
    (∀ s, Signer.sign S p k ≠ .error (.panic s)) ↔
      ∀ n i e, Spec.Signable p n i → p.sighashEcdsa n tx = .error (.err e) → Spec.keysFor S k i ≠ [] := by
  have hp := C35_panics_iff (S := S) (p := p) (tx := tx) (k := k) (signer_unsignedTx_len ht)
  have hS : (∃ s, Signer.sign S p k = .error (.panic s)) ↔ ∃ s, p.sign S tx k = .error (.panic s) := by
    unfold Signer.sign Signer.unsignedTx expect
    rw [ht]
    simp only
    cases e : p.sign S tx k with
    | error x =>
      cases x with
      | err x => exact x.elim
      | panic s => simp
    | ok r =>
      obtain ⟨q', r⟩ := r
      cases r <;> simp
  constructor
  · intro h n i e h1 h2 h3
    obtain ⟨s, hs⟩ := hS.mpr (hp.mpr ⟨n, i, e, h1, h3, h2⟩)
    exact h s hs
  · intro h s hs
    obtain ⟨n, i, e, h1, h2, h3⟩ := hp.mp (hS.mp ⟨s, hs⟩)
    exact h n i e h1 h3 h2

/-! ### Cases that meet the hypotheses, and where C35 fails -/

abbrev SS := Demo.sigLib false
/-- One key origin: fingerprint 01010101, path of one step. -/
def sOrigin : BMap SL.secpPk.T KeySource := BMap.empty.insert (Demo.val 33 (by decide) 5) (Demo.rep 4 1, [7])
/-- The flags byte of a PSBT set. -/
def sFlags (f : UInt8) (p : Psbt SL) : Psbt SL := { p with global := { p.global with txModifiableFlags := f } }
/-- A PSBT with an input that can be signed, one whose witness script is missing, a taproot input, and an input of legacy
type with SINGLE|ANYONECANPAY that has an older signature of another key. -/
def sMixed : Psbt SL := sFlags 0x03 (sP [
  { sIn spkWpkh with bip32Derivations := sOrigin },
  { sIn spkWsh with bip32Derivations := sOrigin },
  sIn spkTr,
  { sIn spkBare with
    bip32Derivations := sOrigin, sighashType := some 0x83
    partialSigs := BMap.empty.insert (Demo.val 33 (by decide) 9) ⟨Demo.val 8 (by decide) 9, ⟨0x83, by decide⟩⟩ }])
/-- The provider: an extended private key with fingerprint 01010101. -/
def sKeys : Provider SS := getKeyXpriv SS (0, 1)

/-- The key of that provider for that origin. -/
def sPk : SL.pubkey.T := Demo.val 33 (by decide) 2
/-- The results of signing. -/
def sQ : Psbt SL := match sMixed.sign SS (sTx sMixed) sKeys with | .ok (q, _) => q | _ => sMixed
def sUsed : BMap Nat (List SL.pubkey.T) := match sMixed.sign SS (sTx sMixed) sKeys with | .ok (_, .error (u, _)) => u | _ => .empty
def sErrs : BMap Nat SignErr := match sMixed.sign SS (sTx sMixed) sKeys with | .ok (_, .error (_, e)) => e | _ => .empty

-- The hypothesis of the C33 to C35 theorems (signing runs to its end) is met, with a mixed result.
theorem sRun : sMixed.sign SS (sTx sMixed) sKeys = .ok (sQ, .error (sUsed, sErrs)) := rfl
-- Each theorem, applied to that run; input 0 has a message to sign and a key, input 3 an older signature.
theorem sSigns : ∃ i m ty, Spec.Signs (sTx sMixed) sMixed 0 i m ty := by
  obtain ⟨i, h⟩ := signs_iff.mp (rfl : sMixed.sighashEcdsa 0 (sTx sMixed) = .ok (_, _))
  exact ⟨i, _, _, h⟩
example := C33_frame sRun
example := C33_signatures sRun (n := 0) rfl
example := C33_existing_signatures sRun (n := 3) rfl rfl (Demo.val 33 (by decide) 9)
example := C33_same_transaction sRun
example := C34_flags sRun
example := C35_reports sRun
example : ∃ j sig, sQ.inputs[0]? = some j ∧ j.partialSigs.get sPk = some sig := by
  obtain ⟨i, m, ty, h⟩ := sSigns
  have hi : sMixed.inputs[0]? = some i := h.1.1
  cases hi
  obtain ⟨j, sig, h1, h2, -⟩ := C35_independent (k := sKeys) sRun h (sk := (2 : UInt8)) (.head _)
  exact ⟨j, sig, h1, h2⟩
example : sUsed.l = [(0, [sPk]), (3, [sPk])] ∧ sErrs.l = [(1, .missingWitnessScript)] ∧
    sQ.global.txModifiableFlags = 0x04 ∧ sQ.inputs[1]? = sMixed.inputs[1]? ∧ sQ.inputs[2]? = sMixed.inputs[2]? ∧
    sQ.inputs[0]? ≠ sMixed.inputs[0]? ∧ (sQ.inputs.map fun i => i.partialSigs.l.length) = [1, 0, 0, 2] := by decide +kernel
-- A successful run of the public entry point.
example := C33_signer (rfl : Signer.sign SS (sP [{ sIn spkWpkh with bip32Derivations := sOrigin }]) sKeys = .ok (_, _))
example : ∃ q used, Signer.sign SS (sP [{ sIn spkWpkh with bip32Derivations := sOrigin }]) sKeys = .ok (q, used) ∧
    used.get 0 = some [sPk] := ⟨_, _, rfl, by decide +kernel⟩
-- The hypotheses of `C35_panics_iff` and `C35_never_panics_partial` are met.
example : sMixed.inputs.length ≤ (sTx sMixed).input.length ∧ sMixed.unsignedTx = .ok (sTx sMixed) := ⟨by decide, rfl⟩

/-- C35 fails: signing a PSBT that has a P2WSH input without witness script panics if the provider has no key for it. -/
theorem C35_panic_counterexample : ∃ (p : Psbt SL) (k : Provider SS) (s : String), Signer.sign SS p k = .error (.panic s) :=
  ⟨sP [sIn spkWsh], sKeys, "at this stage we know its ok", rfl⟩

/-- C35 fails in another respect: an input that has no funding information, though the provider has its key, is reported
neither as signed nor as failed, and signing succeeds. -/
theorem C35_silent_counterexample : ∃ (p q : Psbt SL) (k : Provider SS) (i : Input SL) (used : BMap Nat (List SL.pubkey.T)),
    p.inputs = [i] ∧ Spec.keysFor SS k i ≠ [] ∧ Signer.sign SS p k = .ok (q, used) ∧ used.get 0 = none ∧ q = p :=
  ⟨sP [{ sIn spkWpkh with bip32Derivations := sOrigin, witnessUtxo := none }], _, sKeys, _, _, rfl, by decide +kernel, rfl,
    by decide +kernel, by decide +kernel⟩

/-- C34, an oddity `C34_flags` covers: the flags are cleared although no signature was added, since the provider had no key;
the input is then reported as signed with no keys. -/
theorem C34_cleared_without_signature : ∃ (p q : Psbt SL) (k : Provider SS) (used : BMap Nat (List SL.pubkey.T)),
    Signer.sign SS p k = .ok (q, used) ∧ q.inputs = p.inputs ∧ Spec.flag p 0 = true ∧ Spec.flag q 0 = false ∧
    Spec.flag p 1 = true ∧ Spec.flag q 1 = false ∧ used.get 0 = some [] :=
  ⟨sFlags 0x03 (sP [sIn spkWpkh]), _, sKeys, _, rfl, by decide +kernel, by decide +kernel, by decide +kernel,
    by decide +kernel, by decide +kernel, by decide +kernel⟩

/-! ### C39 -/

/-- The input's declared type is standard and all its partial signatures use it. -/
def Spec.SigsMatch (i : Input L) : Prop := ∃ ty, Spec.DeclaredType i ty ∧ ∀ pk sig, i.partialSigs.get pk = some sig → sig.ty = ty

theorem ecdsaTyOf_self (t : EcdsaTy) : ecdsaTyOf t.1.toUInt32 = some t := ecdsaHashTy_iff.mpr rfl

theorem checkSigs_ok {n : Nat} {ty : EcdsaTy} {l : List (L.pubkey.T × EcdsaSig L)} :
    checkSigs n ty l = .ok () ↔ ∀ x ∈ l, x.2.ty = ty := by
  induction l with
  | nil => simp [checkSigs]
  | cons x l ih =>
    obtain ⟨pk, sig⟩ := x
    rw [checkSigs, ecdsaTyOf_self]
    simp only [List.mem_cons, forall_eq_or_imp]
    by_cases h : ty = sig.ty
    · rw [if_neg (by simpa using h), ih]
      exact ⟨fun h' => ⟨h.symm, h'⟩, fun h' => h'.2⟩
    · rw [if_pos (by simpa using h)]
      simp only [reduceCtorEq, false_iff]
      intro h'; exact h h'.1.symm

theorem checkSigs_err {n : Nat} {ty : EcdsaTy} {l : List (L.pubkey.T × EcdsaSig L)} {e : PartialSigsErr L}
    (h : checkSigs n ty l = .error e) : ∃ x ∈ l, x.2.ty ≠ ty ∧ e = .wrongFlag n ty x.2.ty x.1 := by
  induction l with
  | nil => cases h
  | cons x l ih =>
    obtain ⟨pk, sig⟩ := x
    rw [checkSigs, ecdsaTyOf_self] at h
    simp only at h
    split at h
    · rename_i hne
      cases h
      exact ⟨_, List.mem_cons_self, fun h => hne h.symm, rfl⟩
    · obtain ⟨x, h1, h2⟩ := ih h
      exact ⟨x, List.mem_cons_of_mem _ h1, h2⟩

theorem checkFrom_ok {n : Nat} {is : List (Input L)} : checkPartialSigsFrom n is = .ok () ↔ ∀ i ∈ is, Spec.SigsMatch i := by
  induction is generalizing n with
  | nil => simp [checkPartialSigsFrom]
  | cons i is ih =>
    rw [checkPartialSigsFrom]
    simp only [List.mem_cons, forall_eq_or_imp]
    cases e : i.ecdsaHashTy with
    | none =>
      simp only [reduceCtorEq, false_iff]
      rintro ⟨⟨ty, h, -⟩, -⟩
      rw [inputHashTy_iff.mpr h] at e; cases e
    | some ty =>
      simp only
      have hd := inputHashTy_iff.mp e
      cases e' : checkSigs n ty i.partialSigs.l with
      | error x =>
        simp only [reduceCtorEq, false_iff]
        rintro ⟨⟨ty', h1, h2⟩, -⟩
        cases declared_unique hd h1
        obtain ⟨x, hx, hne, -⟩ := checkSigs_err e'
        exact hne (h2 x.1 x.2 (BMap.mem_iff_get.mp hx))
      | ok u =>
        simp only
        rw [ih]
        refine ⟨fun h => ⟨⟨ty, hd, fun pk sig hg => ?_⟩, h⟩, fun h => h.2⟩
        exact checkSigs_ok.mp e' (pk, sig) (BMap.mem_iff_get.mpr hg)

theorem checkFrom_err {n : Nat} {is : List (Input L)} {e : PartialSigsErr L} (h : checkPartialSigsFrom n is = .error e) :
    ∃ (j : Nat) (i : Input L), is[j]? = some i ∧ (∀ i' ∈ is.take j, Spec.SigsMatch i') ∧
      ((e = .nonStandardInput (n + j) ∧ ¬ ∃ ty, Spec.DeclaredType i ty) ∨
       ∃ ty pk sig, Spec.DeclaredType i ty ∧ i.partialSigs.get pk = some sig ∧ sig.ty ≠ ty ∧ e = .wrongFlag (n + j) ty sig.ty pk) := by
  induction is generalizing n with
  | nil => cases h
  | cons i is ih =>
    rw [checkPartialSigsFrom] at h
    cases e' : i.ecdsaHashTy with
    | none =>
      simp only [e'] at h
      cases h
      refine ⟨0, i, rfl, by simp, .inl ⟨rfl, ?_⟩⟩
      rintro ⟨ty, h⟩
      rw [inputHashTy_iff.mpr h] at e'; cases e'
    | some ty =>
      simp only [e'] at h
      have hd := inputHashTy_iff.mp e'
      cases e2 : checkSigs n ty i.partialSigs.l with
      | error x =>
        simp only [e2] at h
        cases h
        obtain ⟨x, hx, hne, rfl⟩ := checkSigs_err e2
        exact ⟨0, i, rfl, by simp, .inr ⟨ty, x.1, x.2, hd, BMap.mem_iff_get.mp hx, hne, rfl⟩⟩
      | ok u =>
        simp only [e2] at h
        obtain ⟨j, i', h1, h2, h3⟩ := ih h
        refine ⟨j + 1, i', by simpa using h1, ?_, ?_⟩
        · simp only [List.take_succ_cons, List.mem_cons, forall_eq_or_imp]
          exact ⟨⟨ty, hd, fun pk sig hg => checkSigs_ok.mp e2 (pk, sig) (BMap.mem_iff_get.mpr hg)⟩, h2⟩
        · have : n + 1 + j = n + (j + 1) := by omega
          rw [this] at h3
          exact h3

/-- C39. The check passes exactly if every input declares a standard sighash type (or none, which means ALL) and all its
partial signatures use that type. -/
theorem C39_check_iff (p : Psbt L) : p.checkPartialSigsSighashType = .ok () ↔
    ∀ i ∈ p.inputs, ∃ ty, Spec.DeclaredType i ty ∧ ∀ pk sig, i.partialSigs.get pk = some sig → sig.ty = ty := checkFrom_ok

/-- C39. The error names the first input at fault, and says what is wrong with it: its declared type is not a standard one,
or it has a signature, under the named key, with the named other type. -/
theorem C39_error {p : Psbt L} {e : PartialSigsErr L} (h : p.checkPartialSigsSighashType = .error e) :
    ∃ (n : Nat) (i : Input L), p.inputs[n]? = some i ∧
      (∀ i' ∈ p.inputs.take n, ∃ ty, Spec.DeclaredType i' ty ∧ ∀ pk sig, i'.partialSigs.get pk = some sig → sig.ty = ty) ∧
      ((e = .nonStandardInput n ∧ ¬ ∃ ty, Spec.DeclaredType i ty) ∨
       ∃ ty pk sig, Spec.DeclaredType i ty ∧ i.partialSigs.get pk = some sig ∧ sig.ty ≠ ty ∧ e = .wrongFlag n ty sig.ty pk) := by
  obtain ⟨j, i, h1, h2, h3⟩ := checkFrom_err h
  rw [Nat.zero_add] at h3
  exact ⟨j, i, h1, h2, h3⟩

/-- C39. Signing a PSBT that passes the check gives one that passes it. -/
theorem C39_signing_keeps {p q : Psbt L} {tx : Tx} {k : Provider S} {r} (h : p.sign S tx k = .ok (q, r))
    (hp : p.checkPartialSigsSighashType = .ok ()) : q.checkPartialSigsSighashType = .ok () := by
  rw [C39_check_iff] at hp ⊢
  intro j hj
  obtain ⟨n, hn⟩ := List.mem_iff_getElem?.mp hj
  have he : (Spec.erase q).inputs[n]? = (Spec.erase p).inputs[n]? := by rw [C33_frame h]
  simp only [Spec.erase, List.getElem?_map, hn, Option.map_some] at he
  cases hi : p.inputs[n]? with
  | none => rw [hi] at he; cases he
  | some i =>
    rw [hi] at he
    have hsame : j.sighashType = i.sighashType := by
      have := congrArg (Option.map Input.sighashType) he
      simpa using this
    obtain ⟨ty, h1, h2⟩ := hp i (List.mem_of_getElem? hi)
    have h1' : Spec.DeclaredType j ty := by
      unfold Spec.DeclaredType at h1 ⊢
      rw [hsame]; exact h1
    refine ⟨ty, h1', fun pk sig hg => ?_⟩
    obtain ⟨-, h3, -⟩ := C33_existing_signatures h hi hn pk
    rcases h3 with h3 | ⟨m, ty', sk, hs, -, -, h3⟩
    · rw [h3] at hg; exact h2 pk sig hg
    · rw [h3] at hg
      cases hg
      obtain ⟨-, u, -, hd, -⟩ := hs
      exact declared_unique hd h1

-- The check passes on a PSBT with a signature of the declared type, and fails on one of another type, naming input 1.
example : (sP [sIn spkWpkh, { sIn spkBare with
      sighashType := some 0x83
      partialSigs := BMap.empty.insert (Demo.val 33 (by decide) 9) ⟨Demo.val 8 (by decide) 9, ⟨0x83, by decide⟩⟩ }]
    ).checkPartialSigsSighashType = .ok () := by decide +kernel
example : (sP [sIn spkWpkh, { sIn spkBare with
      partialSigs := BMap.empty.insert (Demo.val 33 (by decide) 9) ⟨Demo.val 8 (by decide) 9, ⟨0x83, by decide⟩⟩ }]
    ).checkPartialSigsSighashType =
    .error (.wrongFlag 1 ⟨0x01, by decide⟩ ⟨0x83, by decide⟩ (Demo.val 33 (by decide) 9)) := by decide +kernel
example := C39_error (rfl : (sP [sIn spkWpkh, { sIn spkBare with
      partialSigs := BMap.empty.insert (Demo.val 33 (by decide) 9) ⟨Demo.val 8 (by decide) 9, ⟨0x83, by decide⟩⟩ }]
    ).checkPartialSigsSighashType = .error _)
example : ∃ q r, sMixed.sign SS (sTx sMixed) sKeys = .ok (q, r) ∧ sMixed.checkPartialSigsSighashType = .ok () :=
  ⟨_, _, rfl, by decide +kernel⟩

/-- C39 fails in one respect: a PSBT without any partial signature does not pass if one of its inputs is a taproot input
that declares SIGHASH_DEFAULT, which is a valid type for it. -/
theorem C39_taproot_counterexample : ∃ (p : Psbt SL) (i : Input SL), p.inputs = [i] ∧ i.partialSigs.l = [] ∧
    p.outputType 0 = .ok .tr ∧ i.taprootHashTy = some ⟨0x00, by decide⟩ ∧ p.checkPartialSigsSighashType ≠ .ok () :=
  ⟨sP [{ sIn spkTr with sighashType := some 0x00 }], _, rfl, by decide +kernel, by decide +kernel, by decide +kernel,
    by decide +kernel⟩

end Psbt.V2
