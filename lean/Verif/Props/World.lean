/- C111, C112: signing with key providers that may answer differently each time, and with random nonces. -/
import Verif.Lemmas.V0World
import Verif.Lemmas.V2World
import Verif.Props.V0Sign
namespace Psbt.V2
variable {L : Lib} {S : SigLib L} {W : World S}

/-- All there is to know about a run that ends. -/
theorem signW_ok {p q : Psbt L} {tx : Tx} {s s' : W.σ} {r} (h : p.signW W tx s = (.ok (q, r), s')) :
    ∃ f : Nat → Outcome S, (∀ n < p.global.inputCount.toNat, Allowed W tx p n (f n) ∧ ∀ m, f n ≠ .panic m) ∧
      ∃ t : Signing L, t = (List.range p.global.inputCount.toNat).foldl (fun s n => applyState s n (f n)) ⟨p, .empty, .empty⟩ ∧
        q = t.psbt ∧ r = if t.errors.isEmpty then .ok t.used else .error (t.used, t.errors) := by
  unfold Psbt.signW at h
  rcases signAllW_ok (W := W) tx p (List.range p.global.inputCount.toNat) List.nodup_range ⟨p, .empty, .empty⟩ s rfl
    with ⟨f, s1, h1, h2⟩ | ⟨n, -, m, s1, -, h2⟩
  · rw [h2] at h
    cases h
    exact ⟨f, fun n hn => h1 n (List.mem_range.mpr hn), _, rfl, rfl, rfl⟩
  · rw [h2] at h; cases h

/-- An input with a message to sign is signed, the others are not. -/
theorem allowed_signed {tx : Tx} {p : Psbt L} {n : Nat} {o : Outcome S} (ho : Allowed W tx p n o) (hp : ∀ m, o ≠ .panic m) {i m ty}
    (hs : Spec.Signs tx p n i m ty) : ∃ keys, o = .signed m ty keys ∧ ∀ sk ∈ keys, ∃ d ∈ i.bip32Derivations.l, Spec.Gave W d sk := by
  have he := signs_iff.mpr ⟨i, hs⟩
  cases o with
  | skip => exact absurd ⟨i, signable_of_signs hs⟩ ho
  | panic m => exact absurd rfl (hp m)
  | fail e =>
    obtain ⟨j, -, h2, -⟩ := ho
    rw [he] at h2; cases h2
  | signed m' ty' keys =>
    obtain ⟨j, hj, hk⟩ := ho
    have := signs_iff.mpr ⟨j, hj⟩
    rw [he] at this
    cases this
    obtain rfl := hasInput_unique hs.1 hj.1
    exact ⟨keys, rfl, hk⟩

/-- C111. Whatever the provider answers, signing changes only partial signatures and modifiable flags. -/
theorem C111_frame {p q : Psbt L} {tx : Tx} {s s' : W.σ} {r} (h : p.signW W tx s = (.ok (q, r), s')) : Spec.erase q = Spec.erase p := by
  obtain ⟨f, -, t, rfl, rfl, -⟩ := signW_ok h
  exact fold_erase _ _ _

/-- C111. An input that has a message to sign gets signatures of that message with keys that the provider gave for entries of
that input, each under its public key, and these are the keys reported; every other input stays as it is. -/
theorem C111_signatures {p q : Psbt L} {tx : Tx} {s s' : W.σ} {r} (h : p.signW W tx s = (.ok (q, r), s')) {n : Nat} {i : Input L}
    (hi : p.inputs[n]? = some i) :
    (∀ m ty, Spec.Signs tx p n i m ty → ∃ sks : List S.SK, (∀ sk ∈ sks, ∃ d ∈ i.bip32Derivations.l, Spec.Gave W d sk) ∧
      q.inputs[n]? = some { i with partialSigs := Spec.addSigs S m ty sks i.partialSigs } ∧
      (Spec.reported r).get n = some (sks.map S.pub)) ∧
    ((¬ ∃ m ty, Spec.Signs tx p n i m ty) → q.inputs[n]? = some i ∧
      (Spec.reported r).get n = none) := by
  obtain ⟨f, h1, t, ht, rfl, hr⟩ := signW_ok h
  have hf := fold_inputs f (List.range p.global.inputCount.toNat) List.nodup_range ⟨p, .empty, .empty⟩ n
  have hu := fold_used f (List.range p.global.inputCount.toNat) ⟨p, .empty, .empty⟩ n
  rw [← ht] at hf hu
  have hr' : (Spec.reported r) = t.used := by
    rw [hr]; split <;> rfl
  rw [hr', hu]
  constructor
  · intro m ty hs
    obtain ⟨keys, h2, h3⟩ := allowed_signed (h1 n hs.1.2).1 (h1 n hs.1.2).2 hs
    refine ⟨keys, h3, ?_, ?_⟩
    · refine hf.trans ?_
      simp only [hi, Option.map_some, List.mem_range, hs.1.2, if_true]
      rw [h2]
      rfl
    · simp only [List.mem_range, hs.1.2, if_true]
      rw [h2]
      rfl
  · intro hs
    have hno : n < p.global.inputCount.toNat → ∀ m ty keys, f n ≠ .signed m ty keys := by
      intro hn m ty keys e
      have := (h1 n hn).1
      rw [e] at this
      obtain ⟨j, hj, -⟩ := this
      have := hj.1.1
      rw [hi] at this
      cases this
      exact hs ⟨m, ty, hj⟩
    constructor
    · refine hf.trans ?_
      simp only [hi, Option.map_some, List.mem_range]
      split
      · rename_i hn
        cases e : f n with
        | signed m ty keys => exact absurd e (hno hn m ty keys)
        | _ => rfl
      · rfl
    · simp only [List.mem_range]
      split
      · rename_i hn
        cases e : f n with
        | signed m ty keys => exact absurd e (hno hn m ty keys)
        | _ => rfl
      · rfl

/-- C111. The modifiable flags after signing do not depend on the provider: they are as in `C34_flags`. -/
theorem C111_flags {p q : Psbt L} {tx : Tx} {s s' : W.σ} {r} (h : p.signW W tx s = (.ok (q, r), s')) :
    (Spec.flag q 0 = true ↔ Spec.flag p 0 = true ∧
      ∀ n i m ty, Spec.Signs tx p n i m ty → ty.1 = 0x81 ∨ ty.1 = 0x82 ∨ ty.1 = 0x83) ∧
    (Spec.flag q 1 = true ↔ Spec.flag p 1 = true ∧ ∀ n i m ty, Spec.Signs tx p n i m ty → ty.1 = 0x02 ∨ ty.1 = 0x82) ∧
    (Spec.flag q 2 = true ↔ Spec.flag p 2 = true ∨ ∃ n i m ty, Spec.Signs tx p n i m ty ∧ (ty.1 = 0x03 ∨ ty.1 = 0x83)) ∧
    (∀ b, 2 < b → Spec.flag q b = Spec.flag p b) := by
  obtain ⟨f, h1, t, ht, rfl, -⟩ := signW_ok h
  have hq : t.psbt.global.txModifiableFlags =
      (List.range p.global.inputCount.toNat).foldl (fun fl n => (f n).flags fl) p.global.txModifiableFlags := by
    rw [ht]
    exact fold_flags _ _ _
  have hb := fun b => fold_bits f (List.range p.global.inputCount.toNat) p.global.txModifiableFlags b
  rw [← hq] at hb
  have all : ∀ P : EcdsaTy → Prop, (∀ n ∈ List.range p.global.inputCount.toNat, ∀ m ty keys,
      f n = .signed m ty keys → P ty) ↔ ∀ n i m ty, Spec.Signs tx p n i m ty → P ty := by
    intro P
    constructor
    · intro h n i m ty hs
      obtain ⟨keys, h2, -⟩ := allowed_signed (h1 n hs.1.2).1 (h1 n hs.1.2).2 hs
      exact h n (by simpa using hs.1.2) m ty _ h2
    · intro h n hn m ty keys ho
      have := (h1 n (List.mem_range.mp hn)).1
      rw [ho] at this
      obtain ⟨i, hs, -⟩ := this
      exact h n i m ty hs
  have ex : ∀ P : EcdsaTy → Prop, (∃ n ∈ List.range p.global.inputCount.toNat, ∃ m ty keys,
      f n = .signed m ty keys ∧ P ty) ↔ ∃ n i m ty, Spec.Signs tx p n i m ty ∧ P ty := by
    intro P
    constructor
    · rintro ⟨n, hn, m, ty, keys, ho, hp⟩
      have := (h1 n (List.mem_range.mp hn)).1
      rw [ho] at this
      obtain ⟨i, hs, -⟩ := this
      exact ⟨n, i, m, ty, hs, hp⟩
    · rintro ⟨n, i, m, ty, hs, hp⟩
      obtain ⟨keys, h2, -⟩ := allowed_signed (h1 n hs.1.2).1 (h1 n hs.1.2).2 hs
      exact ⟨n, by simpa using hs.1.2, m, ty, _, h2, hp⟩
  refine ⟨?_, ?_, ?_, ?_⟩
  · rw [Spec.flag, hb 0, all fun ty => ty.1 = 0x81 ∨ ty.1 = 0x82 ∨ ty.1 = 0x83]
    simp [Spec.flag]
  · rw [Spec.flag, hb 1, all fun ty => ty.1 = 0x02 ∨ ty.1 = 0x82]
    simp [Spec.flag]
  · rw [Spec.flag, hb 2, ex fun ty => ty.1 = 0x03 ∨ ty.1 = 0x83]
    simp [Spec.flag]
  · intro b h2
    rw [Bool.eq_iff_iff, Spec.flag, hb b]
    have h0 : b ≠ 0 := by omega
    have h1 : b ≠ 1 := by omega
    have h2' : b ≠ 2 := by omega
    simp [Spec.flag, h0, h1, h2', h2]

/-- C111. An error is reported only for an input that has no message to sign and for which the provider gave a key; it is the
one that computing the message ended with. -/
theorem C111_errors {p q : Psbt L} {tx : Tx} {s s' : W.σ} {u : BMap Nat (List L.pubkey.T)} {es : BMap Nat SignErr}
    (h : p.signW W tx s = (.ok (q, .error (u, es)), s')) {n : Nat} {e : SignErr} (he : es.get n = some e) :
    ∃ i, Spec.Signable p n i ∧ p.sighashEcdsa n tx = .error (.err e) ∧ ∃ d ∈ i.bip32Derivations.l, ∃ sk, Spec.Gave W d sk := by
  obtain ⟨f, h1, t, ht, rfl, hr⟩ := signW_ok h
  have hf := fold_err f (List.range p.global.inputCount.toNat) ⟨p, .empty, .empty⟩ n
  rw [← ht] at hf
  have : es = t.errors := by
    split at hr
    · cases hr
    · cases hr; rfl
  rw [← this, he] at hf
  simp only [List.mem_range] at hf
  split at hf
  · rename_i hn
    have h2 := (h1 n hn).1
    cases ef : f n with
    | fail e' =>
      rw [ef] at hf h2
      have : e = e' := by
        have := hf
        simp only [Outcome.err, Option.some_or] at this
        exact Option.some.inj this
      subst this
      exact h2
    | _ => rw [ef] at hf; cases hf
  · cases hf

/-- C111. If every input that ECDSA signing applies to has a message to sign, signing does not panic, whatever the provider
answers. -/
theorem C111_never_panics {p : Psbt L} {tx : Tx} (hm : ∀ n i, Spec.Signable p n i → ∃ m ty, Spec.Signs tx p n i m ty) (s : W.σ) :
    ∃ q r s', p.signW W tx s = (.ok (q, r), s') := by
  unfold Psbt.signW
  rcases signAllW_ok (W := W) tx p (List.range p.global.inputCount.toNat) List.nodup_range ⟨p, .empty, .empty⟩ s rfl
    with ⟨f, s1, h1, h2⟩ | ⟨n, -, m, s1, ⟨i, hi, h1⟩, h2⟩
  · rw [h2]; exact ⟨_, _, _, rfl⟩
  · obtain ⟨m', ty, hs⟩ := hm n i hi
    rw [signs_iff.mpr ⟨i, hs⟩] at h1
    rcases h1 with ⟨-, e, h1⟩ | h1 <;> cases h1

/-- C111. With a provider that always answers alike, signing does what it does with that provider as a function, from
every state. -/
theorem C111_steady {p : Psbt L} {tx : Tx} {k : Provider S} (hk : Spec.Steady W k) (s : W.σ) : (p.signW W tx s).1 = p.sign S tx k := by
  unfold Psbt.signW Psbt.sign
  have h1 := signAllW_steady hk tx ⟨p, .empty, .empty⟩ (List.range p.global.inputCount.toNat) s
  rcases hl : signAllW W tx ⟨p, .empty, .empty⟩ (List.range p.global.inputCount.toNat) s with ⟨a, s1⟩
  rw [hl] at h1
  simp only at h1
  subst h1
  rcases signAll S k tx ⟨p, .empty, .empty⟩ (List.range p.global.inputCount.toNat) with _ | t <;> rfl

/-- C111. Exactly then: if some input that ECDSA signing applies to has no message, signing panics with some provider (say, one
that has no keys). -/
theorem C111_never_panics_iff (p : Psbt L) (tx : Tx) :
    (∀ (W : World S) (s : W.σ), ∃ q r s', p.signW W tx s = (.ok (q, r), s')) ↔
      ∀ n i, Spec.Signable p n i → ∃ m ty, Spec.Signs tx p n i m ty := by
  refine ⟨fun h n i hi => ?_, fun h W s => C111_never_panics (W := W) h s⟩
  let k : Provider S := fun _ => .ok none
  let W : World S := ⟨Unit, fun s r => (k r, s), fun _ => ⟨List.replicate 32 0, rfl⟩, fun m q _ => S.signSchnorr m q⟩
  obtain ⟨q, r, s', hw⟩ := h W ()
  have hk : p.sign S tx k = .ok (q, r) := by
    rw [← C111_steady (W := W) (fun _ _ => rfl) (), hw]
  cases e : p.sighashEcdsa n tx with
  | ok m =>
    obtain ⟨j, hj⟩ := signs_iff.mp e
    obtain rfl := hasInput_unique hi.1 hj.1
    exact ⟨_, _, hj⟩
  | error x =>
    have hn : Spec.keysFor S k i = [] := List.filterMap_eq_nil_iff.mpr fun _ _ => rfl
    have ho : ∃ s, outcome S k tx p n = .panic s := outcome_panic.mpr ⟨i, hi, match x, e with
      | .err x, e => .inl ⟨hn, x, e⟩
      | .panic w, e => .inr ⟨w, e⟩⟩
    obtain ⟨w, ho⟩ := ho
    obtain ⟨w', hp⟩ := sign_no_panic hi.1.2 ho
    rw [hp] at hk; cases hk

end Psbt.V2

namespace Psbt.V0
variable {L : Lib} {S : SigLib L} {W : World S}

/-- All there is to know about a run that ends. -/
theorem signW_spec {p q : Psbt L} {s s' : W.State} {r} (h : p.signW W s = (.ok (q, r), s')) :
    ∃ st : Nat → W.State,
    Spec.V0.erase q = Spec.V0.erase p ∧
    (∀ n < p.inputs.length, ∀ m, (outcomeW W p.unsignedTx p n (st n)).1 ≠ .panic m) ∧
    (r = if (Spec.V0.errorsReported r).isEmpty then .ok (Spec.V0.keysReported r)
      else .error (Spec.V0.keysReported r, Spec.V0.errorsReported r)) ∧
    s.2 ≤ s'.2 ∧
    (∀ n < p.inputs.length, s.2 ≤ (st n).2 ∧ (outcomeW W p.unsignedTx p n (st n)).2.2 ≤ s'.2) ∧
    (∀ a b, a < b → b < p.inputs.length → (outcomeW W p.unsignedTx p a (st a)).2.2 ≤ (st b).2) ∧
    ∀ n, if n < p.inputs.length then
        q.inputs[n]? = (outcomeW W p.unsignedTx p n (st n)).1.input (p.inputs[n]?) ∧
        (Spec.V0.keysReported r).get n = (outcomeW W p.unsignedTx p n (st n)).1.used ∧
        (Spec.V0.errorsReported r).get n = (outcomeW W p.unsignedTx p n (st n)).1.err
      else q.inputs[n]? = none ∧ (Spec.V0.keysReported r).get n = none ∧ (Spec.V0.errorsReported r).get n = none := by
  unfold Psbt.signW at h
  rcases signAllW_spec (W := W) p.unsignedTx p (List.range p.inputs.length) List.pairwise_lt_range ⟨p, .empty, .empty⟩ s rfl (fun _ _ => rfl)
    with ⟨st, h1, t, s1, h2, h3, h4, h5, h6, h7⟩ | ⟨n, -, s0, m, s1, -, h2⟩
  · rw [h2] at h
    simp only at h
    have hs : s' = s1 := by cases h; rfl
    have hq : q = t.psbt := by cases h; rfl
    have hr : r = if t.errors.isEmpty then .ok t.used else .error (t.used, t.errors) := by cases h; rfl
    have hk : Spec.V0.keysReported r = t.used := by
      rw [hr]; split <;> rfl
    have he : Spec.V0.errorsReported r = t.errors := by
      rw [hr]
      split
      · rename_i he; exact (BMap.isEmpty_iff.mp he).symm
      · rfl
    rw [hk, he, hq, hs]
    refine ⟨st, h3, fun n hn => h1 n (List.mem_range.mpr hn), hr, h4, fun n hn => h5 n (List.mem_range.mpr hn),
      fun a b hab hb => h6 a (List.mem_range.mpr (Nat.lt_trans hab hb)) b (List.mem_range.mpr hb) hab, fun n => ?_⟩
    obtain ⟨h8, h9, h10⟩ := h7 n
    simp only [List.mem_range] at h8 h9 h10
    split
    · rename_i hn
      rw [if_pos hn] at h8 h9 h10
      refine ⟨h8, h9.trans ?_, h10.trans ?_⟩ <;> simp
    · rename_i hn
      rw [if_neg hn] at h8 h9 h10
      exact ⟨h8.trans (List.getElem?_eq_none (Nat.le_of_not_lt hn)), h9, h10⟩
  · rw [h2] at h; cases h

/-- C111. Whatever the provider answers and whatever is drawn, signing changes only signatures. -/
theorem C111_frame {p q : Psbt L} {s s' : W.State} {r} (h : p.signW W s = (.ok (q, r), s')) : Spec.V0.erase q = Spec.V0.erase p := by
  obtain ⟨st, h1, -⟩ := signW_spec h
  exact h1

/-- C111. Every input is reported, either with keys or with an error, and nothing else is; an input reported with an error is
unchanged; signing succeeds exactly if no error is reported. -/
theorem C111_reports {p q : Psbt L} {s s' : W.State} {r} (h : p.signW W s = (.ok (q, r), s')) (n : Nat) :
    (n < p.inputs.length ↔ (∃ keys, (Spec.V0.keysReported r).get n = some keys) ∨ ∃ e, (Spec.V0.errorsReported r).get n = some e) ∧
    ¬ ((∃ keys, (Spec.V0.keysReported r).get n = some keys) ∧ ∃ e, (Spec.V0.errorsReported r).get n = some e) ∧
    (∀ e, (Spec.V0.errorsReported r).get n = some e → q.inputs[n]? = p.inputs[n]?) ∧
    ((∃ used, r = .ok used) ↔ ∀ j, (Spec.V0.errorsReported r).get j = none) := by
  obtain ⟨st, -, h1, h2, -, -, -, h3⟩ := signW_spec h
  have h4 := h3 n
  refine ⟨?_, ?_, ?_, ?_⟩
  · split at h4
    · rename_i hn
      have := h1 n hn
      rw [h4.2.1, h4.2.2]
      cases e : (outcomeW W p.unsignedTx p n (st n)).1 with
      | panic m => exact absurd e (this m)
      | fail e => simp [Outcome.err, hn]
      | signed i keys => simp [Outcome.used, hn]
    · rename_i hn
      rw [h4.2.1, h4.2.2]
      simp [hn]
  · split at h4
    · rw [h4.2.1, h4.2.2]
      cases (outcomeW W p.unsignedTx p n (st n)).1 <;> simp [Outcome.err, Outcome.used]
    · rw [h4.2.1]
      simp
  · intro e he
    split at h4
    · rw [h4.2.2] at he
      rw [h4.1]
      cases e' : (outcomeW W p.unsignedTx p n (st n)).1 with
      | panic m => rfl
      | fail e => rfl
      | signed i keys => rw [e'] at he; cases he
    · rw [h4.2.2] at he; cases he
  · constructor
    · rintro ⟨u, rfl⟩ j; rfl
    · intro he
      rw [h2, if_pos]
      · exact ⟨_, rfl⟩
      · rw [BMap.isEmpty_iff]; exact BMap.ext_get he

/-- C111. An input spent with ECDSA signatures gets signatures of the message there is to sign with keys that the provider
gave for entries of that input, each under its public key, and these are the keys reported; or, if there is no message, no
signature, and an error is reported unless the provider gave no key. -/
theorem C111_ecdsa {p q : Psbt L} {s s' : W.State} {r} (h : p.signW W s = (.ok (q, r), s')) {n : Nat} {t : TxIn} {i : Input L}
    (hi : Spec.V0.HasInput p n t i) (hs : Spec.V0.SpendsEcdsa p n) :
    (∃ sks : List S.SK, (∀ sk ∈ sks, ∃ d ∈ i.bip32Derivation.l, Spec.Gave W d sk) ∧
      (Spec.V0.keysReported r).get n = some (.ecdsa (sks.map S.pub)) ∧
      ((sks = [] ∧ q.inputs[n]? = some i) ∨ ∃ m ty, Spec.V0.Signs p n m ty ∧
        q.inputs[n]? = some { i with partialSigs := Spec.addSigs S m ty sks i.partialSigs })) ∨
    ((∀ m ty, ¬ Spec.V0.Signs p n m ty) ∧ q.inputs[n]? = some i ∧ (∃ e, (Spec.V0.errorsReported r).get n = some e) ∧
      ∃ d ∈ i.bip32Derivation.l, ∃ sk, Spec.Gave W d sk) := by
  obtain ⟨st, -, hp, -, -, -, -, h3⟩ := signW_spec h
  have hn := (List.getElem?_eq_some_iff.mp hi.2).1
  have h4 := h3 n
  rw [if_pos hn] at h4
  have hnp := hp n hn
  obtain ⟨t', i', u, ty, h1, h2, h5, h6⟩ := hs
  obtain ⟨rfl, rfl⟩ := hasInput_unique h1 hi
  have ha : p.signingAlgorithm n = .ok .ecdsa := by
    rw [signingAlgorithm_of h1 h2 h5]; cases ty <;> first | rfl | exact absurd rfl h6
  obtain ⟨h7, h8, h9⟩ := h4
  rw [h7, h8, h9]
  cases ho : (outcomeW W p.unsignedTx p n (st n)).1 with
  | panic m => exact absurd ho (hnp m)
  | signed j keys =>
    left
    obtain ⟨i2, g1, g2⟩ := outcomeW_signed (s' := (outcomeW W p.unsignedTx p n (st n)).2) (Prod.ext ho rfl)
    rw [hi.2] at g1
    cases g1
    rcases g2 with ⟨-, -, sks, g3, g4, g5⟩ | ⟨g3, -⟩
    · refine ⟨sks, g3, by rw [g4]; rfl, ?_⟩
      rcases g5 with ⟨rfl, rfl⟩ | ⟨m, ty, g5, rfl⟩
      · exact .inl ⟨rfl, rfl⟩
      · exact .inr ⟨m, ty, (sighashEcdsa_iff p n p.unsignedTx m ty).mp g5, rfl⟩
    · rw [ha] at g3; cases g3
  | fail e =>
    right
    unfold outcomeW at ho
    simp only [ha, hi.2] at ho
    cases hsig : p.sighashEcdsa n p.unsignedTx with
    | error x =>
      cases x with
      | panic m => rw [hsig] at ho; cases ho
      | err x =>
        refine ⟨?_, hi.2, ⟨e, rfl⟩, ?_⟩
        · rintro m ty ⟨t', i', u', g1, g2, g3, g4⟩
          have := (sighashEcdsa_iff p n p.unsignedTx m ty).mpr ⟨t', i', u', g1, g2, g3, g4⟩
          rw [hsig] at this; cases this
        · obtain ⟨keys, g1, g2⟩ := signLoopW_eq (W := W) (.error x : Except SignErr (Hash32 × EcdsaTy)) i'.bip32Derivation.l i'.partialSigs [] (st n).1
          cases keys with
          | cons sk sks =>
            obtain ⟨d, hd, hg⟩ := g1 sk (by simp)
            exact ⟨d, hd, sk, hg⟩
          | nil =>
            exfalso
            simp only [hsig] at ho
            rcases hl : signLoopW W (.error x : Except SignErr (Hash32 × EcdsaTy)) i'.bip32Derivation.l i'.partialSigs [] (st n).1 with ⟨a, s1⟩
            rw [hl] at g2 ho
            simp only at g2
            subst g2
            cases ho
    | ok mt =>
      exfalso
      obtain ⟨m, ty⟩ := mt
      simp only [hsig] at ho
      obtain ⟨keys, g1, g2⟩ := signLoopW_eq (W := W) (.ok (m, ty) : Except SignErr (Hash32 × EcdsaTy)) i'.bip32Derivation.l i'.partialSigs [] (st n).1
      rcases hl : signLoopW W (.ok (m, ty) : Except SignErr (Hash32 × EcdsaTy)) i'.bip32Derivation.l i'.partialSigs [] (st n).1 with ⟨_ | ⟨_, _⟩, s1⟩
      · rw [hl] at g2
        cases keys <;> cases g2
      · rw [hl] at ho; cases ho

theorem signW_inRange {p q : Psbt L} {s s' : W.State} {r} (h : p.signW W s = (.ok (q, r), s')) : Spec.V0.IndicesInRange p := by
  rw [indicesInRange_iff]
  intro n t i hi hd
  have ha := signingAlgorithm_panic.mpr ⟨rfl, t, i, hi, hd⟩
  obtain ⟨st, -, h1, -⟩ := signW_spec h
  have := h1 n (List.getElem?_eq_some_iff.mp hi.2).1
  unfold outcomeW at this
  rw [ha] at this
  exact this _ rfl

/-- C111. Signing panics exactly if some non-witness UTXO that is needed lacks the output spent, whatever the provider
answers. -/
theorem C111_panics_iff (p : Psbt L) (s : W.State) : (∃ m s', p.signW W s = (.error (.panic m), s')) ↔ ¬ Spec.V0.IndicesInRange p := by
  constructor
  · rintro ⟨m, s', h⟩ hr
    unfold Psbt.signW at h
    rcases signAllW_spec (W := W) p.unsignedTx p (List.range p.inputs.length) List.pairwise_lt_range ⟨p, .empty, .empty⟩ s rfl (fun _ _ => rfl)
      with ⟨st, h1, t, s1, h2, -⟩ | ⟨n, -, s0, m, s1, h1, h2⟩
    · rw [h2] at h; cases h
    · exact outcomeW_no_panic hr n s0 m (by rw [h1])
  · intro hr
    rcases h : p.signW W s with ⟨(m | e) | ⟨q, r⟩, s'⟩
    · exact m.elim
    · exact ⟨_, _, rfl⟩
    · exact absurd (signW_inRange h) hr

theorem drawn_inputs {p q : Psbt L} {s s' : W.State} {r} (h : p.signW W s = (.ok (q, r), s')) :
    Spec.Drawn (Spec.V0.TapMade W p) (Spec.V0.tapSigAt p) (Spec.V0.tapSigAt q) s.2 s'.2 := by
  have hr := signW_inRange h
  obtain ⟨st, -, hp, -, h4, h5, h6, h7⟩ := signW_spec h
  have key : ∀ n, ∃ f : Option (L.xonly.T × Hash32) → Nat, 
      (∀ a, Spec.V0.tapSigAt q (n, a) = Spec.V0.tapSigAt p (n, a) ∨
        (n < p.inputs.length ∧ Spec.V0.tapSigAt p (n, a) = none ∧ (st n).2 ≤ f a ∧ f a < (outcomeW W p.unsignedTx p n (st n)).2.2 ∧
          ∃ t, Spec.V0.tapSigAt q (n, a) = some t ∧ Spec.V0.TapMade W p (n, a) t (f a))) ∧
      ∀ a b, Spec.V0.tapSigAt q (n, a) ≠ Spec.V0.tapSigAt p (n, a) → Spec.V0.tapSigAt q (n, b) ≠ Spec.V0.tapSigAt p (n, b) → f a = f b → a = b := by
    intro n
    have h8 := h7 n
    have same : q.inputs[n]? = p.inputs[n]? → ∃ f : Option (L.xonly.T × Hash32) → Nat, 
      (∀ a, Spec.V0.tapSigAt q (n, a) = Spec.V0.tapSigAt p (n, a) ∨
        (n < p.inputs.length ∧ Spec.V0.tapSigAt p (n, a) = none ∧ (st n).2 ≤ f a ∧ f a < (outcomeW W p.unsignedTx p n (st n)).2.2 ∧
          ∃ t, Spec.V0.tapSigAt q (n, a) = some t ∧ Spec.V0.TapMade W p (n, a) t (f a))) ∧
      ∀ a b, Spec.V0.tapSigAt q (n, a) ≠ Spec.V0.tapSigAt p (n, a) → Spec.V0.tapSigAt q (n, b) ≠ Spec.V0.tapSigAt p (n, b) → f a = f b → a = b := by
      intro he
      have e : ∀ a, Spec.V0.tapSigAt q (n, a) = Spec.V0.tapSigAt p (n, a) := by
        intro a; simp only [Spec.V0.tapSigAt, he]
      exact ⟨fun _ => 0, fun a => .inl (e a), fun a b h => absurd (e a) h⟩
    split at h8
    · rename_i hn
      cases ho : (outcomeW W p.unsignedTx p n (st n)).1 with
      | panic m => exact absurd ho (hp n hn m)
      | fail e => exact same (by rw [h8.1, ho]; rfl)
      | signed j keys =>
        obtain ⟨i, g1, g2⟩ := outcomeW_signed (s' := (outcomeW W p.unsignedTx p n (st n)).2) (Prod.ext ho rfl)
        have hq : q.inputs[n]? = some j := by rw [h8.1, ho]; rfl
        have ep : ∀ a, Spec.V0.tapSigAt p (n, a) = Spec.V0.tapSigOf i a := by
          intro a; simp only [Spec.V0.tapSigAt, g1, Option.bind_some]
        have eq : ∀ a, Spec.V0.tapSigAt q (n, a) = Spec.V0.tapSigOf j a := by
          intro a; simp only [Spec.V0.tapSigAt, hq, Option.bind_some]
        rcases g2 with ⟨-, -, sks, -, -, g2⟩ | ⟨-, xs, -, -, f, g3, g4⟩
        · have e : ∀ a, Spec.V0.tapSigAt q (n, a) = Spec.V0.tapSigAt p (n, a) := by
            intro a
            rw [ep, eq]
            rcases g2 with ⟨-, rfl⟩ | ⟨m, ty, -, rfl⟩
            · rfl
            · cases a <;> rfl
          exact ⟨fun _ => 0, fun a => .inl (e a), fun a b h => absurd (e a) h⟩
        · refine ⟨f, ?_, ?_⟩
          · intro a
            rw [ep, eq]
            rcases g3 a with h | ⟨h1, h2, h3, t, h9, lhs, ks, sk, s0, h10, h11⟩
            · exact .inl h
            · refine .inr ⟨hn, h1, h2, h3, t, h9, i, lhs, ks, sk, s0, g1, h10, ?_⟩
              cases a with
              | none =>
                obtain ⟨x, m, k1, k2, k3, k4, k5⟩ := h11
                exact ⟨x, m, k1, k2, k3, (sighashTaproot_iff hr).mp k4, k5⟩
              | some a =>
                obtain ⟨m, k2, k3, k4, k5⟩ := h11
                exact ⟨m, k2, k3, (sighashTaproot_iff hr).mp k4, k5⟩
          · intro a b
            rw [ep, eq, ep, eq]
            exact g4 a b
    · rename_i hn
      exact same (by rw [h8.1]; exact (List.getElem?_eq_none (Nat.le_of_not_lt hn)).symm)
  refine ⟨fun a => (Classical.choose (key a.1)) a.2, ?_, ?_⟩
  · rintro ⟨n, a⟩
    rcases (Classical.choose_spec (key n)).1 a with h | ⟨h1, h2, h3, h8, h9⟩
    · exact .inl h
    · exact .inr ⟨h2, Nat.le_trans (h5 n h1).1 h3, Nat.lt_of_lt_of_le h8 (h5 n h1).2, h9⟩
  · rintro ⟨n, a⟩ ⟨m, b⟩ ha hb hf
    simp only at hf
    rcases (Classical.choose_spec (key n)).1 a with h | ⟨h1, -, h2, h3, -⟩
    · exact absurd h ha
    rcases (Classical.choose_spec (key m)).1 b with h | ⟨g1, -, g2, g3, -⟩
    · exact absurd h hb
    rcases Nat.lt_trichotomy n m with hl | rfl | hl
    · have := h6 n m hl g1; omega
    · rw [(Classical.choose_spec (key n)).2 a b ha hb hf]
    · have := h6 m n hl h1; omega

/-- C112. Taproot signatures that are there stay. Every new one is made with a key that the provider gave for its place, on
the message to sign there, and with a random string of its own: no string is used for two signatures, and none that was
drawn before signing or will be drawn after it. -/
theorem C112_fresh {p q : Psbt L} {s s' : W.State} {r} (h : p.signW W s = (.ok (q, r), s')) :
    Spec.Drawn (Spec.V0.TapMade W p) (Spec.V0.tapSigAt p) (Spec.V0.tapSigAt q) s.2 s'.2 := drawn_inputs h

/-- C112. With a provider that always answers alike, randomness changes nothing but the bytes of new taproot signatures: the
same keys and errors are reported as without it, and the two PSBTs have signatures in the same places, with the
same sighash types. -/
theorem C112_same {p q : Psbt L} {k : Provider S} (hk : Spec.Steady W k) {s s' : W.State} {r} (h : p.signW W s = (.ok (q, r), s')) :
    ∃ q0, p.sign S k = .ok (q0, r) ∧ Spec.V0.SameButNonces q q0 := by
  have hr := signW_inRange h
  have h0 : ∃ q0 r0, p.sign S k = .ok (q0, r0) := by
    rcases e : p.sign S k with (m | m) | ⟨q0, r0⟩
    · exact m.elim
    · exact absurd hr ((C50_panics_iff p k).mp ⟨m, e⟩)
    · exact ⟨q0, r0, rfl⟩
  obtain ⟨q0, r0, h0⟩ := h0
  obtain ⟨st, g1, g2, g3, -, -, -, g4⟩ := signW_spec h
  obtain ⟨k1, k2, k3, k4⟩ := sign_spec h0
  have sim := fun n => outcomeW_sim (W := W) (R := fun t u => t.ty = u.ty) (fun _ _ _ _ => rfl) hk (fun _ => rfl) p.unsignedTx p n (st n)
  have hu : Spec.V0.keysReported r = Spec.V0.keysReported r0 := by
    apply BMap.ext_get
    intro n
    have e4 := g4 n
    have e5 := k4 n
    by_cases hn : n < p.inputs.length
    · rw [if_pos hn] at e4 e5
      rw [e4.2.1, e5.2.1]
      rcases sim n with e | ⟨j, j0, keys, e1, e2, -⟩
      · rw [e]
      · rw [e1, e2]; rfl
    · rw [if_neg hn] at e4 e5
      rw [e4.2.1, e5.1]
  have he : Spec.V0.errorsReported r = Spec.V0.errorsReported r0 := by
    apply BMap.ext_get
    intro n
    have e4 := g4 n
    have e5 := k4 n
    by_cases hn : n < p.inputs.length
    · rw [if_pos hn] at e4 e5
      rw [e4.2.2, e5.2.2]
      rcases sim n with e | ⟨j, j0, keys, e1, e2, -⟩
      · rw [e]
      · rw [e1, e2]; rfl
    · rw [if_neg hn] at e4 e5
      rw [e4.2.2, e5.2]
  have hrr : r = r0 := by rw [g3, k3, hu, he]
  subst hrr
  have hin : ∀ n : Nat, q.inputs[n]? = q0.inputs[n]? ∨ ∃ j j0, q.inputs[n]? = some j ∧ q0.inputs[n]? = some j0 ∧
      j.partialSigs = j0.partialSigs ∧ Rel (fun t u => t.ty = u.ty) (Spec.V0.tapSigOf j) (Spec.V0.tapSigOf j0) := by
    intro n
    have e4 := g4 n
    have e5 := k4 n
    by_cases hn : n < p.inputs.length
    · rw [if_pos hn] at e4 e5
      rw [e4.1, e5.1]
      rcases sim n with e | ⟨j, j0, keys, e1, e2, -, e6, e7⟩
      · rw [e]; exact .inl rfl
      · rw [e1, e2]; exact .inr ⟨j, j0, rfl, rfl, e6, e7⟩
    · rw [if_neg hn] at e4
      have hl : q0.inputs.length = p.inputs.length := by
        have := congrArg (fun x : Psbt L => x.inputs.length) k1
        simpa [Spec.V0.erase] using this
      left
      rw [e4.1, List.getElem?_eq_none (by omega)]
  refine ⟨q0, h0, g1.trans k1.symm, ?_, ?_⟩
  · intro n
    rcases hin n with e | ⟨j, j0, e1, e2, e3, -⟩
    · rw [e]
    · rw [e1, e2, Option.map_some, Option.map_some, e3]
  · rintro ⟨n, a⟩
    unfold Spec.V0.tapSigAt
    rcases hin n with e | ⟨j, j0, e1, e2, -, e3⟩
    · simp only [e]
    · simp only [e1, e2, Option.bind_some]
      rcases e3 a with ⟨h1, h2⟩ | ⟨t, u, h1, h2, h3⟩
      · rw [h1, h2]
      · rw [h1, h2, Option.map_some, Option.map_some, h3]

theorem outcomeW_eq {k : Provider S} (hk : Spec.Steady W k) (hd : ∀ m kp r, W.signAux m kp r = S.signSchnorr m kp) (tx : Tx)
    (p : Psbt L) (n : Nat) (s : W.State) : (outcomeW W tx p n s).1 = outcome S k tx p n := by
  rcases outcomeW_sim (W := W) (R := Eq) (fun m kp r ty => by rw [hd]) hk (fun _ => rfl) tx p n s with e | ⟨j, j0, keys, e1, e2, e3, e4, e5⟩
  · exact e
  · rw [e1, e2]
    have e6 : Spec.V0.tapSigOf j = Spec.V0.tapSigOf j0 := by
      funext a
      rcases e5 a with ⟨h1, h2⟩ | ⟨t, u, h1, h2, rfl⟩
      · rw [h1, h2]
      · rw [h1, h2]
    have e7 : j.tapKeySig = j0.tapKeySig := congrFun e6 none
    have e8 : j.tapScriptSigs = j0.tapScriptSigs := BMap.ext_get fun a => congrFun e6 (some a)
    have : ∀ i : Input L, i = { Spec.V0.eraseInput i with
        partialSigs := i.partialSigs
        tapKeySig := i.tapKeySig
        tapScriptSigs := i.tapScriptSigs } := fun _ => rfl
    rw [this j, this j0, e3, e4, e7, e8]

/-- C111, C112. With a provider that always answers alike and signatures that do not depend on random strings, as without
the feature `rand`, signing does what `C50` says, from every state. -/
theorem C111_steady {p : Psbt L} {k : Provider S} (hk : Spec.Steady W k) (hd : ∀ m kp r, W.signAux m kp r = S.signSchnorr m kp)
    (s : W.State) : (p.signW W s).1 = p.sign S k := by
  have all : ∀ (ns : List Nat) (t : Signing L) (s : W.State), (signAllW W p.unsignedTx t ns s).1 = signAll S k p.unsignedTx t ns := by
    intro ns
    induction ns with
    | nil => intro t s; rfl
    | cons n ns ih =>
      intro t s
      rw [signAllW, signAll, signStepW_eq, signStep_eq]
      have h1 := outcomeW_eq hk hd p.unsignedTx t.psbt n s
      rcases hl : outcomeW W p.unsignedTx t.psbt n s with ⟨o, s1⟩
      rw [hl] at h1
      simp only at h1
      rw [← h1]
      cases o <;> first | rfl | exact ih _ _
  unfold Psbt.signW Psbt.sign
  have h1 := all (List.range p.inputs.length) ⟨p, .empty, .empty⟩ s
  rcases hl : signAllW W p.unsignedTx ⟨p, .empty, .empty⟩ (List.range p.inputs.length) s with ⟨a, s1⟩
  rw [hl] at h1
  simp only at h1
  subst h1
  rcases signAll S k p.unsignedTx ⟨p, .empty, .empty⟩ (List.range p.inputs.length) with _ | t <;> rfl

/-! ### Cases that meet the hypotheses -/

/-- A provider that gives another key each time it is asked for an origin, and sometimes none; the string drawn goes
into the signature. -/
def wFickle : World gS where
  σ := Nat
  ask s r := match r with
    | .bip32 _ => (if s % 6 = 2 then .error .notSupported else .ok (some (UInt8.ofNat s)), s + 1)
    | .pubkey _ => (.ok none, s + 1)
  aux d := Demo.rep 32 (UInt8.ofNat d)
  signAux m kp r := Demo.pad 64 (m.1.take 16 ++ [if kp.1 then 1 else 0, kp.2] ++ r.1.take 8)
/-- The provider of the C50 examples, with random strings. -/
def wSteady : World gS where
  σ := Unit
  ask _ r := (gKeys r, ())
  aux d := Demo.rep 32 (UInt8.ofNat d)
  signAux m kp r := Demo.pad 64 (m.1.take 16 ++ [if kp.1 then 1 else 0, kp.2] ++ r.1.take 8)
/-- The same without. -/
def wPlain : World gS := { wSteady with signAux := fun m kp _ => gS.signSchnorr m kp }
def wQ (W : World gS) (p : Psbt gL) (s : W.State) : Psbt gL := match (p.signW W s).1 with | .ok (q, _) => q | _ => p
def wR (W : World gS) (p : Psbt gL) (s : W.State) : Except (BMap Nat (SigningKeys gL) × BMap Nat SignErr) (BMap Nat (SigningKeys gL)) :=
  match (p.signW W s).1 with | .ok (_, r) => r | _ => .ok .empty
/-- A PSBT where a key is asked for several times. -/
def wP : Psbt gL := gP [gEcdsa (gIn V2.spkWpkh), gTap, gEcdsa (gIn V2.spkWpkh), gTap, gIn V2.spkUnknown]

-- Signing runs to its end: the two ECDSA inputs are signed with different keys though they list the same origin, the provider
-- refuses one key; three taproot signatures are made with three strings, number 7 to 9.
theorem wRun : wP.signW wFickle ((0 : Nat), 7) = (.ok (wQ wFickle wP ((0 : Nat), 7), wR wFickle wP ((0 : Nat), 7)), ((6 : Nat), 10)) := rfl
example : (Spec.V0.keysReported (wR wFickle wP ((0 : Nat), 7))).l =
      [(0, .ecdsa [Demo.val 33 (by decide) 0]), (1, .schnorr [gX 1]), (2, .ecdsa [Demo.val 33 (by decide) 3]), (3, .schnorr [gX 1, gX 5])] ∧
    (Spec.V0.errorsReported (wR wFickle wP ((0 : Nat), 7))).l = [(4, .unknownOutputType)] := by decide +kernel
example := C111_frame wRun
example := C111_reports wRun 4
example := C112_fresh wRun
-- The hypotheses of `C111_steady` and `C112_same`.
theorem wSteady_gKeys : Spec.Steady wSteady gKeys := fun _ _ => rfl
example : (wP.signW wPlain ((), 3)).1 = wP.sign gS gKeys := C111_steady (W := wPlain) (fun _ _ => rfl) (fun _ _ _ => rfl) _
theorem wRunSteady : wP.signW wSteady ((), 3) = (.ok (wQ wSteady wP ((), 3), wR wSteady wP ((), 3)), ((), 7)) := rfl
example := C112_same wSteady_gKeys wRunSteady
-- The bytes do differ.
example : wQ wSteady wP ((), 3) ≠ wQ wSteady wP ((), 4) ∧ wQ wSteady wP ((), 3) ≠ gQ wP := by decide +kernel

end Psbt.V0

namespace Psbt.V2
/-- A provider that gives another key each time. -/
def wFickle : World SS where
  σ := Nat
  ask s r := match r with
    | .bip32 _ => (if s % 3 = 2 then .error .notSupported else .ok (some (UInt8.ofNat s)), s + 1)
    | .pubkey _ => (.ok none, s + 1)
  aux d := Demo.rep 32 (UInt8.ofNat d)
  signAux m kp _ := SS.signSchnorr m kp
def wPk : SL.pubkey.T := Demo.val 33 (by decide) 0
def wQ : Psbt SL := match (sMixed.signW wFickle (sTx sMixed) (0 : Nat)).1 with | .ok (q, _) => q | _ => sMixed
def wR : Except (BMap Nat (List SL.pubkey.T) × BMap Nat SignErr) (BMap Nat (List SL.pubkey.T)) :=
  match (sMixed.signW wFickle (sTx sMixed) (0 : Nat)).1 with | .ok (_, r) => r | _ => .ok .empty

-- Signing runs to its end, with a mixed result; input 3 would not be signed by origin, and has no key by public key.
theorem wRun : sMixed.signW wFickle (sTx sMixed) (0 : Nat) = (.ok (wQ, wR), (4 : Nat)) := rfl
example : (Spec.reported wR).l = [(0, [wPk]), (3, [])] ∧
    wQ.inputs.map (fun i => i.partialSigs.l.length) = [1, 0, 0, 1] := by decide +kernel
example := C111_frame wRun
example := C111_signatures wRun (n := 0) rfl
example := C111_flags wRun
example : ∃ u es, wR = .error (u, es) ∧ es.get 1 = some .missingWitnessScript := ⟨_, _, rfl, by decide +kernel⟩
-- The hypothesis of `C111_never_panics`: every input that ECDSA signing applies to has a message.
example : ∀ n i, Spec.Signable (sP [{ sIn spkWpkh with bip32Derivations := sOrigin }, sIn spkTr]) n i →
    ∃ m ty, Spec.Signs (sTx (sP [{ sIn spkWpkh with bip32Derivations := sOrigin }, sIn spkTr]))
      (sP [{ sIn spkWpkh with bip32Derivations := sOrigin }, sIn spkTr]) n i m ty := by
  intro n i h
  have ha := (signingAlgorithm_iff _ n).mpr ⟨i, h⟩
  match n, h, ha with
  | 0, h, _ =>
    obtain ⟨j, hj⟩ := signs_iff.mp (rfl : (sP [{ sIn spkWpkh with bip32Derivations := sOrigin }, sIn spkTr]).sighashEcdsa 0
      (sTx (sP [{ sIn spkWpkh with bip32Derivations := sOrigin }, sIn spkTr])) = .ok (_, _))
    obtain rfl := hasInput_unique h.1 hj.1
    exact ⟨_, _, hj⟩
  | 1, _, ha => exact absurd ha (by decide +kernel)
  | n + 2, h, _ => have := h.1.1; cases this
-- Without it, it depends on the provider whether signing panics, even on the state it is in.
example : (∃ m, ((sP [{ sIn spkWsh with bip32Derivations := sOrigin }]).signW wFickle
      (sTx (sP [{ sIn spkWsh with bip32Derivations := sOrigin }])) (2 : Nat)).1 = .error (.panic m)) ∧
    ∃ v, ((sP [{ sIn spkWsh with bip32Derivations := sOrigin }]).signW wFickle
      (sTx (sP [{ sIn spkWsh with bip32Derivations := sOrigin }])) (0 : Nat)).1 = .ok v := ⟨⟨_, rfl⟩, ⟨_, rfl⟩⟩
-- The hypothesis of `C111_steady`.
example : Spec.Steady (S := SS) ⟨Unit, fun _ r => (sKeys r, ()), fun _ => Demo.rep 32 0, fun m kp _ => SS.signSchnorr m kp⟩ sKeys :=
  fun _ _ => rfl

end Psbt.V2
