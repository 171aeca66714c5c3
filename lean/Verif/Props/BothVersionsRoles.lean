/- C108: messages, signing and combining. -/
import Verif.Props.BothVersions
import Verif.Lemmas.V0Sighash
import Verif.Lemmas.Sign
import Verif.Props.V2Sighash
import Verif.Props.V2Resequence
import Verif.Spec.Combine
namespace Psbt.Both
open Psbt Psbt.Spec

variable {L : Lib}

section
variable {p : V0.Psbt L} {q : V2.Psbt L}

/-! ### Messages -/

/-- The inputs with an index. -/
theorem hasInput_same (h : SameButTapSigs p q) {n : Nat} {t : TxIn} {i : V0.Input L} (hi : Spec.V0.HasInput p n t i) :
    ∃ j, Spec.HasInput q n j ∧ SameTxIn t j ∧ SameInputRecords i j := by
  obtain ⟨j, h1, h2⟩ := pointwise_some h.txIn hi.1
  refine ⟨j, ⟨h1, ?_⟩, h2, h.inputs.2 n i j hi.2 h1⟩
  rw [h.count]
  exact (List.getElem?_eq_some_iff.mp h1).1

theorem hasInput_same' (h : SameButTapSigs p q) {n : Nat} {j : V2.Input L} (hj : Spec.HasInput q n j) :
    ∃ t i, Spec.V0.HasInput p n t i ∧ SameTxIn t j ∧ SameInputRecords i j := by
  obtain ⟨t, h1, h2⟩ := pointwise_some' h.txIn hj.1
  obtain ⟨i, h3, h4⟩ := pointwise_some' h.inputs hj.1
  exact ⟨t, i, ⟨h1, h3⟩, h2, h4⟩

/-- C108. The type of spend is the same. -/
theorem C108_output_type (h : SameButTapSigs p q) (n : Nat) (ty : OutputType) : p.outputType n = .ok ty ↔ q.outputType n = .ok ty := by
  rw [V0.outputType_iff, V2.C36_output_type_iff]
  constructor
  · rintro ⟨t, i, u, h1, h2, h3⟩
    obtain ⟨j, g1, g2, g3⟩ := hasInput_same h h1
    exact ⟨j, u, g1, (funded_same g2 g3 u).mp h2, by rw [← g3.redeemScript]; exact h3⟩
  · rintro ⟨j, u, h1, h2, h3⟩
    obtain ⟨t, i, g1, g2, g3⟩ := hasInput_same' h h1
    exact ⟨t, i, u, g1, (funded_same g2 g3 u).mpr h2, by rw [g3.redeemScript]; exact h3⟩

theorem message_same {i : V0.Input L} {j : V2.Input L} (h : SameInputRecords i j) (tx : Tx) (n : Nat) (u : TxOut) (ty : EcdsaTy) (m : Hash32) :
    Spec.V0.Message tx n i u ty m ↔ Spec.Message tx n j u ty m := by
  constructor
  · intro g
    cases g with
    | bare a b => exact .bare (h.redeemScript ▸ a) b
    | sh a b c => exact .sh (h.redeemScript ▸ a) (h.redeemScript ▸ b) c
    | wpkh a b => exact .wpkh a b
    | shWpkh a b c => exact .shWpkh a (h.redeemScript ▸ b) c
    | wsh a b c => exact .wsh a (h.witnessScript ▸ b) c
    | shWsh a b c d e => exact .shWsh a (h.redeemScript ▸ b) c (h.witnessScript ▸ d) e
  · intro g
    cases g with
    | bare a b => exact .bare (h.redeemScript ▸ a) b
    | sh a b c => exact .sh (h.redeemScript ▸ a) (h.redeemScript ▸ b) c
    | wpkh a b => exact .wpkh a b
    | shWpkh a b c => exact .shWpkh a (h.redeemScript ▸ b) c
    | wsh a b c => exact .wsh a (h.witnessScript ▸ b) c
    | shWsh a b c d e => exact .shWsh a (h.redeemScript ▸ b) c (h.witnessScript ▸ d) e

theorem sighash_same (h : SameButTapSigs p q) (tx : Tx) (n : Nat) (r : Hash32 × EcdsaTy) :
    p.sighashEcdsa n tx = .ok r ↔ q.sighashEcdsa n tx = .ok r := by
  obtain ⟨m, ty⟩ := r
  rw [V0.sighashEcdsa_iff, V2.C37_sighash_iff]
  constructor
  · rintro ⟨t, i, u, h1, h2, h3, h4⟩
    obtain ⟨j, g1, g2, g3⟩ := hasInput_same h h1
    refine ⟨j, u, g1, (funded_same g2 g3 u).mp h2, ?_, (message_same g3 ..).mp h4⟩
    unfold Spec.DeclaredType
    rw [← g3.sighashType]
    exact h3
  · rintro ⟨j, u, h1, h2, h3, h4⟩
    obtain ⟨t, i, g1, g2, g3⟩ := hasInput_same' h h1
    refine ⟨t, i, u, g1, (funded_same g2 g3 u).mpr h2, ?_, (message_same g3 ..).mpr h4⟩
    unfold Spec.V0.DeclaredType
    rw [g3.sighashType]
    exact h3

/-- C108, partially: the message to sign and its type are the same, if the v2 PSBT has all sequence numbers. -/
theorem C108_message_partial (h : SameButTapSigs p q) (hs : ∀ j ∈ q.inputs, j.sequence ≠ none) (n : Nat) (r : Hash32 × EcdsaTy) :
    p.sighashEcdsa n p.unsignedTx = .ok r ↔ ∃ tx, q.unsignedTx = .ok tx ∧ q.sighashEcdsa n tx = .ok r := by
  rw [C108_unsigned_tx_partial h hs, sighash_same h]
  constructor
  · exact fun g => ⟨_, rfl, g⟩
  · rintro ⟨tx, h1, h2⟩
    cases h1
    exact h2

/-! ### Signing -/

theorem algorithm_same (h : SameButTapSigs p q) (n : Nat) (a : SigningAlgorithm) :
    p.signingAlgorithm n = .ok a ↔ q.signingAlgorithm n = .ok a := by
  unfold V0.Psbt.signingAlgorithm V2.Psbt.signingAlgorithm
  constructor
  · intro g
    obtain ⟨t, h1, h2⟩ := bind_ok.mp g
    rw [(C108_output_type h n t).mp h1]
    cases h2
    rfl
  · intro g
    obtain ⟨t, h1, h2⟩ := bind_ok.mp g
    rw [(C108_output_type h n t).mpr h1]
    cases h2
    rfl

/-- Replacing the partial signatures of one input in both. -/
theorem same_setSigs (h : SameButTapSigs p q) {n : Nat} {i : V0.Input L} {j : V2.Input L} (hi : p.inputs[n]? = some i)
    (hj : q.inputs[n]? = some j) (sigs : BMap L.pubkey.T (EcdsaSig L)) (f : UInt8) :
    SameButTapSigs { p with inputs := p.inputs.set n { i with partialSigs := sigs } }
      ⟨{ q.global with txModifiableFlags := f }, q.inputs.set n { j with partialSigs := sigs }, q.outputs⟩ := by
  have hij := h.inputs.2 n i j hi hj
  have hset : ∀ (k : Nat) (x : V2.Input L), (q.inputs.set n { j with partialSigs := sigs })[k]? = some x →
      ∃ y, q.inputs[k]? = some y ∧ (x = y ∨ x = { y with partialSigs := sigs }) := by
    intro k x hx
    rw [List.getElem?_set] at hx
    by_cases e : n = k
    · subst e
      simp only [if_true] at hx
      split at hx
      · cases hx; exact ⟨j, hj, .inr rfl⟩
      · cases hx
    · rw [if_neg e] at hx
      exact ⟨x, hx, .inl rfl⟩
  have htx : Pointwise SameTxIn p.unsignedTx.input (q.inputs.set n { j with partialSigs := sigs }) := by
    refine ⟨by simpa using h.txIn.1, fun k t x ht hx => ?_⟩
    obtain ⟨y, hy, rfl | rfl⟩ := hset k x hx
    · exact h.txIn.2 k t _ ht hy
    · obtain ⟨a, b, c, d⟩ := h.txIn.2 k t y ht hy
      exact ⟨a, b, c, d⟩
  have hlt : Spec.LockTime ⟨{ q.global with txModifiableFlags := f }, q.inputs.set n { j with partialSigs := sigs }, q.outputs⟩ p.unsignedTx.lockTime := by
    rw [← V2.C17_lock_time_iff]
    rw [← (V2.C17_lock_time_iff q _).mpr h.lockTime]
    refine V2.lockTime_congr rfl ?_
    have hl : j = q.inputs[n]'((List.getElem?_eq_some_iff.mp hj).1) := (List.getElem?_eq_some_iff.mp hj).2.symm
    rw [List.map_set]
    conv => rhs; rw [← List.set_getElem_self (as := q.inputs.map _) (i := n) (by simpa using (List.getElem?_eq_some_iff.mp hj).1)]
    congr 1
    simp [hl]
  refine ⟨h.version, h.txVersion, hlt, by simpa using h.count, htx, h.txOut,
    pointwise_set h.inputs n ?_, h.outputs, h.xpubs, h.proprietary, h.unknown⟩
  obtain ⟨a1, a2, a3, a4, a5, a6, a7, a8, a9, a10, a11, a12, a13, a14, a15, a16, a17, a18, a19⟩ := hij
  exact ⟨a1, a2, rfl, a4, a5, a6, a7, a8, a9, a10, a11, a12, a13, a14, a15, a16, a17, a18, a19⟩

/-- The keys that signing reports are the same. -/
def SameUsed (u : BMap Nat (V0.SigningKeys L)) (v : BMap Nat (List L.pubkey.T)) : Prop :=
  ∀ n ks, u.get n = some (.ecdsa ks) ↔ v.get n = some ks

theorem sameUsed_insert {u : BMap Nat (V0.SigningKeys L)} {v : BMap Nat (List L.pubkey.T)} (h : SameUsed u v) (n : Nat) (ks : List L.pubkey.T) :
    SameUsed (u.insert n (.ecdsa ks)) (v.insert n ks) := by
  intro k l
  rw [BMap.get_insert, BMap.get_insert]
  by_cases e : k = n
  · simp [e]
  · simp only [e, if_false]
    exact h k l

variable {S : SigLib L}

/-- Replacing the taproot signatures of an input of the v0 PSBT. -/
theorem same_setTap (h : SameButTapSigs p q) {n : Nat} {i : V0.Input L} (hi : p.inputs[n]? = some i) (x : Option TapSig)
    (y : BMap (L.xonly.T × Hash32) TapSig) :
    SameButTapSigs { p with inputs := p.inputs.set n { i with tapKeySig := x, tapScriptSigs := y } } q := by
  obtain ⟨b1, b2, b3, b4, b5, b6, b7, b8, b9, b10, b11⟩ := h
  refine ⟨b1, b2, b3, b4, b5, b6, ⟨by simpa using b7.1, fun k a b ha hb => ?_⟩, b8, b9, b10, b11⟩
  rw [List.getElem?_set] at ha
  by_cases e : n = k
  · subst e
    simp only [if_true] at ha
    split at ha
    · cases ha
      obtain ⟨a1, a2, a3, a4, a5, a6, a7, a8, a9, a10, a11, a12, a13, a14, a15, a16, a17, a18, a19⟩ := b7.2 n i b hi hb
      exact ⟨a1, a2, a3, a4, a5, a6, a7, a8, a9, a10, a11, a12, a13, a14, a15, a16, a17, a18, a19⟩
    · cases ha
  · rw [if_neg e] at ha
    exact b7.2 k a b ha hb

theorem clear_only_flags (q : V2.Psbt L) (ty : UInt8) :
    q.clearTxModifiable ty = ⟨{ q.global with txModifiableFlags := (q.clearTxModifiable ty).global.txModifiableFlags }, q.inputs, q.outputs⟩ := by
  unfold V2.Psbt.clearTxModifiable
  simp only
  split <;> split <;> split <;> rfl

/-- One input is signed in both. -/
theorem signStep_same {k : Provider S} {s s' : V0.Signing L} {t t' : V2.Signing L} {n : Nat} {tx : Tx} (h : SameButTapSigs s.psbt t.psbt)
    (hu : SameUsed s.used t.used) (hf : t.used.get n = none) (hs : V0.signStep S k tx s n = .ok s') (ht : V2.signStep S k tx t n = .ok t') :
    SameButTapSigs s'.psbt t'.psbt ∧ SameUsed s'.used t'.used ∧ ∀ m, m ≠ n → t'.used.get m = t.used.get m := by
  unfold V0.signStep at hs
  unfold V2.signStep at ht
  cases ha : s.psbt.signingAlgorithm n with
  | error e =>
    rw [ha] at hs
    have hq : ∀ a, t.psbt.signingAlgorithm n ≠ .ok a := fun a hq => by rw [(algorithm_same h n a).mpr hq] at ha; cases ha
    cases e with
    | panic m => cases hs
    | err e =>
      cases hs
      cases hb : t.psbt.signingAlgorithm n with
      | ok a => exact absurd hb (hq a)
      | error e =>
        rw [hb] at ht
        cases e with
        | panic m => cases ht
        | err e => cases ht; exact ⟨h, hu, fun _ _ => rfl⟩
  | ok a =>
    rw [ha] at hs
    rw [(algorithm_same h n a).mp ha] at ht
    cases a with
    | schnorr =>
      cases ht
      simp only at hs
      cases hb : s.psbt.bip32SignSchnorr S k n tx with
      | error e => rw [hb] at hs; cases hs
      | ok r =>
        obtain ⟨p', r⟩ := r
        have hp : SameButTapSigs p' t.psbt := by
          unfold V0.Psbt.bip32SignSchnorr at hb
          split at hb
          · cases hb
          · cases hb; exact h
          · rename_i i hc
            split at hb
            · cases hb
            · cases hb; exact h
            · cases hb
              obtain ⟨_, hi⟩ := V0.checkedInput_ok.mp hc
              exact same_setTap h hi.2 _ _
        rw [hb] at hs
        cases r with
        | error e => cases hs; exact ⟨hp, hu, fun _ _ => rfl⟩
        | ok v =>
          cases hs
          refine ⟨hp, fun m l => ?_, fun _ _ => rfl⟩
          by_cases e : m = n
          · subst e; simp [hf]
          · rw [BMap.get_insert_ne _ e]; exact hu m l
    | ecdsa =>
      simp only at hs ht
      cases hb : t.psbt.bip32SignEcdsa S k n tx with
      | error e => rw [hb] at ht; cases ht
      | ok r =>
        cases hc : s.psbt.bip32SignEcdsa S k n tx with
        | error e => rw [hc] at hs; cases hs
        | ok r' =>
          rw [hb] at ht
          rw [hc] at hs
          unfold V2.Psbt.bip32SignEcdsa at hb
          unfold V0.Psbt.bip32SignEcdsa at hc
          cases hm : t.psbt.sighashEcdsa n tx with
          | ok m =>
            obtain ⟨m, ty⟩ := m
            rw [hm] at hb
            rw [(sighash_same h tx n _).mpr hm] at hc
            simp only at hb hc
            unfold V2.Psbt.signWith at hb
            unfold V0.Psbt.signWith at hc
            cases hj : t.psbt.inputs[n]? with
            | none => rw [hj] at hb; cases hb
            | some j =>
              obtain ⟨i, hi, hij⟩ := pointwise_some' h.inputs hj
              rw [hj] at hb
              rw [hi] at hc
              simp only at hb hc
              rw [V2.signLoop_ok] at hb
              have hl : V2.signLoop (ε := V0.SignErr) S k (.ok (m, ty)) i.bip32Derivation.l i.partialSigs [] =
                  .ok (Spec.addSigs S m ty (Spec.keysFor S k j) j.partialSigs, (Spec.keysFor S k j).map S.pub) := by
                rw [hij.bip32, hij.partialSigs]
                exact V2.signLoop_ok k j m ty _
              rw [hl] at hc
              cases hb
              cases hc
              cases hs
              cases ht
              refine ⟨?_, sameUsed_insert hu n _, fun m hm => BMap.get_insert_ne _ hm _⟩
              rw [clear_only_flags]
              exact same_setSigs h hi hj _ _
          | error e =>
            rw [hm] at hb
            have hn : ∀ r, s.psbt.sighashEcdsa n tx ≠ .ok r := fun r hr => by rw [(sighash_same h tx n r).mp hr] at hm; cases hm
            cases hm' : s.psbt.sighashEcdsa n tx with
            | ok m => exact absurd hm' (hn m)
            | error e' =>
              rw [hm'] at hc
              cases e with
              | panic _ => cases hb
              | err e =>
                cases e' with
                | panic _ => cases hc
                | err e' =>
                  simp only at hb hc
                  unfold V2.Psbt.signWith at hb
                  unfold V0.Psbt.signWith at hc
                  cases hj : t.psbt.inputs[n]? with
                  | none => rw [hj] at hb; cases hb
                  | some j =>
                    obtain ⟨i, hi, hij⟩ := pointwise_some' h.inputs hj
                    rw [hj] at hb
                    rw [hi] at hc
                    simp only at hb hc
                    rw [hij.bip32, hij.partialSigs] at hc
                    by_cases hk : Spec.keysFor S k j = []
                    · rw [V2.signLoop_none hk] at hb; cases hb
                    · rw [V2.signLoop_err hk] at hb hc
                      cases hb
                      cases hc
                      cases hs
                      cases ht
                      exact ⟨h, hu, fun _ _ => rfl⟩

theorem signAll_same {k : Provider S} {tx : Tx} : ∀ {ns : List Nat} {s s' : V0.Signing L} {t t' : V2.Signing L}, ns.Nodup →
    (∀ n ∈ ns, t.used.get n = none) → SameButTapSigs s.psbt t.psbt → SameUsed s.used t.used → V0.signAll S k tx s ns = .ok s' →
    V2.signAll S k tx t ns = .ok t' → SameButTapSigs s'.psbt t'.psbt ∧ SameUsed s'.used t'.used
  | [], s, s', t, t', _, _, h, hu, hs, ht => by
    cases hs
    cases ht
    exact ⟨h, hu⟩
  | n :: ns, s, s', t, t', hn, hf, h, hu, hs, ht => by
    unfold V0.signAll at hs
    unfold V2.signAll at ht
    cases h1 : V0.signStep S k tx s n with
    | error e => rw [h1] at hs; cases hs
    | ok s1 =>
      cases h2 : V2.signStep S k tx t n with
      | error e => rw [h2] at ht; cases ht
      | ok t1 =>
        rw [h1] at hs
        rw [h2] at ht
        obtain ⟨g1, g2, g3⟩ := signStep_same h hu (hf n (by simp)) h1 h2
        rw [List.nodup_cons] at hn
        refine signAll_same hn.2 (fun m hm => ?_) g1 g2 hs ht
        rw [g3 m (fun e => hn.1 (e ▸ hm))]
        exact hf m (by simp [hm])

/-- C108, partially: signing the one and the other with the same keys adds the same ECDSA signatures (and nothing else but taproot
signatures to the v0 PSBT) and reports the same keys, if neither panics and the v2 PSBT has all sequence numbers. -/
theorem C108_sign_partial {k : Provider S} (h : SameButTapSigs p q) (hs : ∀ j ∈ q.inputs, j.sequence ≠ none) {tx : Tx} (htx : q.unsignedTx = .ok tx)
    {p' : V0.Psbt L} {q' : V2.Psbt L} {r r'} (hp : p.sign S k = .ok (p', r)) (hq : q.sign S tx k = .ok (q', r')) :
    SameButTapSigs p' q' ∧ ∀ u v, (r = .ok u ∨ ∃ e, r = .error (u, e)) → (r' = .ok v ∨ ∃ e, r' = .error (v, e)) →
      ∀ n ks, u.get n = some (.ecdsa ks) ↔ v.get n = some ks := by
  rw [C108_unsigned_tx_partial h hs] at htx
  cases htx
  unfold V0.Psbt.sign at hp
  unfold V2.Psbt.sign at hq
  have hl : p.inputs.length = q.global.inputCount.toNat := by rw [h.count]; exact h.inputs.1
  rw [← hl] at hq
  cases h1 : V0.signAll S k p.unsignedTx ⟨p, .empty, .empty⟩ (List.range p.inputs.length) with
  | error e => rw [h1] at hp; cases hp
  | ok s =>
    cases h2 : V2.signAll S k p.unsignedTx ⟨q, .empty, .empty⟩ (List.range p.inputs.length) with
    | error e => rw [h2] at hq; cases hq
    | ok t =>
      rw [h1] at hp
      rw [h2] at hq
      obtain ⟨g1, g2⟩ := signAll_same List.nodup_range (fun _ _ => rfl) h (fun n ks => by simp) h1 h2
      simp only [Except.ok.injEq, Prod.mk.injEq] at hp hq
      obtain ⟨rfl, rfl⟩ := hp
      obtain ⟨rfl, rfl⟩ := hq
      refine ⟨g1, fun u v hu hv => ?_⟩
      have e1 : u = s.used := by
        rcases hu with hu | ⟨e, hu⟩ <;> (split at hu <;> cases hu <;> rfl)
      have e2 : v = t.used := by
        rcases hv with hv | ⟨e, hv⟩ <;> (split at hv <;> cases hv <;> rfl)
      subst e1 e2
      exact g2

end
end Psbt.Both
