/- Lemmas for C116. -/
import Verif.Spec.SignTold
import Verif.Lemmas.V0Sighash
import Verif.Lemmas.V0Taproot
import Verif.Lemmas.Refused
namespace Psbt
open Spec

theorem segwit_none {L : Lib} {tx : Tx} {n : Nat} {c : Bytes} {v : UInt64} {ty : EcdsaTy} :
    segwitSighash L tx n c v ty = none ↔ tx.input.length ≤ n := by
  unfold segwitSighash
  split
  · rename_i h; exact ⟨fun _ => List.getElem?_eq_none_iff.mp h, fun _ => rfl⟩
  · rename_i x h
    exact ⟨fun h' => by (cases h'), fun h' => absurd (List.getElem?_eq_none_iff.mpr h') (by rw [h]; simp)⟩

theorem p2wpkh_err {L : Lib} {tx : Tx} {n : Nat} {s : Bytes} {v : UInt64} {ty : EcdsaTy} (hs : P2wpkh s) (e : P2wpkhErr) :
    p2wpkhSighash L tx n s v ty = .error e ↔ e = .sighash ∧ tx.input.length ≤ n := by
  obtain ⟨k, rfl⟩ := hs
  unfold p2wpkhSighash
  rw [p2wpkhScriptCode_iff.mpr ⟨k, rfl, rfl⟩]
  simp only
  split
  · rename_i h; rw [segwit_none] at h; exact ⟨fun h' => by cases h'; exact ⟨rfl, h⟩, fun h' => by rw [h'.1]⟩
  · rename_i x h
    exact ⟨fun h' => by (cases h'), fun h' => absurd (segwit_none.mpr h'.2) (by rw [h]; simp)⟩

theorem ecdsaHashTy_types {s : UInt32} : ecdsaHashTy s = none ↔ s ∉ ecdsaTypes := V2.ecdsaHashTy_none

namespace V2
variable {L : Lib}

theorem checkedInput_told {p : Psbt L} {n : Nat} {e : IndexErr} (h : p.checkedInput n = .error (.err e)) :
    p.inputs.length ≤ n ∧ e = .inputs n p.inputs.length ∨
    n < p.inputs.length ∧ p.global.inputCount.toNat ≤ n ∧ e = .count n p.global.inputCount.toNat := by
  unfold Psbt.checkedInput at h
  rw [bind_err] at h
  rcases h with h | ⟨_, h1, h⟩
  · unfold orFail Psbt.checkInputIndex at h
    split at h
    · rename_i h1; cases h; exact .inl ⟨h1, rfl⟩
    · rename_i h1
      split at h
      · rename_i h2; cases h; exact .inr ⟨by omega, h2, rfl⟩
      · cases h
  · split at h <;> cases h

theorem checkedInput_refused {p : Psbt L} {n : Nat} :
    (p.inputs.length ≤ n → p.checkedInput n = .error (.err (.inputs n p.inputs.length))) ∧
    (n < p.inputs.length → p.global.inputCount.toNat ≤ n → p.checkedInput n = .error (.err (.count n p.global.inputCount.toNat))) := by
  constructor
  · intro h
    unfold Psbt.checkedInput Psbt.checkInputIndex
    rw [if_pos h]; rfl
  · intro h1 h2
    unfold Psbt.checkedInput Psbt.checkInputIndex
    rw [if_neg (by omega), if_pos h2]; rfl

theorem outputType_told {p : Psbt L} {n : Nat} {e : SignErr} : p.outputType n = .error (.err e) ↔ TypeFault p n e := by
  constructor
  · intro h
    unfold Psbt.outputType at h
    rw [bind_err] at h
    rcases h with h | ⟨i, h1, h⟩
    · cases e1 : p.checkedInput n with
      | ok i => rw [e1] at h; cases h
      | error f =>
        rw [e1] at h
        cases f with
        | panic s => cases h
        | err x =>
          cases h
          rcases checkedInput_told e1 with ⟨h1, rfl⟩ | ⟨h1, h2, rfl⟩
          · exact .noMap h1
          · exact .notCounted h1 h2
    · have h1 : p.checkedInput n = .ok i := by
        cases e : p.checkedInput n with
        | ok j => rw [e] at h1; cases h1; rfl
        | error e' => rw [e] at h1; cases e' <;> cases h1
      rw [bind_err] at h
      rcases h with h | ⟨u, h2, h⟩
      · cases e2 : i.fundingUtxo with
        | ok u => rw [e2] at h; cases h
        | error f =>
          rw [e2] at h
          cases h
          exact .funding (checkedInput_ok.mp h1) (((C30_funding_utxo i).2 f).mp e2)
      · have h2 : i.fundingUtxo = .ok u := mapErr_ok.mp h2
        split at h
        · cases h
        · rename_i h3; cases h
          exact .unknown (checkedInput_ok.mp h1) (fundingUtxo_ok.mp h2) (outputTypeOf_none.mp h3)
  · intro h
    unfold Psbt.outputType
    cases h with
    | noMap h => rw [checkedInput_refused.1 h]; rfl
    | notCounted h1 h2 => rw [checkedInput_refused.2 h1 h2]; rfl
    | funding h1 h2 =>
      rw [checkedInput_ok.mpr h1]
      simp only [mapFail, ok_bind, orFail, ((C30_funding_utxo _).2 _).mpr h2]
      rfl
    | unknown h1 h2 h3 =>
      rw [checkedInput_ok.mpr h1]
      simp only [mapFail, ok_bind, orFail, fundingUtxo_ok.mpr h2, mapErr_of_ok, outputTypeOf_none.mpr h3]

theorem inputHashTy_none {i : Input L} : i.ecdsaHashTy = none ↔ ∃ s, i.sighashType = some s ∧ s ∉ ecdsaTypes := by
  unfold Input.ecdsaHashTy
  cases i.sighashType with
  | none => simp
  | some s => simp only [ecdsaHashTy_types, Option.some.injEq, exists_eq_left']

theorem sighashEcdsa_told {p : Psbt L} {n : Nat} {tx : Tx} {e : SignErr} :
    p.sighashEcdsa n tx = .error (.err e) ↔ SighashFault p n tx e := by
  constructor
  · intro h
    cases ho : p.outputType n with
    | error f =>
      unfold Psbt.sighashEcdsa Psbt.signingAlgorithm at h
      rw [ho] at h
      cases h
      exact .type (outputType_told.mp ho)
    | ok t =>
      obtain ⟨i, u, h1, h2, h3⟩ := (C36_output_type_iff p n t).mp ho
      rw [sighashEcdsa_eq h1 h2 h3] at h
      split at h
      · rename_i ht; subst ht; cases h; exact .taproot ⟨h1, h2, h3⟩
      · rename_i ht
        split at h
        · rename_i hy
          cases h
          obtain ⟨s, h4, h5⟩ := inputHashTy_none.mp hy
          exact .sighashType ⟨h1, h2, h3⟩ ht h4 h5
        · rename_i ty hy
          rw [inputHashTy_iff] at hy
          cases t with
          | bare => simp only at h; split at h <;> cases h
          | sh =>
            simp only at h
            split at h
            · rename_i hr; cases h; exact .redeemScript ⟨h1, h2, h3⟩ hy hr
            · split at h <;> cases h
          | wpkh =>
            simp only at h
            split at h
            · cases h
            · rename_i x hx
              cases h
              have hs : P2wpkh u.scriptPubkey := by cases h3; assumption
              obtain ⟨rfl, h4⟩ := (p2wpkh_err hs _).mp hx
              exact .otherTx ⟨h1, h2, h3⟩ (.inl rfl) hy h4
          | shWpkh =>
            simp only at h
            split at h
            · cases h
            · rename_i r hr
              split at h
              · cases h
              · rename_i x hx
                cases h
                have hs : P2wpkh r := by
                  cases h3 with
                  | shWpkh _ hr' hp => rw [hr] at hr'; cases hr'; exact hp
                obtain ⟨rfl, h4⟩ := (p2wpkh_err hs _).mp hx
                exact .otherTx ⟨h1, h2, h3⟩ (.inr rfl) hy h4
          | wsh =>
            simp only at h
            split at h
            · rename_i hw; cases h; exact .witnessScript ⟨h1, h2, h3⟩ (.inl rfl) hy hw
            · rename_i w hw
              split at h
              · cases h
              · rename_i hx; cases h; exact .otherTx' ⟨h1, h2, h3⟩ (.inl rfl) hy hw (segwit_none.mp hx)
          | shWsh =>
            simp only at h
            split at h
            · rename_i hw; cases h; exact .witnessScript ⟨h1, h2, h3⟩ (.inr rfl) hy hw
            · rename_i w hw
              split at h
              · cases h
              · rename_i hx; cases h; exact .otherTx' ⟨h1, h2, h3⟩ (.inr rfl) hy hw (segwit_none.mp hx)
          | tr => exact absurd rfl ht
  · intro h
    cases h with
    | type h =>
      unfold Psbt.sighashEcdsa Psbt.signingAlgorithm
      rw [outputType_told.mpr h]; rfl
    | taproot h => rw [sighashEcdsa_eq h.1 h.2.1 h.2.2, if_pos rfl]
    | sighashType h ht h4 h5 =>
      rw [sighashEcdsa_eq h.1 h.2.1 h.2.2, if_neg ht, inputHashTy_none.mpr ⟨_, h4, h5⟩]
    | redeemScript h hy hr =>
      rw [sighashEcdsa_eq h.1 h.2.1 h.2.2, if_neg (by decide), inputHashTy_iff.mpr hy]
      simp only [hr]
    | witnessScript h ht hy hw =>
      rcases ht with rfl | rfl <;>
      · rw [sighashEcdsa_eq h.1 h.2.1 h.2.2, if_neg (by decide), inputHashTy_iff.mpr hy]
        simp only [hw]
    | otherTx h ht hy hl =>
      rcases ht with rfl | rfl
      · rename_i i u _
        have hs : P2wpkh u.scriptPubkey := by cases h.2.2; assumption
        rw [sighashEcdsa_eq h.1 h.2.1 h.2.2, if_neg (by decide), inputHashTy_iff.mpr hy]
        simp only [(p2wpkh_err hs _).mpr ⟨rfl, hl⟩]
      · obtain ⟨r, hr, hs⟩ : ∃ r, _ = some r ∧ P2wpkh r := by
          cases h.2.2 with
          | shWpkh _ hr hp => exact ⟨_, hr, hp⟩
        rw [sighashEcdsa_eq h.1 h.2.1 h.2.2, if_neg (by decide), inputHashTy_iff.mpr hy]
        simp only [hr, (p2wpkh_err hs _).mpr ⟨rfl, hl⟩]
    | otherTx' h ht hy hw hl =>
      rcases ht with rfl | rfl <;>
      · rw [sighashEcdsa_eq h.1 h.2.1 h.2.2, if_neg (by decide), inputHashTy_iff.mpr hy]
        simp only [hw, segwit_none.mpr hl]

end V2

namespace V0
variable {L : Lib}

theorem checkedInput_told {p : Psbt L} {n : Nat} {e : SignErr} (h : p.checkedInput n = .error (.err e)) :
    p.inputs.length ≤ n ∧ e = .index (.inputs n p.inputs.length) ∨
    n < p.inputs.length ∧ p.unsignedTx.input.length ≤ n ∧ e = .index (.txInput n p.unsignedTx.input.length) := by
  unfold Psbt.checkedInput at h
  split at h
  · rename_i h1; cases h; exact .inl ⟨h1, rfl⟩
  · rename_i h1
    split at h
    · rename_i h2; cases h; exact .inr ⟨by omega, h2, rfl⟩
    · split at h <;> cases h

theorem checkedInput_refused {p : Psbt L} {n : Nat} :
    (p.inputs.length ≤ n → p.checkedInput n = .error (.err (.index (.inputs n p.inputs.length)))) ∧
    (n < p.inputs.length → p.unsignedTx.input.length ≤ n →
      p.checkedInput n = .error (.err (.index (.txInput n p.unsignedTx.input.length)))) := by
  constructor
  · intro h
    unfold Psbt.checkedInput
    rw [if_pos h]
  · intro h1 h2
    unfold Psbt.checkedInput
    rw [if_neg (by omega), if_pos h2]

theorem spendUtxo_err {p : Psbt L} {n : Nat} {t : TxIn} {i : Input L} {e : SignErr} (h : Spec.V0.HasInput p n t i) :
    p.spendUtxo n = .error (.err e) ↔ i.witnessUtxo = none ∧ i.nonWitnessUtxo = none ∧ e = .missingSpendUtxo := by
  rw [spendUtxo_eq h]
  unfold fundingUtxo
  cases i.witnessUtxo with
  | some u => simp
  | none =>
    cases i.nonWitnessUtxo with
    | none => simp [eq_comm]
    | some tx =>
      simp only
      cases tx.output[t.previousOutput.vout.toNat]? <;> simp

theorem outputType_told {p : Psbt L} {n : Nat} {e : SignErr} : p.outputType n = .error (.err e) ↔ Spec.V0.TypeFault p n e := by
  constructor
  · intro h
    unfold Psbt.outputType at h
    rw [bind_err] at h
    rcases h with h | ⟨i, h1, h⟩
    · rcases checkedInput_told h with ⟨h1, rfl⟩ | ⟨h1, h2, rfl⟩
      · exact .noMap h1
      · exact .noInput h1 h2
    · obtain ⟨t, h1⟩ := checkedInput_ok.mp h1
      rw [bind_err] at h
      rcases h with h | ⟨u, h2, h⟩
      · obtain ⟨h2, h3, rfl⟩ := (spendUtxo_err h1).mp h
        exact .funding h1 h2 h3
      · split at h
        · cases h
        · rename_i h3; cases h
          exact .unknown h1 ((spendUtxo_ok h1).mp h2) (outputTypeOf_none.mp h3)
  · intro h
    unfold Psbt.outputType
    cases h with
    | noMap h => rw [checkedInput_refused.1 h]; rfl
    | noInput h1 h2 => rw [checkedInput_refused.2 h1 h2]; rfl
    | funding h1 h2 h3 =>
      rw [checkedInput_ok.mpr ⟨_, h1⟩]
      simp only [ok_bind, (spendUtxo_err h1).mpr ⟨h2, h3, rfl⟩]
      rfl
    | unknown h1 h2 h3 =>
      rw [checkedInput_ok.mpr ⟨_, h1⟩]
      simp only [ok_bind, (spendUtxo_ok h1).mpr h2, outputTypeOf_none.mpr h3]

theorem inputHashTy_none {i : Input L} : i.ecdsaHashTy = none ↔ ∃ s, i.sighashType = some s ∧ s ∉ ecdsaTypes := by
  unfold Input.ecdsaHashTy
  cases i.sighashType with
  | none => simp
  | some s => simp only [ecdsaHashTy_types, Option.some.injEq, exists_eq_left']

theorem sighashEcdsa_told {p : Psbt L} {n : Nat} {tx : Tx} {e : SignErr} :
    p.sighashEcdsa n tx = .error (.err e) ↔ Spec.V0.SighashFault p n tx e := by
  constructor
  · intro h
    cases ho : p.outputType n with
    | error f =>
      unfold Psbt.sighashEcdsa Psbt.signingAlgorithm at h
      rw [ho] at h
      cases h
      exact .type (outputType_told.mp ho)
    | ok t =>
      obtain ⟨ti, i, u, h1, h2, h3⟩ := (outputType_iff p n t).mp ho
      rw [sighashEcdsa_eq h1 h2 h3] at h
      split at h
      · rename_i ht; subst ht; cases h; exact .taproot ⟨ti, h1, h2, h3⟩
      · rename_i ht
        split at h
        · rename_i hy
          cases h
          obtain ⟨s, h4, h5⟩ := inputHashTy_none.mp hy
          exact .sighashType ⟨ti, h1, h2, h3⟩ ht h4 h5
        · rename_i ty hy
          rw [inputHashTy_iff] at hy
          cases t with
          | bare => simp only at h; split at h <;> cases h
          | sh =>
            simp only at h
            split at h
            · rename_i hr; cases h; exact .redeemScript ⟨ti, h1, h2, h3⟩ hy hr
            · split at h <;> cases h
          | wpkh =>
            simp only at h
            split at h
            · cases h
            · rename_i x hx
              cases h
              have hs : P2wpkh u.scriptPubkey := by cases h3; assumption
              obtain ⟨rfl, h4⟩ := (p2wpkh_err hs _).mp hx
              exact .otherTx ⟨ti, h1, h2, h3⟩ (.inl rfl) hy h4
          | shWpkh =>
            simp only at h
            split at h
            · cases h
            · rename_i r hr
              split at h
              · cases h
              · rename_i x hx
                cases h
                have hs : P2wpkh r := by
                  cases h3 with
                  | shWpkh _ hr' hp => rw [hr] at hr'; cases hr'; exact hp
                obtain ⟨rfl, h4⟩ := (p2wpkh_err hs _).mp hx
                exact .otherTx ⟨ti, h1, h2, h3⟩ (.inr rfl) hy h4
          | wsh =>
            simp only at h
            split at h
            · rename_i hw; cases h; exact .witnessScript ⟨ti, h1, h2, h3⟩ (.inl rfl) hy hw
            · rename_i w hw
              split at h
              · cases h
              · rename_i hx; cases h; exact .otherTx' ⟨ti, h1, h2, h3⟩ (.inl rfl) hy hw (segwit_none.mp hx)
          | shWsh =>
            simp only at h
            split at h
            · rename_i hw; cases h; exact .witnessScript ⟨ti, h1, h2, h3⟩ (.inr rfl) hy hw
            · rename_i w hw
              split at h
              · cases h
              · rename_i hx; cases h; exact .otherTx' ⟨ti, h1, h2, h3⟩ (.inr rfl) hy hw (segwit_none.mp hx)
          | tr => exact absurd rfl ht
  · intro h
    cases h with
    | type h =>
      unfold Psbt.sighashEcdsa Psbt.signingAlgorithm
      rw [outputType_told.mpr h]; rfl
    | taproot h => obtain ⟨ti, h⟩ := h; rw [sighashEcdsa_eq h.1 h.2.1 h.2.2, if_pos rfl]
    | sighashType h ht h4 h5 =>
      obtain ⟨ti, h⟩ := h
      rw [sighashEcdsa_eq h.1 h.2.1 h.2.2, if_neg ht, inputHashTy_none.mpr ⟨_, h4, h5⟩]
    | redeemScript h hy hr =>
      obtain ⟨ti, h⟩ := h
      rw [sighashEcdsa_eq h.1 h.2.1 h.2.2, if_neg (by decide), inputHashTy_iff.mpr hy]
      simp only [hr]
    | witnessScript h ht hy hw =>
      obtain ⟨ti, h⟩ := h
      rcases ht with rfl | rfl <;>
      · rw [sighashEcdsa_eq h.1 h.2.1 h.2.2, if_neg (by decide), inputHashTy_iff.mpr hy]
        simp only [hw]
    | otherTx h ht hy hl =>
      obtain ⟨ti, h⟩ := h
      rcases ht with rfl | rfl
      · rename_i i u _
        have hs : P2wpkh u.scriptPubkey := by cases h.2.2; assumption
        rw [sighashEcdsa_eq h.1 h.2.1 h.2.2, if_neg (by decide), inputHashTy_iff.mpr hy]
        simp only [(p2wpkh_err hs _).mpr ⟨rfl, hl⟩]
      · obtain ⟨r, hr, hs⟩ : ∃ r, _ = some r ∧ P2wpkh r := by
          cases h.2.2 with
          | shWpkh _ hr hp => exact ⟨_, hr, hp⟩
        rw [sighashEcdsa_eq h.1 h.2.1 h.2.2, if_neg (by decide), inputHashTy_iff.mpr hy]
        simp only [hr, (p2wpkh_err hs _).mpr ⟨rfl, hl⟩]
    | otherTx' h ht hy hw hl =>
      obtain ⟨ti, h⟩ := h
      rcases ht with rfl | rfl <;>
      · rw [sighashEcdsa_eq h.1 h.2.1 h.2.2, if_neg (by decide), inputHashTy_iff.mpr hy]
        simp only [hw, segwit_none.mpr hl]

theorem spendUtxos_told {p : Psbt L} : ∀ {ns : List Nat} {r : Out SignErr (List (Option TxOut))}, p.spendUtxos ns = r →
    (∀ e, r ≠ .error (.err e)) ∧
    ∀ us, r = .ok us → us.length = ns.length ∧ (∀ k : Nat, us[k]? = some none → ∃ m e, ns[k]? = some m ∧ p.spendUtxo m = .error (.err e)) ∧
      (none ∈ us → ∃ m ∈ ns, ∃ e, p.spendUtxo m = .error (.err e))
  | [], r, h => by
    subst h
    refine ⟨fun e h => (by cases h), fun us h => ?_⟩
    cases h
    simp
  | n :: ns, r, h => by
    subst h
    obtain ⟨h1, h2⟩ := spendUtxos_told (p := p) (ns := ns) rfl
    unfold Psbt.spendUtxos
    split
    · exact ⟨fun e h => (by cases h), fun us h => (by cases h)⟩
    · rename_i e he
      constructor
      · intro e' h
        rw [bind_err] at h
        rcases h with h | ⟨_, _, h⟩
        · exact h1 _ h
        · cases h
      · intro us h
        rw [bind_ok] at h
        obtain ⟨us', h3, h⟩ := h
        cases h
        obtain ⟨h4, h5, h6⟩ := h2 _ h3
        refine ⟨by simp [h4], ?_, fun _ => ⟨n, List.mem_cons_self, e, he⟩⟩
        intro k hk
        cases k with
        | zero => exact ⟨n, e, rfl, he⟩
        | succ k => exact h5 k hk
    · rename_i u he
      constructor
      · intro e' h
        rw [bind_err] at h
        rcases h with h | ⟨_, _, h⟩
        · exact h1 _ h
        · cases h
      · intro us h
        rw [bind_ok] at h
        obtain ⟨us', h3, h⟩ := h
        cases h
        obtain ⟨h4, h5, h6⟩ := h2 _ h3
        refine ⟨by simp [h4], ?_, fun hm => ?_⟩
        · intro k hk
          cases k with
          | zero => cases hk
          | succ k => exact h5 k hk
        · rcases List.mem_cons.mp hm with hm | hm
          · cases hm
          · obtain ⟨m, hm, h⟩ := h6 hm
            exact ⟨m, List.mem_cons_of_mem _ hm, h⟩

theorem taprootHashTy_unknown {s : UInt32} (h : s ∉ taprootTypes) : taprootHashTy s = none := by
  cases ht : taprootHashTy s with
  | none => rfl
  | some ty =>
    have : s = ty.1.toUInt32 := tapHashTy_iff.mp ht
    refine absurd ?_ h
    rw [this]
    rcases tapTy_cases ty with h | h | h | h | h | h | h <;> rw [h] <;> decide

theorem taprootHashTy_types {s : UInt32} (h : taprootHashTy s = none) : s ∉ taprootTypes := by
  intro hm
  simp only [taprootTypes, ecdsaTypes, List.mem_cons, List.not_mem_nil, or_false] at hm
  rcases hm with rfl | rfl | rfl | rfl | rfl | rfl | rfl <;> revert h <;> decide

theorem tap_acp : ∀ x : UInt8, tapStandard x = true → (x.toUInt32 &&& 0x80 ≠ 0 ↔ x = 0x81 ∨ x = 0x82 ∨ x = 0x83) :=
  forall_u8 (by decide +kernel)

theorem tap_inputs : ∀ x : UInt8, tapStandard x = true → ¬ x.toUInt32 &&& 0x80 ≠ 0 → x = 0x00 ∨ x = 0x01 ∨ x = 0x02 ∨ x = 0x03 :=
  forall_u8 (by decide +kernel)

theorem tap_split (ty : TapTy) : (TapTy.split ty).2 = decide (ty.1.toUInt32 &&& 0x80 ≠ 0) ∧
    ((TapTy.split ty).1 = .single → ty.1 = 0x03 ∨ ty.1 = 0x83) := by
  obtain ⟨x, hx⟩ := ty
  revert hx
  revert x
  exact forall_u8 (by decide +kernel)

theorem filterMap_all {us : List (Option TxOut)} (h : us.all Option.isSome = true) :
    (us.filterMap fun u => u).length = us.length := by
  induction us with
  | nil => rfl
  | cons u us ih =>
    simp only [List.all_cons, Bool.and_eq_true] at h
    cases u with
    | none => exact absurd h.1 (by simp)
    | some v => simp [ih h.2]

theorem outputPart_err {tx : Tx} {n : Nat} {ty : TapTy} {x : TaprootErr}
    (h : tapOutputPart L tx n (TapTy.split ty).1 = .error x) :
    x = .singleMissingOutput ∧ Spec.V0.tapCommitsOutput ty ∧ tx.output.length ≤ n := by
  unfold tapOutputPart at h
  split at h
  · rename_i hb
    split at h
    · rename_i ho; cases h; exact ⟨rfl, (tap_split ty).2 hb, List.getElem?_eq_none_iff.mp ho⟩
    · cases h
  · cases h

theorem preimageErr_one {tx : Tx} {n : Nat} {u : TxOut} {leaf : Option Hash32} {ty : TapTy} {t : TxIn} {x : TaprootErr}
    (ha : ty.1.toUInt32 &&& 0x80 ≠ 0) (ht : tx.input[n]? = some t) (h : tapPreimage L tx n (.one n u) leaf ty = .error x) :
    x = .singleMissingOutput ∧ Spec.V0.tapCommitsOutput ty ∧ tx.output.length ≤ n := by
  unfold tapPreimage at h
  rw [if_neg (by simp)] at h
  have h2 : (TapTy.split ty).2 = true := by rw [(tap_split ty).1]; simpa using ha
  simp only [h2, tapInputsPart, tapInputPart, ht, Prevouts.get, if_true, ok_bind] at h
  rw [bind_err] at h
  rcases h with h | ⟨_, _, h⟩
  · exact outputPart_err h
  · cases h

theorem preimageErr_all {tx : Tx} {n : Nat} {us : List TxOut} {leaf : Option Hash32} {ty : TapTy} {x : TaprootErr}
    (ha : ¬ ty.1.toUInt32 &&& 0x80 ≠ 0) (h : tapPreimage L tx n (.all us) leaf ty = .error x) :
    us.length ≠ tx.input.length ∧ x = .prevoutsSize ∨
    us.length = tx.input.length ∧ x = .singleMissingOutput ∧ Spec.V0.tapCommitsOutput ty ∧ tx.output.length ≤ n := by
  unfold tapPreimage at h
  by_cases hl : us.length ≠ tx.input.length
  · rw [if_pos (by simpa using hl)] at h
    cases h; exact .inl ⟨hl, rfl⟩
  · rw [if_neg (by simpa using hl)] at h
    have h2 : (TapTy.split ty).2 = false := by rw [(tap_split ty).1]; simpa using ha
    simp only [h2, tapInputsPart, tapInputPart, Bool.false_eq_true, if_false, ok_bind] at h
    rw [bind_err] at h
    rcases h with h | ⟨_, _, h⟩
    · exact .inr ⟨Classical.not_not.mp hl, outputPart_err h⟩
    · cases h

theorem tap_single {ty : TapTy} (h : Spec.V0.tapCommitsOutput ty) : (TapTy.split ty).1 = .single := by
  rcases h with h | h <;> simp [TapTy.split, h]

theorem preimage_oneFunded {tx : Tx} {n : Nat} {u : TxOut} {leaf : Option Hash32} {ty : TapTy} {t : TxIn}
    (ha : ty.1.toUInt32 &&& 0x80 ≠ 0) (ht : tx.input[n]? = some t) (hy : Spec.V0.tapCommitsOutput ty) (ho : tx.output.length ≤ n) :
    tapSighash L tx n (.one n u) leaf ty = .error .singleMissingOutput := by
  unfold tapSighash tapPreimage
  rw [if_neg (by simp)]
  have h2 : (TapTy.split ty).2 = true := by rw [(tap_split ty).1]; simpa using ha
  simp only [h2, tapInputsPart, tapInputPart, ht, Prevouts.get, if_true, ok_bind, tapOutputPart, tap_single hy,
    List.getElem?_eq_none ho]
  rfl

theorem preimage_allFunded {tx : Tx} {n : Nat} {us : List TxOut} {leaf : Option Hash32} {ty : TapTy}
    (ha : ¬ ty.1.toUInt32 &&& 0x80 ≠ 0) (hl : us.length = tx.input.length) (hy : Spec.V0.tapCommitsOutput ty) (ho : tx.output.length ≤ n) :
    tapSighash L tx n (.all us) leaf ty = .error .singleMissingOutput := by
  unfold tapSighash tapPreimage
  rw [if_neg (by simpa using hl)]
  have h2 : (TapTy.split ty).2 = false := by rw [(tap_split ty).1]; simpa using ha
  simp only [h2, tapInputsPart, tapInputPart, Bool.false_eq_true, if_false, ok_bind, tapOutputPart, tap_single hy,
    List.getElem?_eq_none ho, if_true]
  rfl

theorem preimage_size {tx : Tx} {n : Nat} {us : List TxOut} {leaf : Option Hash32} {ty : TapTy}
    (hl : us.length ≠ tx.input.length) : tapSighash L tx n (.all us) leaf ty = .error .prevoutsSize := by
  unfold tapSighash tapPreimage
  rw [if_pos (by simpa using hl)]
  rfl

theorem spendUtxos_map {p : Psbt L} : ∀ {ns : List Nat} {us : List (Option TxOut)}, p.spendUtxos ns = .ok us → us = ns.map (utxo? p)
  | [], us, h => by cases h; rfl
  | n :: ns, us, h => by
    unfold Psbt.spendUtxos at h
    split at h
    · cases h
    · rename_i e he
      rw [bind_ok] at h
      obtain ⟨us', h, h'⟩ := h
      cases h'
      rw [spendUtxos_map h, List.map_cons, show utxo? p n = none by unfold utxo?; rw [he]]
    · rename_i u he
      rw [bind_ok] at h
      obtain ⟨us', h, h'⟩ := h
      cases h'
      rw [spendUtxos_map h, List.map_cons, show utxo? p n = some u by unfold utxo?; rw [he]]

theorem all_funded {p : Psbt L} : ((List.range p.inputs.length).map (utxo? p)).all Option.isSome = true ↔ Spec.V0.AllFunded p := by
  simp only [List.all_eq_true, List.mem_map, List.mem_range]
  constructor
  · intro h m hm
    obtain ⟨v, hv⟩ := Option.isSome_iff_exists.mp (h _ ⟨m, hm, rfl⟩)
    obtain ⟨t, j, h1, h2⟩ := utxo?_some.mp hv
    exact ⟨t, j, v, h1, h2⟩
  · rintro h x ⟨m, hm, rfl⟩
    obtain ⟨t, j, v, h1, h2⟩ := h m hm
    rw [utxo?_some.mpr ⟨t, j, h1, h2⟩]; rfl

theorem sighashTaproot_told {p : Psbt L} {n : Nat} {leaf : Option Hash32} {e : SignErr}
    (h : p.sighashTaproot n p.unsignedTx leaf = .error (.err e)) : Spec.V0.TapFault p n e := by
  unfold Psbt.sighashTaproot at h
  rw [bind_err] at h
  rcases h with h | ⟨a, h1, h⟩
  · unfold Psbt.signingAlgorithm at h
    rw [bind_err] at h
    rcases h with h | ⟨_, _, h⟩
    · exact .type (outputType_told.mp h)
    · cases h
  · unfold Psbt.signingAlgorithm at h1
    rw [bind_ok] at h1
    obtain ⟨t, h1, h2⟩ := h1
    cases h2
    have ho := h1
    obtain ⟨ti, i, u, g1, g2, g3⟩ := (outputType_iff p n t).mp h1
    have hs : Spec.V0.SpendsAs p n i u t := ⟨ti, g1, g2, g3⟩
    split at h
    · rename_i ha
      cases h
      exact .ecdsa hs (by rintro rfl; exact ha rfl)
    · rw [checkedInput_ok.mpr ⟨ti, g1⟩] at h
      simp only [ok_bind, ho] at h
      cases t with
      | tr =>
        simp only at h
        split at h
        · rename_i hy
          cases h
          unfold Input.taprootHashTy at hy
          cases hm : i.sighashType with
          | none => rw [hm] at hy; cases hy
          | some s => rw [hm] at hy; exact .sighashType hs hm (taprootHashTy_types hy)
        · rename_i ty hy
          have hd : Spec.V0.DeclaredTapType i ty := inputTapHashTy_iff.mp hy
          rw [bind_err] at h
          rcases h with h | ⟨us, hus, h⟩
          · exact absurd rfl ((spendUtxos_told h).1 e)
          · obtain ⟨h4, h5, h6⟩ := (spendUtxos_told hus).2 us rfl
            rw [bind_err] at h
            rcases h with h | ⟨q, hq, h⟩
            · unfold prevouts at h
              split at h
              · split at h
                · cases h
                · rename_i hu
                  obtain ⟨m, e', h7, h8⟩ := h5 n hu
                  rw [List.getElem?_range] at h7
                  · cases h7
                    rw [(spendUtxo_ok g1).mpr g2] at h8; cases h8
                  · have := (List.getElem?_eq_some_iff.mp hu).1
                    simpa [h4] using this
                · cases h
              · rename_i hacp
                split at h
                · cases h
                · rename_i hall
                  cases h
                  have hn : none ∈ us := by
                    simp only [List.all_eq_true, Classical.not_forall] at hall
                    obtain ⟨x, hx, hx'⟩ := hall
                    cases x with
                    | none => exact hx
                    | some y => exact absurd rfl hx'
                  obtain ⟨m, hm, e', he⟩ := h6 hn
                  refine .otherInput hs hd (tap_inputs ty.1 ty.2 hacp) (by simpa using hm) ?_
                  intro t' j v hj hv
                  rw [(spendUtxo_ok hj).mpr hv] at he
                  cases he
            · split at h
              · cases h
              · rename_i x hx
                cases h
                unfold tapSighash at hx
                rw [bind_err] at hx
                rcases hx with hx | ⟨_, _, hx⟩
                · unfold prevouts at hq
                  split at hq
                  · rename_i hacp
                    split at hq
                    · cases hq
                    · cases hq
                    · cases hq
                      obtain ⟨rfl, h7, h8⟩ := preimageErr_one hacp g1.1 hx
                      refine .noOutput hs hd h7 (fun hc => absurd hacp ?_) h8
                      rcases hc with hc | hc | hc | hc <;> rw [hc] <;> decide
                  · rename_i hacp
                    split at hq
                    · rename_i hall
                      cases hq
                      have haf : Spec.V0.AllFunded p := all_funded.mp (spendUtxos_map hus ▸ hall)
                      rcases preimageErr_all hacp hx with ⟨h7, rfl⟩ | ⟨h9, rfl, h7, h8⟩
                      · refine .moreInputs hs hd (tap_inputs ty.1 ty.2 hacp) haf ?_
                        rwa [filterMap_all hall, h4, List.length_range] at h7
                      · refine .noOutput hs hd h7 (fun _ => ⟨haf, ?_⟩) h8
                        rwa [filterMap_all hall, h4, List.length_range] at h9
                    · cases hq
                · cases hx
      | _ => rename_i ha; exact absurd (fun hh => (by cases hh)) ha

theorem inputs_acp {ty : TapTy} (h : Spec.V0.tapCommitsInputs ty) : ¬ ty.1.toUInt32 &&& 0x80 ≠ 0 := by
  rcases h with h | h | h | h <;> rw [h] <;> decide

theorem sighashTaproot_fault {p : Psbt L} (hr : Spec.V0.IndicesInRange p) {n : Nat} {leaf : Option Hash32} {e : SignErr}
    (h : Spec.V0.TapFault p n e) : p.sighashTaproot n p.unsignedTx leaf = .error (.err e) := by
  have tr : ∀ {i u}, Spec.V0.SpendsAs p n i u .tr → ∃ t, Spec.V0.HasInput p n t i ∧ Spec.V0.FundedBy t i u ∧ P2tr u.scriptPubkey := by
    rintro i u ⟨t, h1, h2, h3⟩
    cases h3 with
    | tr h3 => exact ⟨t, h1, h2, h3⟩
  cases h with
  | type h => unfold Psbt.sighashTaproot Psbt.signingAlgorithm; rw [outputType_told.mpr h]; rfl
  | @ecdsa i u t hs ht =>
    obtain ⟨ti, h1, h2, h3⟩ := hs
    unfold Psbt.sighashTaproot Psbt.signingAlgorithm
    rw [(outputType_iff p n t).mpr ⟨ti, i, u, h1, h2, h3⟩]
    cases t <;> first | rfl | exact absurd rfl ht
  | @sighashType i u s hs hm hn =>
    obtain ⟨t, h1, h2, h3⟩ := tr hs
    rw [sighashTaproot_eq hr h1 h2 h3]
    have : i.taprootHashTy = none := by unfold Input.taprootHashTy; rw [hm]; exact taprootHashTy_unknown hn
    rw [this]
  | otherInput hs hd hc hl hu =>
    obtain ⟨t, h1, h2, h3⟩ := tr hs
    rw [sighashTaproot_eq hr h1 h2 h3, inputTapHashTy_iff.mpr hd]
    simp only [tapMessage, prevouts, if_neg (inputs_acp hc)]
    rw [if_neg]
    · rfl
    · intro ha
      obtain ⟨t', j, v, g1, g2⟩ := all_funded.mp ha _ hl
      exact hu t' j v g1 g2
  | moreInputs hs hd hc haf hl =>
    obtain ⟨t, h1, h2, h3⟩ := tr hs
    rw [sighashTaproot_eq hr h1 h2 h3, inputTapHashTy_iff.mpr hd]
    simp only [tapMessage, prevouts, if_neg (inputs_acp hc), if_pos (all_funded.mpr haf), ok_bind]
    rw [preimage_size]
    rwa [filterMap_all (all_funded.mpr haf), List.length_map, List.length_range]
  | @noOutput i u ty hs hd hy hc ho =>
    obtain ⟨t, h1, h2, h3⟩ := tr hs
    rw [sighashTaproot_eq hr h1 h2 h3, inputTapHashTy_iff.mpr hd]
    by_cases ha : ty.1.toUInt32 &&& 0x80 ≠ 0
    · have hn := (List.getElem?_eq_some_iff.mp h1.2).1
      simp only [tapMessage, prevouts, if_pos ha, List.getElem?_map, List.getElem?_range hn, Option.map_some,
        utxo?_some.mpr ⟨t, i, h1, h2⟩, ok_bind]
      rw [preimage_oneFunded ha h1.1 hy ho]
    · obtain ⟨haf, hl⟩ := hc (tap_inputs ty.1 ty.2 ha)
      simp only [tapMessage, prevouts, if_neg ha, if_pos (all_funded.mpr haf), ok_bind]
      rw [preimage_allFunded ha _ hy ho]
      rwa [filterMap_all (all_funded.mpr haf), List.length_map, List.length_range]

end V0
end Psbt
