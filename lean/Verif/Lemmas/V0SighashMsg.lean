/- Facts about `sighash_msg`. -/
import Verif.Lemmas.V0Finalize
namespace Psbt.V0
open Psbt Psbt.Spec Psbt.Spec.V0

variable {L : Lib}

/-- The part of `sighash_msg` for inputs that are not taproot, once everything is looked up. -/
def ecdsaMsg (tx : Tx) (n : Nat) (i : Input L) (u : TxOut) (ty : EcdsaTy) : Out SighashErr SighashMsg :=
  let spk := u.scriptPubkey
  let nestedWpkh := isP2sh spk && (i.redeemScript.map isP2wpkh).getD false
  let nestedWsh := isP2sh spk && (i.redeemScript.map isP2wsh).getD false
  if isP2wpkh spk || isP2wsh spk || nestedWpkh || nestedWsh then
    if isP2wpkh spk then
      match p2wpkhSighash L tx n spk u.value ty with
      | .ok h => .ok (.segwitV0 h)
      | .error e => .error (.err (.p2wpkh e))
    else if nestedWpkh then
      match i.redeemScript with
      | none => .error (.panic "redeem script non-empty checked earlier")
      | some r =>
        match p2wpkhSighash L tx n r u.value ty with
        | .ok h => .ok (.segwitV0 h)
        | .error e => .error (.err (.p2wpkh e))
    else
      match i.witnessScript with
      | none => .error (.err .missingWitnessScript)
      | some w =>
        match segwitSighash L tx n w u.value ty with
        | some h => .ok (.segwitV0 h)
        | none => .error (.err .inputsIndex)
  else if isP2sh spk then
    match i.redeemScript with
    | none => .error (.err .missingRedeemScript)
    | some r =>
      match legacySighash L tx n r ty with
      | some h => .ok (.legacy h)
      | none => .error (.err .inputsIndex)
  else
    match legacySighash L tx n spk ty with
    | some h => .ok (.legacy h)
    | none => .error (.err .inputsIndex)

theorem sighashMsg_eq {p : Psbt L} (hp : Sound p) {n : Nat} {tx : Tx} {leaf : Option Hash32} {t : TxIn} {i : Input L} {u : TxOut} {us : List TxOut}
    (hi : HasInput p n t i) (hu : FundedBy t i u) (hf : Funding p.unsignedTx.input p.inputs us) :
    p.sighashMsg n tx leaf =
      if isP2tr u.scriptPubkey then
        match i.taprootHashTy with
        | none => .error (.err .invalidSighashType)
        | some ty =>
          match tapSighash L tx n (.all us) leaf ty with
          | .ok h => .ok (.tap h)
          | .error e => .error (.err (.taproot e))
      else
        match i.ecdsaHashTy with
        | none => .error (.err .invalidSighashType)
        | some ty => ecdsaMsg tx n i u ty := by
  have hl := (List.getElem?_eq_some_iff.mp hi.2).1
  unfold Psbt.sighashMsg
  rw [if_neg (by omega)]
  simp only [hi.2]
  rcases prevouts_cases hp with ⟨us', h1, h2⟩ | ⟨k, h1, h2⟩
  · rw [funding_unique h2 hf] at h1
    simp only [h1, V2.mapFail, ok_bind, getUtxo_funded hi hu]
    rfl
  · exact (firstUnfunded_funding h2 hf).elim

theorem sighashMsg_unfunded {p : Psbt L} (hp : Sound p) {n : Nat} {tx : Tx} {leaf : Option Hash32} (hn : n < p.inputs.length)
    (hf : ∀ us, ¬ Funding p.unsignedTx.input p.inputs us) : p.sighashMsg n tx leaf = .error (.err .missingSpendUtxos) := by
  unfold Psbt.sighashMsg
  rw [if_neg (by omega)]
  simp only [List.getElem?_eq_getElem hn]
  rcases prevouts_cases hp with ⟨us', h1, h2⟩ | ⟨k, h1, h2⟩
  · exact (hf _ h2).elim
  · rw [h1]; rfl

theorem not_wpkh {s : Bytes} (h : ¬ P2wpkh s) : isP2wpkh s = false := by
  rw [← Bool.not_eq_true, isP2wpkh_iff]; exact h
theorem not_wsh {s : Bytes} (h : ¬ P2wsh s) : isP2wsh s = false := by
  rw [← Bool.not_eq_true, isP2wsh_iff]; exact h
theorem not_sh {s : Bytes} (h : ¬ P2sh s) : isP2sh s = false := by
  rw [← Bool.not_eq_true, isP2sh_iff]; exact h
theorem not_tr {s : Bytes} (h : ¬ P2tr s) : isP2tr s = false := by
  rw [← Bool.not_eq_true, isP2tr_iff]; exact h

theorem ecdsaMsg_known {tx : Tx} {n : Nat} {i : Input L} {u : TxOut} {ty : EcdsaTy} {o : OutputType}
    (h : SpendType u.scriptPubkey i.redeemScript o) (ho : o ≠ .tr) (m : SighashMsg) :
    ecdsaMsg tx n i u ty = .ok m ↔
      ∃ h, Message tx n i u ty h ∧ (segwitV0 o ∧ m = .segwitV0 h ∨ ¬ segwitV0 o ∧ m = .legacy h) := by
  have huniq : ∀ {o'}, SpendType u.scriptPubkey i.redeemScript o' → o' = o := fun h' => V2.spendType_unique h' h
  unfold ecdsaMsg
  cases h with
  | wpkh hs =>
    simp only [isP2wpkh_iff.mpr hs, Bool.true_or, if_true]
    constructor
    · intro h
      split at h
      · rename_i h' e
        cases h
        obtain ⟨k, e1, e2⟩ := V2.p2wpkhSighash_ok.mp e
        exact ⟨h', .wpkh e1 e2, .inl ⟨trivial, rfl⟩⟩
      · cases h
    · rintro ⟨h, hm, ⟨-, rfl⟩ | ⟨h', -⟩⟩
      · cases hm with
        | wpkh e1 e2 => rw [V2.p2wpkhSighash_ok.mpr ⟨_, e1, e2⟩]
        | bare h1 _ => cases huniq h1
        | sh h1 _ _ => cases huniq h1
        | shWpkh h1 h2 _ => cases huniq (.shWpkh h1 h2 ⟨_, rfl⟩)
        | wsh h1 _ _ => cases huniq (.wsh h1)
        | shWsh h1 h2 h3 _ _ => cases huniq (.shWsh h1 h2 h3)
      · exact (h' trivial).elim
  | wsh hs =>
    have e1 := not_wpkh fun h => h.not_wsh hs
    have e2 := not_sh fun h => h.not_witness hs.witness
    simp only [isP2wsh_iff.mpr hs, e1, e2, Bool.true_or, Bool.or_true, if_true, Bool.false_and, Bool.false_eq_true, if_false]
    constructor
    · intro h
      split at h
      · cases h
      · rename_i w hw
        split at h
        · rename_i h' e
          cases h
          exact ⟨h', .wsh hs hw e, .inl ⟨trivial, rfl⟩⟩
        · cases h
    · rintro ⟨h, hm, ⟨-, rfl⟩ | ⟨h', -⟩⟩
      · cases hm with
        | wpkh e1 e2 => cases huniq (.wpkh ⟨_, e1⟩)
        | bare h1 _ => cases huniq h1
        | sh h1 _ _ => cases huniq h1
        | shWpkh h1 h2 _ => cases huniq (.shWpkh h1 h2 ⟨_, rfl⟩)
        | wsh h1 h2 h3 => simp only [h2, h3]
        | shWsh h1 h2 h3 _ _ => cases huniq (.shWsh h1 h2 h3)
      · exact (h' trivial).elim
  | tr hs => exact (ho rfl).elim
  | @shWpkh r hs hr hr' =>
    have e1 := not_wpkh fun h => hs.not_witness h.witness
    have e2 := not_wsh fun h => hs.not_witness h.witness
    simp only [isP2sh_iff.mpr hs, hr, isP2wpkh_iff.mpr hr', e1, e2, Option.map_some, Option.getD_some, Bool.and_true, Bool.or_true,
      Bool.true_or, if_true, Bool.false_eq_true, if_false]
    constructor
    · intro h
      split at h
      · rename_i h' e
        cases h
        obtain ⟨k, e1, e2⟩ := V2.p2wpkhSighash_ok.mp e
        exact ⟨h', .shWpkh hs (by rw [hr, e1]) e2, .inl ⟨trivial, rfl⟩⟩
      · cases h
    · rintro ⟨h, hm, ⟨-, rfl⟩ | ⟨h', -⟩⟩
      · cases hm with
        | wpkh e1 e2 => cases huniq (.wpkh ⟨_, e1⟩)
        | bare h1 _ => cases huniq h1
        | sh h1 _ _ => cases huniq h1
        | shWpkh h1 h2 h3 =>
          cases hr.symm.trans h2
          rw [V2.p2wpkhSighash_ok.mpr ⟨_, rfl, h3⟩]
        | wsh h1 _ _ => cases huniq (.wsh h1)
        | shWsh h1 h2 h3 _ _ => cases huniq (.shWsh h1 h2 h3)
      · exact (h' trivial).elim
  | @shWsh r hs hr hr' =>
    have e1 := not_wpkh fun h => hs.not_witness h.witness
    have e2 := not_wsh fun h => hs.not_witness h.witness
    have e3 := not_wpkh fun h => h.not_wsh hr'
    simp only [isP2sh_iff.mpr hs, hr, isP2wsh_iff.mpr hr', e1, e2, e3, Option.map_some, Option.getD_some, Bool.and_true, Bool.or_true,
      Bool.true_or, if_true, Bool.false_eq_true, if_false, Bool.and_false]
    constructor
    · intro h
      split at h
      · cases h
      · rename_i w hw
        split at h
        · rename_i h' e
          cases h
          exact ⟨h', .shWsh hs hr hr' hw e, .inl ⟨trivial, rfl⟩⟩
        · cases h
    · rintro ⟨h, hm, ⟨-, rfl⟩ | ⟨h', -⟩⟩
      · cases hm with
        | wpkh e1 e2 => cases huniq (.wpkh ⟨_, e1⟩)
        | bare h1 _ => cases huniq h1
        | sh h1 _ _ => cases huniq h1
        | shWpkh h1 h2 h3 => cases huniq (.shWpkh h1 h2 ⟨_, rfl⟩)
        | wsh h1 _ _ => cases huniq (.wsh h1)
        | shWsh h1 h2 h3 h4 h5 => simp only [h4, h5]
      · exact (h' trivial).elim
  | sh hs hr =>
    have e1 := not_wpkh fun h => hs.not_witness h.witness
    have e2 := not_wsh fun h => hs.not_witness h.witness
    have e3 : (i.redeemScript.map isP2wpkh).getD false = false := by
      cases h : i.redeemScript with
      | none => rfl
      | some r => exact not_wpkh (hr r h).1
    have e4 : (i.redeemScript.map isP2wsh).getD false = false := by
      cases h : i.redeemScript with
      | none => rfl
      | some r => exact not_wsh (hr r h).2
    simp only [isP2sh_iff.mpr hs, e1, e2, e3, e4, Bool.and_false, Bool.or_self, Bool.false_eq_true, if_false, if_true]
    constructor
    · intro h
      split at h
      · cases h
      · rename_i r hr'
        split at h
        · rename_i h' e
          cases h
          exact ⟨h', .sh (.sh hs hr) hr' e, .inr ⟨id, rfl⟩⟩
        · cases h
    · rintro ⟨h, hm, ⟨h', -⟩ | ⟨-, rfl⟩⟩
      · exact h'.elim
      · cases hm with
        | wpkh e1 e2 => cases huniq (.wpkh ⟨_, e1⟩)
        | bare h1 _ => cases huniq h1
        | sh h1 h2 h3 => simp only [h2, h3]
        | shWpkh h1 h2 h3 => cases huniq (.shWpkh h1 h2 ⟨_, rfl⟩)
        | wsh h1 _ _ => cases huniq (.wsh h1)
        | shWsh h1 h2 h3 h4 h5 => cases huniq (.shWsh h1 h2 h3)
  | bare hs hw =>
    have e1 := not_wpkh fun h => hw h.witness
    have e2 := not_wsh fun h => hw h.witness
    simp only [not_sh hs, e1, e2, Bool.false_and, Bool.or_self, Bool.false_eq_true, if_false]
    constructor
    · intro h
      split at h
      · rename_i h' e
        cases h
        exact ⟨h', .bare (.bare hs hw) e, .inr ⟨id, rfl⟩⟩
      · cases h
    · rintro ⟨h, hm, ⟨h', -⟩ | ⟨-, rfl⟩⟩
      · exact h'.elim
      · cases hm with
        | wpkh e1 e2 => cases huniq (.wpkh ⟨_, e1⟩)
        | bare h1 h2 => simp only [h2]
        | sh h1 h2 h3 => cases huniq h1
        | shWpkh h1 h2 h3 => cases huniq (.shWpkh h1 h2 ⟨_, rfl⟩)
        | wsh h1 _ _ => cases huniq (.wsh h1)
        | shWsh h1 h2 h3 h4 h5 => cases huniq (.shWsh h1 h2 h3)

theorem unknown_type {spk : Bytes} {r : Option Bytes} (h : ∀ o, ¬ SpendType spk r o) :
    ¬ P2wpkh spk ∧ ¬ P2wsh spk ∧ ¬ P2tr spk ∧ ¬ P2sh spk := by
  refine ⟨fun h' => h _ (.wpkh h'), fun h' => h _ (.wsh h'), fun h' => h _ (.tr h'), fun h' => ?_⟩
  cases r with
  | none => exact h _ (.sh h' (by simp))
  | some r =>
    by_cases h1 : P2wpkh r
    · exact h _ (.shWpkh h' rfl h1)
    · by_cases h2 : P2wsh r
      · exact h _ (.shWsh h' rfl h2)
      · exact h _ (.sh h' fun r' e => by cases e; exact ⟨h1, h2⟩)

theorem ecdsaMsg_unknown {tx : Tx} {n : Nat} {i : Input L} {u : TxOut} {ty : EcdsaTy}
    (h : ∀ o, ¬ SpendType u.scriptPubkey i.redeemScript o) (m : SighashMsg) :
    ecdsaMsg tx n i u ty = .ok m ↔ ∃ h, legacySighash L tx n u.scriptPubkey ty = some h ∧ m = .legacy h := by
  obtain ⟨h1, h2, h3, h4⟩ := unknown_type h
  unfold ecdsaMsg
  simp only [not_sh h4, not_wpkh h1, not_wsh h2, Bool.false_and, Bool.or_self, Bool.false_eq_true, if_false]
  cases legacySighash L tx n u.scriptPubkey ty with
  | none => simp
  | some h => simp [eq_comm]

/-- With ANYONECANPAY it makes no difference whether all outputs spent are given, or only the one of the input. -/
theorem tapSighash_acp {tx : Tx} {n : Nat} {us : List TxOut} {u : TxOut} {leaf : Option Hash32} {ty : TapTy}
    (ha : ty.1 = 0x81 ∨ ty.1 = 0x82 ∨ ty.1 = 0x83) (hl : us.length = tx.input.length) (hu : us[n]? = some u) :
    tapSighash L tx n (.all us) leaf ty = tapSighash L tx n (.one n u) leaf ty := by
  have hs : (TapTy.split ty).2 = true := by
    unfold TapTy.split
    rcases ha with h | h | h <;> rw [h] <;> rfl
  unfold tapSighash tapPreimage
  simp only [hl, ne_eq, not_true_eq_false, decide_false, Bool.false_eq_true, if_false]
  generalize TapTy.split ty = x at *
  obtain ⟨b, a⟩ := x
  simp only at hs
  subst hs
  simp only [tapInputsPart, tapInputPart, if_true, Prevouts.get, hu]

end Psbt.V0
