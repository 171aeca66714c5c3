/- C119: what `sighash_msg` complains about is so. -/
import Verif.Spec.MsgTold
import Verif.Lemmas.SignTold
import Verif.Props.V0SighashMsg
import Verif.Props.SighashType
namespace Psbt.V0
open Psbt Psbt.Spec Psbt.Spec.V0

variable {L : Lib}

theorem known_or_not {p : Psbt L} (hp : Sound p) : (∃ us, Funding p.unsignedTx.input p.inputs us) ↔ ∀ j ∈ p.inputs, ¬ Unfunded j := by
  rcases prevouts_cases hp with ⟨us, -, hf⟩ | ⟨k, -, hk⟩
  · refine ⟨fun _ j hj hu => ?_, fun _ => ⟨us, hf⟩⟩
    obtain ⟨n, hn⟩ := List.getElem?_of_mem hj
    obtain ⟨t, u, hi, hu'⟩ := funding_funded hf hn
    cases hu' with
    | witness h => rw [hu.1] at h; cases h
    | nonWitness _ h _ => rw [hu.2] at h; cases h
  · refine ⟨fun ⟨us, hf⟩ => (firstUnfunded_funding hk hf).elim, fun h => ?_⟩
    obtain ⟨⟨i, hi, hu⟩, -⟩ := hk
    exact absurd hu (h i (List.mem_of_getElem? hi))

theorem legacy_some {tx : Tx} {n : Nat} {c : Bytes} {ty : EcdsaTy} (h : n < tx.input.length) :
    ∃ m, legacySighash L tx n c ty = some m := by
  unfold legacySighash
  rw [List.getElem?_eq_getElem h]
  simp only
  split <;> exact ⟨_, rfl⟩

theorem tapType_none {i : Input L} : i.taprootHashTy = none ↔ ∃ s, i.sighashType = some s ∧ s ∉ taprootTypes := by
  unfold Input.taprootHashTy
  cases i.sighashType with
  | none => simp
  | some s =>
    simp only [Option.some.injEq, exists_eq_left']
    refine ⟨taprootHashTy_types, fun h => ?_⟩
    cases ht : taprootHashTy s with
    | none => rfl
    | some ty =>
      refine absurd ?_ h
      simp only [taprootTypes, ecdsaTypes, List.mem_cons, List.not_mem_nil, or_false]
      exact ((C38_taproot s ty).2.2).mp ⟨ty, ht⟩

/-- The taproot message fails, the index and the outputs spent being in order, exactly if the type commits to an output that is
not there. -/
theorem tapSighash_told {tx : Tx} {n : Nat} {us : List TxOut} {leaf : Option Hash32} {ty : TapTy} (hl : us.length = tx.input.length)
    (hn : n < tx.input.length) (e : TaprootErr) : tapSighash L tx n (.all us) leaf ty = .error e ↔
      e = .singleMissingOutput ∧ tapCommitsOutput ty ∧ tx.output.length ≤ n := by
  have hb : tapCommitsOutput ty ↔ (TapTy.split ty).1 = .single := by
    unfold tapCommitsOutput TapTy.split
    rcases tapTy_cases ty with h | h | h | h | h | h | h <;> rw [h] <;> decide
  obtain ⟨t, ht⟩ : ∃ t, tx.input[n]? = some t := ⟨_, List.getElem?_eq_getElem hn⟩
  obtain ⟨u, hu⟩ : ∃ u, us[n]? = some u := ⟨_, List.getElem?_eq_getElem (hl ▸ hn)⟩
  have h1 : ∀ a, ∃ x, tapInputsPart L tx a (.all us) = .ok x := by
    intro a; cases a <;> exact ⟨_, rfl⟩
  have h2 : ∀ a, ∃ x, tapInputPart tx n a (.all us) = .ok x := by
    intro a
    cases a
    · exact ⟨_, rfl⟩
    · unfold tapInputPart Prevouts.get
      simp only [if_true, ht, hu]
      exact ⟨_, rfl⟩
  have h3 : ∀ x, tapOutputPart L tx n (TapTy.split ty).1 = .error x ↔
      x = .singleMissingOutput ∧ tapCommitsOutput ty ∧ tx.output.length ≤ n := by
    intro x
    rw [hb]
    refine ⟨fun h => ?_, fun ⟨ha, hs, ho⟩ => ?_⟩
    · rw [← hb]; exact outputPart_err h
    · unfold tapOutputPart
      rw [if_pos hs, List.getElem?_eq_none_iff.mpr ho, ha]
  rw [← h3]
  obtain ⟨x1, h1⟩ := h1 (TapTy.split ty).2
  obtain ⟨x2, h2⟩ := h2 (TapTy.split ty).2
  unfold tapSighash tapPreimage
  rw [if_neg (by simpa using hl)]
  simp only [h1, h2, ok_bind]
  cases tapOutputPart L tx n (TapTy.split ty).1 with
  | error x => simp
  | ok x => simp

theorem ecdsaMsg_told {tx : Tx} {n : Nat} {i : Input L} {u : TxOut} {ty : EcdsaTy} (hn : n < tx.input.length) (e : SighashErr) :
    ecdsaMsg tx n i u ty = .error (.err e) ↔
      (e = .missingWitnessScript ∧ i.witnessScript = none ∧
        (SpendType u.scriptPubkey i.redeemScript .wsh ∨ SpendType u.scriptPubkey i.redeemScript .shWsh)) ∨
      (e = .missingRedeemScript ∧ i.redeemScript = none ∧ SpendType u.scriptPubkey i.redeemScript .sh) := by
  have hp : ∀ {s : Bytes} {v e'}, P2wpkh s → p2wpkhSighash L tx n s v ty ≠ .error e' := by
    intro s v e' hs h
    have := ((p2wpkh_err hs e').mp h).2
    omega
  have hw : ∀ {c v}, segwitSighash L tx n c v ty ≠ none := fun h => by rw [segwit_none] at h; omega
  have hl : ∀ {c}, legacySighash L tx n c ty ≠ none := fun {c} h => by
    obtain ⟨m, hm⟩ := legacy_some (L := L) (c := c) (ty := ty) hn; rw [h] at hm; cases hm
  unfold ecdsaMsg
  by_cases h1 : P2wpkh u.scriptPubkey
  · have ht : SpendType u.scriptPubkey i.redeemScript .wpkh := .wpkh h1
    have hno : ∀ {o}, SpendType u.scriptPubkey i.redeemScript o → o = .wpkh := fun h => V2.spendType_unique h ht
    simp only [isP2wpkh_iff.mpr h1, Bool.true_or, if_true]
    cases hs : p2wpkhSighash L tx n u.scriptPubkey u.value ty with
    | error x => exact absurd hs (hp h1)
    | ok m =>
      simp only [reduceCtorEq, false_iff, not_or]
      refine ⟨?_, ?_⟩
      · rintro ⟨-, -, h | h⟩ <;> cases hno h
      · rintro ⟨-, -, h⟩; cases hno h
  by_cases h2 : P2wsh u.scriptPubkey
  · have ht : SpendType u.scriptPubkey i.redeemScript .wsh := .wsh h2
    have hno : ∀ {o}, SpendType u.scriptPubkey i.redeemScript o → o = .wsh := fun h => V2.spendType_unique h ht
    have h3 : ¬ P2sh u.scriptPubkey := fun h3 => by
      obtain ⟨a, ha⟩ := h2
      obtain ⟨b, hb⟩ := h3
      rw [ha] at hb
      cases hb
    simp only [not_wpkh h1, isP2wsh_iff.mpr h2, not_sh h3, Bool.true_or, Bool.or_true, Bool.false_and, Bool.false_or, if_true,
      Bool.false_eq_true, if_false]
    cases hws : i.witnessScript with
    | none =>
      simp only [Except.error.injEq, Fail.err.injEq]
      constructor
      · rintro rfl; exact .inl ⟨rfl, by simp, .inl ht⟩
      · rintro (⟨rfl, -⟩ | ⟨-, -, h⟩)
        · rfl
        · cases hno h
    | some w =>
      simp only
      cases hs : segwitSighash L tx n w u.value ty with
      | none => exact absurd hs hw
      | some m =>
        simp only [reduceCtorEq, false_iff, not_or]
        refine ⟨?_, ?_⟩
        · rintro ⟨-, h, -⟩; cases h
        · rintro ⟨-, -, h⟩; cases hno h
  by_cases h3 : P2sh u.scriptPubkey
  · simp only [not_wpkh h1, not_wsh h2, isP2sh_iff.mpr h3, Bool.true_and, Bool.false_or, Bool.false_eq_true, if_false]
    cases hr : i.redeemScript with
    | none =>
      have ht : SpendType u.scriptPubkey none .sh := .sh h3 (by simp)
      have hno : ∀ {o}, SpendType u.scriptPubkey none o → o = .sh := fun h => V2.spendType_unique h ht
      simp only [Option.map_none, Option.getD_none, Bool.or_self, Bool.false_eq_true, if_false, if_true, Except.error.injEq, Fail.err.injEq]
      constructor
      · rintro rfl; exact .inr ⟨rfl, by simp, ht⟩
      · rintro (⟨-, -, h | h⟩ | ⟨rfl, -, -⟩)
        · cases hno h
        · cases hno h
        · rfl
    | some r =>
      simp only [Option.map_some, Option.getD_some]
      by_cases h4 : P2wpkh r
      · have ht : SpendType u.scriptPubkey (some r) .shWpkh := .shWpkh h3 rfl h4
        have hno : ∀ {o}, SpendType u.scriptPubkey (some r) o → o = .shWpkh := fun h => V2.spendType_unique h ht
        simp only [isP2wpkh_iff.mpr h4, Bool.true_or, if_true]
        cases hs : p2wpkhSighash L tx n r u.value ty with
        | error x => exact absurd hs (hp h4)
        | ok m =>
          simp only [reduceCtorEq, false_iff, not_or]
          refine ⟨?_, ?_⟩
          · rintro ⟨-, -, h | h⟩ <;> cases hno h
          · rintro ⟨-, h, -⟩; cases h
      · by_cases h5 : P2wsh r
        · have ht : SpendType u.scriptPubkey (some r) .shWsh := .shWsh h3 rfl h5
          simp only [not_wpkh h4, isP2wsh_iff.mpr h5, Bool.false_or, if_true, Bool.false_eq_true, if_false]
          cases hws : i.witnessScript with
          | none =>
            simp only [Except.error.injEq, Fail.err.injEq]
            constructor
            · rintro rfl; exact .inl ⟨rfl, by simp, .inr ht⟩
            · rintro (⟨rfl, -⟩ | ⟨-, h, -⟩)
              · rfl
              · cases h
          | some w =>
            simp only
            cases hs : segwitSighash L tx n w u.value ty with
            | none => exact absurd hs hw
            | some m => simp
        · have ht : SpendType u.scriptPubkey (some r) .sh := .sh h3 (by rintro r' h; cases h; exact ⟨h4, h5⟩)
          have hno : ∀ {o}, SpendType u.scriptPubkey (some r) o → o = .sh := fun h => V2.spendType_unique h ht
          simp only [not_wpkh h4, not_wsh h5, Bool.or_self, Bool.false_eq_true, if_false, if_true]
          cases hs : legacySighash L tx n r ty with
          | none => exact absurd hs hl
          | some m =>
            simp only [reduceCtorEq, false_iff, not_or]
            refine ⟨?_, ?_⟩
            · rintro ⟨-, -, h | h⟩ <;> cases hno h
            · rintro ⟨-, h, -⟩; cases h
  · simp only [not_wpkh h1, not_wsh h2, not_sh h3, Bool.false_and, Bool.or_self, Bool.false_eq_true, if_false]
    cases hs : legacySighash L tx n u.scriptPubkey ty with
    | none => exact absurd hs hl
    | some m =>
      simp only [reduceCtorEq, false_iff, not_or]
      refine ⟨?_, ?_⟩
      · rintro ⟨-, -, h | h⟩
        · cases h with | wsh h => exact h2 h
        · cases h with | shWsh h _ _ => exact h3 h
      · rintro ⟨-, -, h⟩
        cases h with | sh h _ => exact h3 h

/-- C119. `sighash_msg` gives an error if and only if what the error names is so. -/
theorem C119_told {p : Psbt L} (hp : Sound p) (n : Nat) (leaf : Option Hash32) (e : SighashErr) :
    p.sighashMsg n p.unsignedTx leaf = .error (.err e) ↔ MsgFault p n e := by
  by_cases hn : n < p.inputs.length
  case neg =>
    have h0 : p.sighashMsg n p.unsignedTx leaf = .error (.err (.indexOutOfBounds n p.inputs.length)) := by
      unfold Psbt.sighashMsg
      rw [if_pos (by omega)]
    have hk : ∀ {i u}, ¬ AllKnown p n i u := fun ⟨_, t, h, _⟩ => hn (List.getElem?_eq_some_iff.mp h.2).1
    rw [h0]
    constructor
    · intro h; cases h; exact .index (by omega)
    · intro h
      cases h with
      | index _ => rfl
      | funding h _ _ => exact absurd h hn
      | tapType h _ _ _ => exact absurd h hk
      | noOutput h _ _ _ _ => exact absurd h hk
      | ecdsaType h _ _ _ => exact absurd h hk
      | witnessScript h _ _ _ _ => exact absurd h hk
      | redeemScript h _ _ _ => exact absurd h hk
  by_cases hf : ∃ us, Funding p.unsignedTx.input p.inputs us
  case neg =>
    rw [sighashMsg_unfunded hp hn fun us h => hf ⟨us, h⟩]
    rw [known_or_not hp] at hf
    have hk : ∀ {i u}, ¬ AllKnown p n i u := fun ⟨h, _⟩ => hf h
    simp only [Classical.not_forall, Classical.not_not] at hf
    obtain ⟨j, hj, hu⟩ := hf
    constructor
    · intro h; cases h; exact .funding hn hj hu
    · intro h
      cases h with
      | index h => omega
      | funding _ _ _ => rfl
      | tapType h _ _ _ => exact absurd h hk
      | noOutput h _ _ _ _ => exact absurd h hk
      | ecdsaType h _ _ _ => exact absurd h hk
      | witnessScript h _ _ _ _ => exact absurd h hk
      | redeemScript h _ _ _ => exact absurd h hk
  have hall := (known_or_not hp).mp hf
  obtain ⟨us, hf⟩ := hf
  obtain ⟨i, hi⟩ : ∃ i, p.inputs[n]? = some i := ⟨_, List.getElem?_eq_getElem hn⟩
  obtain ⟨t, u, hi, hu⟩ := funding_funded hf hi
  have hlen : us.length = p.unsignedTx.input.length := (funding_iff.mp hf).1.symm
  have hk : AllKnown p n i u := ⟨hall, t, hi, hu⟩
  have hku : ∀ {i' u'}, AllKnown p n i' u' → i' = i ∧ u' = u := by
    rintro i' u' ⟨-, t', h1, h2⟩
    obtain ⟨rfl, rfl⟩ := hasInput_unique hi h1
    exact ⟨rfl, fundedBy_unique h2 hu⟩
  have hnt : n < p.unsignedTx.input.length := hp.1 ▸ hn
  rw [sighashMsg_eq hp hi hu hf]
  by_cases htr : P2tr u.scriptPubkey
  · rw [if_pos (isP2tr_iff.mpr htr)]
    have hno : ∀ {o}, SpendType u.scriptPubkey i.redeemScript o → o = .tr := fun h => V2.spendType_unique h (.tr htr)
    cases hty : i.taprootHashTy with
    | none =>
      obtain ⟨s, h1, h2⟩ := tapType_none.mp hty
      simp only
      constructor
      · intro h; cases h; exact .tapType hk htr h1 h2
      · intro h
        cases h with
        | index h => omega
        | funding _ h1 h2 => exact absurd h2 (hall _ h1)
        | tapType _ _ _ _ => rfl
        | ecdsaType _ _ _ _ => rfl
        | noOutput h _ h' _ _ =>
          obtain ⟨rfl, rfl⟩ := hku h
          rw [inputTapHashTy_iff.mpr h'] at hty; cases hty
        | witnessScript h h' ht _ _ =>
          obtain ⟨rfl, rfl⟩ := hku h
          cases hno h'
          rcases ht with h | h <;> cases h
        | redeemScript h h' _ _ =>
          obtain ⟨rfl, rfl⟩ := hku h
          cases hno h'
    | some ty =>
      simp only
      have hd := inputTapHashTy_iff.mp hty
      constructor
      · intro h
        cases hs : tapSighash L p.unsignedTx n (.all us) leaf ty with
        | ok m => rw [hs] at h; cases h
        | error x =>
          rw [hs] at h
          cases h
          obtain ⟨rfl, h1, h2⟩ := (tapSighash_told hlen hnt x).mp hs
          exact .noOutput hk htr hd h1 h2
      · intro h
        cases h with
        | index h => omega
        | funding _ h1 h2 => exact absurd h2 (hall _ h1)
        | tapType h _ h1 h2 =>
          obtain ⟨rfl, rfl⟩ := hku h
          rw [tapType_none.mpr ⟨_, h1, h2⟩] at hty; cases hty
        | ecdsaType h h' _ _ => obtain ⟨rfl, rfl⟩ := hku h; exact absurd htr h'
        | noOutput h _ h' h1 h2 =>
          obtain ⟨rfl, rfl⟩ := hku h
          rw [inputTapHashTy_iff.mpr h'] at hty
          cases hty
          rw [(tapSighash_told hlen hnt _).mpr ⟨rfl, h1, h2⟩]
        | witnessScript h h' ht _ _ =>
          obtain ⟨rfl, rfl⟩ := hku h
          cases hno h'
          rcases ht with h | h <;> cases h
        | redeemScript h h' _ _ =>
          obtain ⟨rfl, rfl⟩ := hku h
          cases hno h'
  · rw [if_neg (by rw [isP2tr_iff]; exact htr)]
    cases hty : i.ecdsaHashTy with
    | none =>
      obtain ⟨s, h1, h2⟩ := inputHashTy_none.mp hty
      simp only
      constructor
      · intro h; cases h; exact .ecdsaType hk htr h1 h2
      · intro h
        cases h with
        | index h => omega
        | funding _ h1 h2 => exact absurd h2 (hall _ h1)
        | tapType _ _ _ _ => rfl
        | ecdsaType _ _ _ _ => rfl
        | noOutput h h' _ _ _ => obtain ⟨rfl, rfl⟩ := hku h; exact absurd h' htr
        | witnessScript h _ _ h' _ =>
          obtain ⟨rfl, rfl⟩ := hku h
          rw [inputHashTy_iff.mpr h'] at hty; cases hty
        | redeemScript h _ h' _ =>
          obtain ⟨rfl, rfl⟩ := hku h
          rw [inputHashTy_iff.mpr h'] at hty; cases hty
    | some ty =>
      have hd := inputHashTy_iff.mp hty
      simp only
      rw [ecdsaMsg_told hnt]
      constructor
      · rintro (⟨rfl, h1, h2 | h2⟩ | ⟨rfl, h1, h2⟩)
        · exact .witnessScript hk h2 (.inl rfl) hd h1
        · exact .witnessScript hk h2 (.inr rfl) hd h1
        · exact .redeemScript hk h2 hd h1
      · intro h
        cases h with
        | index h => omega
        | funding _ h1 h2 => exact absurd h2 (hall _ h1)
        | tapType h h' _ _ => obtain ⟨rfl, rfl⟩ := hku h; exact absurd h' htr
        | ecdsaType h _ h1 h2 =>
          obtain ⟨rfl, rfl⟩ := hku h
          rw [inputHashTy_none.mpr ⟨_, h1, h2⟩] at hty; cases hty
        | noOutput h h' _ _ _ => obtain ⟨rfl, rfl⟩ := hku h; exact absurd h' htr
        | witnessScript h h1 h2 _ h3 =>
          obtain ⟨rfl, rfl⟩ := hku h
          rcases h2 with rfl | rfl
          · exact .inl ⟨rfl, h3, .inl h1⟩
          · exact .inl ⟨rfl, h3, .inr h1⟩
        | redeemScript h h1 _ h3 =>
          obtain ⟨rfl, rfl⟩ := hku h
          exact .inr ⟨rfl, h3, h1⟩

section Examples
/-- All these errors are given. -/
example : MsgFault (gP [gTap, { gTap with sighashType := some 3 }]) 1 (.taproot .singleMissingOutput) :=
  (C119_told (zSound _ (by decide)) _ none _).mp (by decide +kernel)
example : MsgFault (gP [gTap, { gTap with sighashType := some 4 }]) 1 .invalidSighashType :=
  (C119_told (zSound _ (by decide)) _ none _).mp (by decide +kernel)
example : MsgFault (gP [{ zIn with sighashType := some 0 }, gTap]) 0 .invalidSighashType :=
  (C119_told (zSound _ (by decide)) _ none _).mp (by decide +kernel)
example : MsgFault (gP [gIn V2.spkWsh, gTap]) 0 .missingWitnessScript :=
  (C119_told (zSound _ (by decide)) _ none _).mp (by decide +kernel)
example : MsgFault (gP [gTap, gIn V2.spkSh]) 1 .missingRedeemScript :=
  (C119_told (zSound _ (by decide)) _ none _).mp (by decide +kernel)
example : MsgFault (gP [zIn, Input.default gL]) 0 .missingSpendUtxos := .funding (by decide) (List.mem_cons_of_mem _ List.mem_cons_self) ⟨rfl, rfl⟩
example : (gP [zIn, gTap]).sighashMsg 2 (gP [zIn, gTap]).unsignedTx none = .error (.err (.indexOutOfBounds 2 2)) :=
  (C119_told (zSound _ (by decide)) _ none _).mpr (.index (by decide))
end Examples

end Psbt.V0
