/- C70: the message to sign that `sighash_msg` gives. -/
import Verif.Lemmas.V0SighashMsg
import Verif.Props.V0Finalize
import Verif.Props.V0Taproot
namespace Psbt.V0
open Psbt Psbt.Spec Psbt.Spec.V0

variable {L : Lib}

/-- C70. The message is the one signing uses for the input, of the kind the type of spend asks for, and it is given exactly
if the outputs spent by all inputs are known. -/
theorem C70_msg_iff {p : Psbt L} (hp : Sound p) (n : Nat) (leaf : Option Hash32) (m : SighashMsg) :
    p.sighashMsg n p.unsignedTx leaf = .ok m ↔ (∃ us, Funding p.unsignedTx.input p.inputs us) ∧ MsgFor p n leaf m := by
  by_cases hn : n < p.inputs.length
  case neg =>
    constructor
    · intro h
      unfold Psbt.sighashMsg at h
      rw [if_pos (by omega)] at h
      cases h
    · rintro ⟨-, h⟩
      have : ∃ t i, HasInput p n t i := by
        cases h with
        | tap h => obtain ⟨t, i, u, h, -⟩ := h; exact ⟨t, i, h⟩
        | segwit h _ _ _ _ => exact ⟨_, _, h⟩
        | legacy h _ _ _ _ => exact ⟨_, _, h⟩
        | unknown h _ _ _ _ => exact ⟨_, _, h⟩
      obtain ⟨t, i, hi⟩ := this
      exact absurd (List.getElem?_eq_some_iff.mp hi.2).1 hn
  by_cases hf : ∃ us, Funding p.unsignedTx.input p.inputs us
  case neg =>
    rw [sighashMsg_unfunded hp hn fun us h => hf ⟨us, h⟩]
    simp [hf]
  obtain ⟨us, hf⟩ := hf
  obtain ⟨i, hi⟩ : ∃ i, p.inputs[n]? = some i := ⟨_, List.getElem?_eq_getElem hn⟩
  obtain ⟨t, u, hi, hu⟩ := funding_funded hf hi
  have hus : us[n]? = some u := by
    obtain ⟨h1, h2, h3⟩ := funding_iff.mp hf
    have hl : n < us.length := by omega
    obtain ⟨t', i', g1, g2, g3⟩ := h3 n _ (List.getElem?_eq_getElem hl)
    obtain ⟨rfl, rfl⟩ := hasInput_unique hi ⟨g1, g2⟩
    rw [List.getElem?_eq_getElem hl, fundedBy_unique g3 hu]
  have hlen : us.length = p.unsignedTx.input.length := (funding_iff.mp hf).1.symm
  rw [sighashMsg_eq hp hi hu hf]
  have hfe : ∃ us, Funding p.unsignedTx.input p.inputs us := ⟨us, hf⟩
  simp only [hfe, true_and]
  by_cases htr : P2tr u.scriptPubkey
  · rw [if_pos (isP2tr_iff.mpr htr)]
    have hno : ∀ {o}, SpendType u.scriptPubkey i.redeemScript o → o = .tr := fun h => V2.spendType_unique h (.tr htr)
    constructor
    · intro h
      cases hty : i.taprootHashTy with
      | none => simp only [hty] at h; cases h
      | some ty =>
        simp only [hty] at h
        cases hs : tapSighash L p.unsignedTx n (.all us) leaf ty with
        | error e => simp only [hs] at h; cases h
        | ok m' =>
          simp only [hs] at h
          cases h
          refine .tap ⟨t, i, u, hi, hu, htr, inputTapHashTy_iff.mp hty, ?_⟩
          rcases tapTy_cases ty with h | h | h | h | h | h | h
          case inr.inr.inr.inr.inl | inr.inr.inr.inr.inr.inl | inr.inr.inr.inr.inr.inr =>
            have ha : ty.1 = 0x81 ∨ ty.1 = 0x82 ∨ ty.1 = 0x83 := by simp [h]
            exact .inl ⟨ha, by rw [← tapSighash_acp ha hlen hus]; exact hs⟩
          all_goals exact .inr ⟨by simp [h], us, hf, hs⟩
    · intro h
      cases h with
      | tap h =>
        obtain ⟨t', i', u', g1, g2, g3, g4, g5⟩ := h
        obtain ⟨rfl, rfl⟩ := hasInput_unique hi g1
        cases fundedBy_unique hu g2
        simp only [inputTapHashTy_iff.mpr g4]
        rcases g5 with ⟨ha, g5⟩ | ⟨-, us', k1, k2⟩
        · rw [tapSighash_acp ha hlen hus, g5]
        · rw [funding_unique hf k1, k2]
      | segwit h1 h2 h3 h4 h5 =>
        obtain ⟨rfl, rfl⟩ := hasInput_unique hi h1
        cases fundedBy_unique hu h2
        cases hno h3
        exact h4.elim
      | legacy h1 h2 h3 h4 h5 =>
        obtain ⟨t', i', u', g1, g2, g3, g4⟩ := h5
        obtain ⟨rfl, rfl⟩ := hasInput_unique hi g1
        cases fundedBy_unique hu g2
        cases g4 with
        | wpkh e1 e2 => cases hno (.wpkh ⟨_, e1⟩)
        | bare h1 h2 => cases hno h1
        | sh h1 h2 h3 => cases hno h1
        | shWpkh h1 h2 h3 => cases hno (.shWpkh h1 h2 ⟨_, rfl⟩)
        | wsh h1 _ _ => cases hno (.wsh h1)
        | shWsh h1 h2 h3 h4 h5 => cases hno (.shWsh h1 h2 h3)
      | unknown h1 h2 h3 _ _ =>
        obtain ⟨rfl, rfl⟩ := hasInput_unique hi h1
        cases fundedBy_unique hu h2
        exact (h3 _ (.tr htr)).elim
  · rw [if_neg (by rw [isP2tr_iff]; exact htr)]
    have hnt : ∀ h ty, ¬ TapSigns p n leaf h ty := by
      rintro h ty ⟨t', i', u', g1, g2, g3, -⟩
      obtain ⟨rfl, rfl⟩ := hasInput_unique hi g1
      cases fundedBy_unique hu g2
      exact htr g3
    by_cases ho : ∃ o, SpendType u.scriptPubkey i.redeemScript o
    · obtain ⟨o, ho⟩ := ho
      have hot : o ≠ .tr := fun h => by subst h; cases ho with | tr h => exact htr h
      constructor
      · intro h
        cases hty : i.ecdsaHashTy with
        | none => simp only [hty] at h; cases h
        | some ty =>
          simp only [hty] at h
          obtain ⟨h', hm, ⟨g1, rfl⟩ | ⟨g1, rfl⟩⟩ := (ecdsaMsg_known ho hot m).mp h
          · exact .segwit hi hu ho g1 ⟨t, i, u, hi, hu, inputHashTy_iff.mp hty, hm⟩
          · exact .legacy hi hu ho g1 ⟨t, i, u, hi, hu, inputHashTy_iff.mp hty, hm⟩
      · intro h
        cases h with
        | tap h => exact (hnt _ _ h).elim
        | segwit h1 h2 h3 h4 h5 =>
          obtain ⟨rfl, rfl⟩ := hasInput_unique hi h1
          cases fundedBy_unique hu h2
          cases V2.spendType_unique ho h3
          obtain ⟨t', i', u', g1, g2, g3, g4⟩ := h5
          obtain ⟨rfl, rfl⟩ := hasInput_unique hi g1
          cases fundedBy_unique hu g2
          simp only [inputHashTy_iff.mpr g3]
          exact (ecdsaMsg_known ho hot _).mpr ⟨_, g4, .inl ⟨h4, rfl⟩⟩
        | legacy h1 h2 h3 h4 h5 =>
          obtain ⟨rfl, rfl⟩ := hasInput_unique hi h1
          cases fundedBy_unique hu h2
          cases V2.spendType_unique ho h3
          obtain ⟨t', i', u', g1, g2, g3, g4⟩ := h5
          obtain ⟨rfl, rfl⟩ := hasInput_unique hi g1
          cases fundedBy_unique hu g2
          simp only [inputHashTy_iff.mpr g3]
          exact (ecdsaMsg_known ho hot _).mpr ⟨_, g4, .inr ⟨h4, rfl⟩⟩
        | unknown h1 h2 h3 _ _ =>
          obtain ⟨rfl, rfl⟩ := hasInput_unique hi h1
          cases fundedBy_unique hu h2
          exact (h3 _ ho).elim
    · have ho : ∀ o, ¬ SpendType u.scriptPubkey i.redeemScript o := fun o h => ho ⟨o, h⟩
      constructor
      · intro h
        cases hty : i.ecdsaHashTy with
        | none => simp only [hty] at h; cases h
        | some ty =>
          simp only [hty] at h
          obtain ⟨h', hm, rfl⟩ := (ecdsaMsg_unknown ho m).mp h
          exact .unknown hi hu ho (inputHashTy_iff.mp hty) hm
      · intro h
        cases h with
        | tap h => exact (hnt _ _ h).elim
        | segwit h1 h2 h3 h4 h5 =>
          obtain ⟨rfl, rfl⟩ := hasInput_unique hi h1
          cases fundedBy_unique hu h2
          exact (ho _ h3).elim
        | legacy h1 h2 h3 h4 h5 =>
          obtain ⟨rfl, rfl⟩ := hasInput_unique hi h1
          cases fundedBy_unique hu h2
          exact (ho _ h3).elim
        | unknown h1 h2 h3 h4 h5 =>
          obtain ⟨rfl, rfl⟩ := hasInput_unique hi h1
          cases fundedBy_unique hu h2
          simp only [inputHashTy_iff.mpr h4]
          exact (ecdsaMsg_unknown ho _).mpr ⟨_, h5, rfl⟩

/-- C70. If all outputs spent are known and of known type, `sighash_msg` gives a message exactly if signing has one. -/
theorem C70_agrees {p : Psbt L} (hp : Sound p) {n : Nat} {us : List TxOut} (hf : Funding p.unsignedTx.input p.inputs us)
    (leaf : Option Hash32) (h : Hash32) :
    (p.sighashMsg n p.unsignedTx leaf = .ok (.tap h) ↔ ∃ ty, p.sighashTaproot n p.unsignedTx leaf = .ok (h, ty)) ∧
    (SpendsEcdsa p n → ((p.sighashMsg n p.unsignedTx leaf = .ok (.legacy h) ∨ p.sighashMsg n p.unsignedTx leaf = .ok (.segwitV0 h)) ↔
      ∃ ty, p.sighashEcdsa n p.unsignedTx = .ok (h, ty))) := by
  have hfe : ∃ us, Funding p.unsignedTx.input p.inputs us := ⟨us, hf⟩
  simp only [C70_msg_iff hp, hfe, true_and]
  constructor
  · simp only [sighashTaproot_iff hp.2]
    constructor
    · intro h; cases h with | tap h => exact ⟨_, h⟩
    · rintro ⟨ty, h⟩; exact .tap h
  · rintro ⟨t, i, u, o, h1, h2, h3, h4⟩
    simp only [sighashEcdsa_iff]
    constructor
    · rintro (h | h)
      · cases h with
        | legacy _ _ _ _ h => exact ⟨_, h⟩
        | unknown g1 g2 g3 _ _ =>
          obtain ⟨rfl, rfl⟩ := hasInput_unique h1 g1
          cases fundedBy_unique h2 g2
          exact (g3 _ h3).elim
      · cases h with
        | segwit _ _ _ _ h => exact ⟨_, h⟩
    · rintro ⟨ty, h⟩
      by_cases hs : segwitV0 o
      · exact .inr (.segwit h1 h2 h3 hs h)
      · exact .inl (.legacy h1 h2 h3 hs h)

/-- C70. There is no panic. -/
theorem C70_no_panic {p : Psbt L} (hp : Sound p) (n : Nat) (tx : Tx) (leaf : Option Hash32) (s : String) :
    p.sighashMsg n tx leaf ≠ .error (.panic s) := by
  by_cases hn : n < p.inputs.length
  case neg =>
    unfold Psbt.sighashMsg
    rw [if_pos (by omega)]
    simp
  by_cases hf : ∃ us, Funding p.unsignedTx.input p.inputs us
  case neg =>
    rw [sighashMsg_unfunded hp hn fun us h => hf ⟨us, h⟩]
    simp
  obtain ⟨us, hf⟩ := hf
  obtain ⟨i, hi⟩ : ∃ i, p.inputs[n]? = some i := ⟨_, List.getElem?_eq_getElem hn⟩
  obtain ⟨t, u, hi, hu⟩ := funding_funded hf hi
  rw [sighashMsg_eq hp hi hu hf]
  split
  · split
    · simp
    · split <;> simp
  · split
    · simp
    · unfold ecdsaMsg
      simp only
      split
      · split
        · split <;> simp
        · split
          · rename_i hc
            cases hr : i.redeemScript with
            | none => rw [hr] at hc; simp at hc
            | some r => simp only; split <;> simp
          · split
            · simp
            · split <;> simp
      · split
        · split
          · simp
          · split <;> simp
        · split <;> simp

/-- C70 fails where an output spent by another input is not known: signing has a message for the input, `sighash_msg` has
none. (This is needed for taproot only.) -/
theorem C70_other_unknown_counterexample : ∃ (p : Psbt gL) (h : Hash32) (ty : EcdsaTy), Sound p ∧
    p.sighashEcdsa 0 p.unsignedTx = .ok (h, ty) ∧ p.sighashMsg 0 p.unsignedTx none = .error (.err .missingSpendUtxos) :=
  ⟨gP [zIn, Input.default gL], match (gP [zIn, Input.default gL]).sighashEcdsa 0 (gP [zIn, Input.default gL]).unsignedTx with
    | .ok (h, _) => h
    | _ => Demo.rep 32 0, ⟨1, by decide⟩, zSound _ (by decide), by decide +kernel, by decide +kernel⟩

def zMsg (p : Psbt gL) (n : Nat) : Option SighashMsg := match p.sighashMsg n p.unsignedTx none with | .ok m => some m | _ => none
-- All kinds occur; the last input has a witness version that is not known.
example : ((List.range 4).map fun n => match zMsg (gP [zIn, gTap, gIn [7, 8], gIn V2.spkUnknown]) n with
    | some (.tap _) => "tap" | some (.legacy _) => "legacy" | some (.segwitV0 _) => "segwit" | none => "none") =
    ["segwit", "tap", "legacy", "legacy"] := by decide +kernel
example : ∃ us, Funding (gP [zIn, gTap]).unsignedTx.input (gP [zIn, gTap]).inputs us :=
  ⟨_, .cons (.witness rfl) (.cons (.witness rfl) .nil)⟩
example : SpendsEcdsa (gP [zIn, gTap]) 0 :=
  ⟨_, zIn, _, .wpkh, ⟨rfl, rfl⟩, .witness rfl, .wpkh (isP2wpkh_iff.mp (by decide +kernel)), by decide⟩

end Psbt.V0
