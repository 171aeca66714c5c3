/- Combining PSBTs v0. -/
import Verif.Model.V0.Combine
import Verif.Lemmas.Combine
import Verif.Props.V2Combine
namespace Psbt.V0
open Psbt

variable {L : Lib}

/-! ### The xpub loop is the one of PSBT v2, which also keeps what it has merged so far -/

theorem mergeXpubs_v2 (m : BMap L.xpub.T KeySource) (l : List (L.xpub.T × KeySource)) :
    match V2.mergeXpubs m l with
    | .ok m' => mergeXpubs m l = (m', .ok ())
    | .error (.panic s) => (mergeXpubs m l).2 = .error (.panic s)
    | .error (.err (.inconsistentKeySources x)) => (mergeXpubs m l).2 = .error (.err (.combineInconsistentKeySources x.bytes))
    | .error (.err _) => False := by
  induction l generalizing m with
  | nil => rfl
  | cons a rest ih =>
    obtain ⟨x, fp1, d1⟩ := a
    rw [V2.mergeXpubs, mergeXpubs]
    cases hm : m.get x with
    | none => exact ih _
    | some a =>
      obtain ⟨fp2, d2⟩ := a
      simp only
      by_cases h1 : (d1 = d2 ∧ fp1 = fp2) ∨ (d1.length < d2.length ∧ d1 = d2.drop (d2.length - d1.length))
      · rw [if_pos h1, if_pos h1]; exact ih _
      · rw [if_neg h1, if_neg h1]
        by_cases h2 : d1.length < d2.length
        · rw [if_pos h2, if_pos h2]
        · rw [if_neg h2, if_neg h2]
          by_cases h3 : d2 = d1.drop (d1.length - d2.length)
          · rw [if_pos h3, if_pos h3]; exact ih _
          · rw [if_neg h3, if_neg h3]

theorem mergeXpubs_ok {m m' : BMap L.xpub.T KeySource} {l : List (L.xpub.T × KeySource)} (hs : KSorted l) :
    mergeXpubs m l = (m', .ok ()) ↔ ∀ x, V2.mergeOpt (m.get x) (getL x l) = some (m'.get x) := by
  rw [← V2.mergeXpubs_ok hs]
  have := mergeXpubs_v2 m l
  constructor
  · intro h
    split at this
    · rename_i e; rw [h] at this; cases this; exact e
    · rw [h] at this; cases this
    · rw [h] at this; cases this
    · exact this.elim
  · intro h
    rw [h] at this
    exact this

theorem mergeXpubs_panic {m : BMap L.xpub.T KeySource} {l : List (L.xpub.T × KeySource)} (hs : KSorted l) {why : String}
    (h : (mergeXpubs m l).2 = .error (.panic why)) :
    ∃ x s t, m.get x = some s ∧ (x, t) ∈ l ∧ t.2.length < s.2.length ∧ ¬ t.2 <:+ s.2 := by
  have := mergeXpubs_v2 m l
  split at this
  · rw [this] at h; cases h
  · rename_i s e
    exact V2.mergeXpubs_panic hs e
  · rw [this] at h; cases h
  · exact this.elim

/-! ### Zips -/

theorem combineZip_getElem? {α : Type} (f : α → α → α) (as bs : List α) (k : Nat) :
    (combineZip f as bs)[k]? = match as[k]?, bs[k]? with
      | some a, some b => some (f a b)
      | a, _ => a := by
  induction as generalizing bs k with
  | nil => simp [combineZip]
  | cons a as ih =>
    cases bs with
    | nil => simp only [combineZip, List.getElem?_nil]; cases (a :: as)[k]? <;> rfl
    | cons b bs =>
      cases k with
      | zero => rfl
      | succ k => simp only [combineZip, List.getElem?_cons_succ]; exact ih bs k

theorem combineZip_length {α : Type} (f : α → α → α) (as bs : List α) : (combineZip f as bs).length = as.length := by
  induction as generalizing bs with
  | nil => rfl
  | cons a as ih => cases bs with
    | nil => rfl
    | cons b bs => simp [combineZip, ih]

theorem combineZip_self {α : Type} {f : α → α → α} (h : ∀ a, f a a = a) (as : List α) : combineZip f as as = as := by
  induction as with
  | nil => rfl
  | cons a as ih => simp [combineZip, ih, h]

/-! ### Inputs and outputs -/

theorem Input.combine_self (a : Input L) : a.combine a = a := by
  cases a; simp only [Input.combine, V2.combOpt_self, V2.combUtxos_self, BMap.extend_self]
theorem Output.combine_self (a : Output L) : a.combine a = a := by
  cases a; simp only [Output.combine, V2.combOpt_self, BMap.extend_self]

theorem Input.combine_again (a b : Input L) (h : ¬ (a.witnessUtxo = none ∧ b.witnessUtxo ≠ none ∧ b.nonWitnessUtxo ≠ none)) :
    (a.combine b).combine b = a.combine b := by
  have := V2.combUtxos_again (a := (a.nonWitnessUtxo, a.witnessUtxo)) (b := (b.nonWitnessUtxo, b.witnessUtxo)) h
  simp only [Input.combine, V2.combOpt_again, BMap.extend_extend_right, Prod.eta, this]
theorem Output.combine_again (a b : Output L) : (a.combine b).combine b = a.combine b := by
  simp only [Output.combine, V2.combOpt_again, BMap.extend_extend_right]

open Spec in
theorem merged_input (a b : Input L) : Merged [0x00] [0x00, 0x03] a.getPairs b.getPairs (a.combine b).getPairs := by
  unfold Input.getPairs Input.combine
  rw [V2.combUtxos_snd]
  repeat' apply V2.merged_flatten_cons
  all_goals first
    | exact V2.merged_opt _ _ _ _
    | exact V2.merged_map _ _ _ _ _
    | exact V2.merged_prop _ _
    | exact V2.merged_unknown _ _
    | exact V2.merged_nil
    | (apply V2.merged_keep; decide)
    | (refine V2.merged_drop _ _ _ _ _ ?_ ?_ (V2.combUtxos_fst _ _) <;> decide)

open Spec in
theorem merged_output (a b : Output L) : Merged [] [] a.getPairs b.getPairs (a.combine b).getPairs := by
  unfold Output.getPairs Output.combine
  repeat' apply V2.merged_flatten_cons
  all_goals first
    | exact V2.merged_opt _ _ _ _
    | exact V2.merged_map _ _ _ _ _
    | exact V2.merged_prop _ _
    | exact V2.merged_unknown _ _
    | exact V2.merged_nil

/-! ### Whole PSBTs -/

/-- The higher of two version numbers. -/
def vmax (a b : UInt32) : UInt32 := if a ≤ b then b else a

theorem vmax_self (a : UInt32) : vmax a a = a := by unfold vmax; split <;> rfl
theorem vmax_again (a b : UInt32) : vmax (vmax a b) b = vmax a b := by
  unfold vmax
  by_cases h : a ≤ b
  · simp [h]
  · simp [h]

theorem combine_ok {p q r : Psbt L} : p.combine q = (r, .ok ()) ↔
    p.unsignedTx = q.unsignedTx ∧ (∀ x, V2.mergeOpt (p.xpub.get x) (q.xpub.get x) = some (r.xpub.get x)) ∧
    r = { p with
      version := vmax p.version q.version
      xpub := r.xpub
      proprietary := p.proprietary.extend q.proprietary
      unknown := p.unknown.extend q.unknown
      inputs := combineZip Input.combine p.inputs q.inputs
      outputs := combineZip Output.combine p.outputs q.outputs } := by
  unfold Psbt.combine
  by_cases ht : p.unsignedTx = q.unsignedTx
  · rw [if_neg (fun h => h ht)]
    simp only [ht, true_and]
    have hm := fun m => mergeXpubs_ok (m := p.xpub) (m' := m) q.xpub.sorted
    rcases e : mergeXpubs p.xpub q.xpub.l with ⟨m, e' | u⟩
    · simp only [Prod.mk.injEq, reduceCtorEq, and_false, false_iff, not_and]
      intro h
      have := (hm r.xpub).mpr h
      rw [e] at this
      cases this
    · cases u
      have h1 := (hm m).mp e
      simp only [Prod.mk.injEq, and_true]
      constructor
      · rintro rfl
        exact ⟨h1, rfl⟩
      · rintro ⟨h2, h3⟩
        have : m = r.xpub := BMap.ext_get fun x => by
          have := (h1 x).symm.trans (h2 x)
          exact Option.some.inj this
        rw [h3, this]
        rfl
  · rw [if_pos ht]
    simp [ht]

open Spec in
theorem merged_global {p q r : Psbt L} (h : p.combine q = (r, .ok ())) : Merged [] [] p.getPairs q.getPairs r.getPairs := by
  obtain ⟨ht, hx, hr⟩ := combine_ok.mp h
  have hxp := V2.merged_xpubs (ex := []) (ey := []) hx
  have hv : Merged [] [] (if p.version > 0 then [bare PSBT_GLOBAL_VERSION (u32Codec.ser p.version)] else [])
      (if q.version > 0 then [bare PSBT_GLOBAL_VERSION (u32Codec.ser q.version)] else [])
      (if vmax p.version q.version > 0 then [bare PSBT_GLOBAL_VERSION (u32Codec.ser (vmax p.version q.version))] else []) := by
    unfold vmax
    by_cases hl : p.version ≤ q.version
    · rw [if_pos hl]
      by_cases hq : q.version > 0
      · simp only [hq, if_true]
        by_cases hp : p.version > 0
        · simp only [hp, if_true]; exact ⟨by simp, by simp [bare], by simp⟩
        · simp only [hp, if_false]; exact ⟨by simp, by simp, by simp⟩
      · have hp : ¬ p.version > 0 := by
          simp only [gt_iff_lt, UInt32.lt_iff_toNat_lt, UInt32.le_iff_toNat_le] at *; omega
        simp only [hq, hp, if_false]; exact V2.merged_nil
    · rw [if_neg hl]
      have hp : p.version > 0 := by
        simp only [gt_iff_lt, UInt32.lt_iff_toNat_lt, UInt32.le_iff_toNat_le] at *
        have : (0 : UInt32).toNat = 0 := rfl
        omega
      simp only [hp, if_true]
      by_cases hq : q.version > 0
      · simp only [hq, if_true]; exact ⟨by simp, by simp, by simp [bare]⟩
      · simp only [hq, if_false]; exact ⟨by simp, by simp, by simp⟩
  rw [hr]
  unfold Psbt.getPairs
  repeat' apply V2.merged_flatten_cons
  all_goals first
    | exact hxp
    | exact hv
    | exact V2.merged_bare _ _ _
    | exact V2.merged_prop _ _
    | exact V2.merged_unknown _ _
    | exact V2.merged_nil

end Psbt.V0
