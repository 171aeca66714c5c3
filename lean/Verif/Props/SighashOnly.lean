/- C37: a signature message depends on nothing beyond what its type covers. -/
import Verif.Props.V2Sighash
namespace Psbt
open Psbt

variable {L : Lib}

theorem split_cases (ty : EcdsaTy) :
    (EcdsaTy.split ty).2 = true ∨ Spec.commitsInputs ty := by
  rcases V2.ecdsaTy_cases ty with h | h | h | h | h | h <;> simp [EcdsaTy.split, h, Spec.commitsInputs]

/-- C37. The bytes hashed for a segwit message are the ten items of BIP-143 in order. -/
theorem C37_segwit_layout {tx : Tx} {n : Nat} {inp : TxIn} (h : tx.input[n]? = some inp) (code : Bytes) (v : UInt64) (ty : EcdsaTy) :
    segwitSighash L tx n code v ty = some (L.sha256d (Spec.bip143 L tx n inp code v ty.1).flatten) := by
  unfold segwitSighash
  rw [h]
  simp only [Option.some.injEq]
  rw [V2.bip143_eq]

/-- C37. The other direction of `C37_segwit_commits`: two transactions that agree on what the type covers have the same
message, whatever the rest is. -/
theorem C37_segwit_covers_only {tx tx' : Tx} {n n' : Nat} {a b : TxIn} {ty : EcdsaTy} (code : Bytes) (v : UInt64)
    (hv : tx.version = tx'.version) (hl : tx.lockTime = tx'.lockTime)
    (ha : tx.input[n]? = some a) (hb : tx'.input[n']? = some b)
    (hp : a.previousOutput = b.previousOutput) (hq : a.sequence = b.sequence)
    (h1 : Spec.commitsInputs ty → tx.input.map TxIn.previousOutput = tx'.input.map TxIn.previousOutput)
    (h2 : Spec.commitsSequences ty → tx.input.map TxIn.sequence = tx'.input.map TxIn.sequence)
    (h3 : Spec.commitsOutputs ty → tx.output = tx'.output)
    (h4 : Spec.commitsOutput ty → tx.output[n]? = tx'.output[n']?) :
    segwitSighash L tx n code v ty = segwitSighash L tx' n' code v ty := by
  unfold segwitSighash
  rw [ha, hb]
  simp only [Option.some.injEq]
  congr 1
  unfold segwitPreimage
  have e1 : Spec.commitsInputs ty → tx.input.flatMap (fun i => encOutPoint i.previousOutput) = tx'.input.flatMap (fun i => encOutPoint i.previousOutput) := by
    intro h
    have := congrArg (List.flatMap encOutPoint) (h1 h)
    simpa only [List.flatMap_map] using this
  have e2 : Spec.commitsSequences ty → tx.input.flatMap (fun i => encU32 i.sequence) = tx'.input.flatMap (fun i => encU32 i.sequence) := by
    intro h
    have := congrArg (List.flatMap encU32) (h2 h)
    simpa only [List.flatMap_map] using this
  have e4 : Spec.commitsOutput ty → singleOutputHash L tx n = singleOutputHash L tx' n' := by
    intro h
    unfold singleOutputHash
    rw [h4 h]
  rw [hv, hl, hp, hq]
  rcases V2.ecdsaTy_cases ty with h | h | h | h | h | h
  · simp [EcdsaTy.split, h, e1 (.inl h), e2 h, h3 (.inl h)]
  · simp [EcdsaTy.split, h, e1 (.inr (.inl h))]
  · simp [EcdsaTy.split, h, e1 (.inr (.inr h)), e4 (.inl h)]
  · simp [EcdsaTy.split, h, h3 (.inr h)]
  · simp [EcdsaTy.split, h]
  · simp [EcdsaTy.split, h, e4 (.inr h)]

theorem mapIdx_congr {α β : Type} {f g : Nat → α → β} {l m : List α} (hl : l.length = m.length)
    (h : ∀ k x y, l[k]? = some x → m[k]? = some y → f k x = g k y) : l.mapIdx f = m.mapIdx g := by
  apply List.ext_getElem?
  intro k
  simp only [List.getElem?_mapIdx]
  cases e1 : l[k]? with
  | none =>
    have : m[k]? = none := by rw [List.getElem?_eq_none_iff] at e1 ⊢; omega
    rw [this]; rfl
  | some x =>
    cases e2 : m[k]? with
    | none => rw [List.getElem?_eq_none_iff] at e2; have := (List.getElem?_eq_some_iff.mp e1).1; omega
    | some y => simp only [Option.map_some, h k x y e1 e2]

/-- C37. The bytes hashed for a legacy message: the modified copy of the transaction and the type as four bytes. -/
theorem C37_legacy_layout {tx : Tx} {n : Nat} {inp : TxIn} {o : TxOut} (h : tx.input[n]? = some inp) (code : Bytes) (ty : EcdsaTy)
    (ho : Spec.commitsOutput ty → tx.output[n]? = some o) :
    legacySighash L tx n code ty = some (L.sha256d (Spec.unsignedTxBytes (Spec.legacyCopy tx n inp code o ty.1) ++ [ty.1, 0, 0, 0])) := by
  rw [unsignedTxBytes_fun]
  obtain ⟨m, hm⟩ : ∃ m, legacySighash L tx n code ty = some m := by
    unfold legacySighash
    rw [h]
    simp only
    split <;> exact ⟨_, rfl⟩
  have hlt : Spec.commitsOutput ty → n < tx.output.length := fun hc => (List.getElem?_eq_some_iff.mp (ho hc)).1
  obtain ⟨inp', h1, h2⟩ := V2.legacySighash_eq hlt hm
  rw [h] at h1; cases h1
  rw [hm, h2]
  rw [V2.legacyTx_bytes h, V2.legacyTx_copy h code ty ho, V2.typeBytes]

/-- C37. The other direction of `C37_legacy_commits`. -/
theorem C37_legacy_covers_only {tx tx' : Tx} {n : Nat} {a b : TxIn} {ty : EcdsaTy} (code : Bytes)
    (hv : tx.version = tx'.version) (hl : tx.lockTime = tx'.lockTime)
    (ha : tx.input[n]? = some a) (hb : tx'.input[n]? = some b)
    (hp : a.previousOutput = b.previousOutput) (hq : a.sequence = b.sequence)
    (h1 : Spec.commitsInputs ty → tx.input.map TxIn.previousOutput = tx'.input.map TxIn.previousOutput)
    (h2 : Spec.commitsSequences ty → tx.input.map TxIn.sequence = tx'.input.map TxIn.sequence)
    (h3 : Spec.commitsOutputs ty → tx.output = tx'.output)
    (h4 : Spec.commitsOutput ty → tx.output[n]? = tx'.output[n]?) :
    legacySighash L tx n code ty = legacySighash L tx' n code ty := by
  have hins : legacyInputs tx.input n a code ty.split.1 ty.split.2 = legacyInputs tx'.input n b code ty.split.1 ty.split.2 := by
    unfold legacyInputs
    split
    · rw [hp, hq]
    · rename_i hacp
      have hc : Spec.commitsInputs ty := (split_cases ty).resolve_left hacp
      have e := h1 hc
      have hlen : tx.input.length = tx'.input.length := by simpa using congrArg List.length e
      apply mapIdx_congr hlen
      intro k x y ex ey
      have ep : x.previousOutput = y.previousOutput := by
        have := congrArg (fun l => l[k]?) e
        simpa [List.getElem?_map, ex, ey] using this
      have es : k = n ∨ Spec.commitsSequences ty → x.sequence = y.sequence := by
        rintro (rfl | hs)
        · rw [ha] at ex; rw [hb] at ey; cases ex; cases ey; exact hq
        · have := congrArg (fun l => l[k]?) (h2 hs)
          simpa [List.getElem?_map, ex, ey] using this
      rw [ep]
      congr 1
      by_cases hk : k = n
      · simp [hk, es (.inl hk)]
      · rcases V2.ecdsaTy_cases ty with h | h | h | h | h | h
        · have := es (.inr h); simp [EcdsaTy.split, h, hk, this]
        · simp [EcdsaTy.split, h, hk]
        · simp [EcdsaTy.split, h, hk]
        all_goals simp [EcdsaTy.split, h] at hacp
  have hsingle : ty.split.1 = .single → Spec.commitsOutput ty := by
    rcases V2.ecdsaTy_cases ty with h | h | h | h | h | h <;> simp [EcdsaTy.split, h, Spec.commitsOutput]
  have hall : ty.split.1 = .all → Spec.commitsOutputs ty := by
    rcases V2.ecdsaTy_cases ty with h | h | h | h | h | h <;> simp [EcdsaTy.split, h, Spec.commitsOutputs]
  unfold legacySighash
  rw [ha, hb]
  simp only
  rw [hins, hv, hl]
  cases hbase : ty.split.1 with
  | all => rw [h3 (hall hbase)]
  | none => rfl
  | single =>
    have e := h4 (hsingle hbase)
    cases eo : tx.output[n]? with
    | none =>
      rw [eo] at e
      have l1 := List.getElem?_eq_none_iff.mp eo
      have l2 := List.getElem?_eq_none_iff.mp e.symm
      simp [l1, l2]
    | some o =>
      rw [eo] at e
      have l1 := (List.getElem?_eq_some_iff.mp eo).1
      have l2 := (List.getElem?_eq_some_iff.mp e.symm).1
      have hout : legacyOutputs tx.output n .single = legacyOutputs tx'.output n .single := by
        unfold legacyOutputs
        apply mapIdx_congr (by simp; omega)
        intro k x y ex ey
        split
        · rename_i hk
          subst hk
          rw [List.getElem?_take] at ex ey
          simp only [Nat.lt_add_one, if_true] at ex ey
          rw [eo] at ex; rw [← e] at ey
          cases ex; cases ey; rfl
        · rfl
      have n1 : ¬ n ≥ tx.output.length := by omega
      have n2 : ¬ n ≥ tx'.output.length := by omega
      simp [n1, n2, hout]

/-- Two transactions that have one input and one output in common, at different positions. -/
def onlyA : Tx := ⟨2, 9, [⟨⟨Demo.rep 32 7, 1⟩, [], 5, []⟩, ⟨⟨Demo.rep 32 8, 0⟩, [1], 6, []⟩], [⟨500, [0x51]⟩, ⟨7, []⟩]⟩
def onlyB : Tx := ⟨2, 9, [⟨⟨Demo.rep 32 9, 3⟩, [], 1, []⟩, ⟨⟨Demo.rep 32 7, 1⟩, [], 5, []⟩], [⟨11, [0x52]⟩, ⟨500, [0x51]⟩]⟩
example := C37_segwit_layout (L := Demo.lib false) (rfl : onlyA.input[1]? = some _) [0x51] 1000 ⟨0x01, by decide⟩
-- The message of input 0 of one with SINGLE|ANYONECANPAY is that of input 1 of the other.
example : segwitSighash (Demo.lib false) onlyA 0 [0x51] 1000 ⟨0x83, by decide⟩ =
    segwitSighash (Demo.lib false) onlyB 1 [0x51] 1000 ⟨0x83, by decide⟩ :=
  C37_segwit_covers_only [0x51] 1000 rfl rfl (rfl : onlyA.input[0]? = some _) (rfl : onlyB.input[1]? = some _) rfl rfl
    (by unfold Spec.commitsInputs; decide) (by unfold Spec.commitsSequences; decide) (by unfold Spec.commitsOutputs; decide)
    (fun _ => rfl)
example := C37_legacy_layout (L := Demo.lib false) (rfl : onlyA.input[1]? = some _) [0x51] ⟨0x03, by decide⟩
  (fun _ => (rfl : onlyA.output[1]? = some ⟨7, []⟩))
example : Spec.commitsOutput ⟨0x83, by decide⟩ ∧ ¬ Spec.commitsInputs ⟨0x83, by decide⟩ := by
  unfold Spec.commitsOutput Spec.commitsInputs; decide

end Psbt
