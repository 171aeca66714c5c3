/- C48, C61: combining PSBTs v0. `p.combine q` is the first PSBT after the call, and the result of the call. -/
import Verif.Lemmas.V0Combine
import Verif.Spec.V0Combine
import Verif.Props.V0Parse
namespace Psbt.V0
open Psbt

variable {L : Lib}

/-! ### Concrete PSBTs for the examples and counterexamples -/
section Examples
abbrev DL : Lib := Demo.lib false
/-- A PSBT for `demoTx` with these two inputs. -/
def cP (i j : Input DL) : Psbt DL := { demo with xpub := .empty, inputs := [i, j] }
def cI : Input DL := Input.default DL
def cX : DL.xpub.T := Demo.val 78 (by decide) 4
/-- A PSBT with one extended key of this origin. -/
def cXP (fp : UInt8) (path : List UInt32) : Psbt DL := { cP cI cI with xpub := BMap.empty.insert cX (Demo.rep 4 fp, path) }
def cU : TxOut := ⟨7, [1]⟩
def cT : Tx := ⟨2, 0, [], [⟨7, [1]⟩]⟩
end Examples

/-! ### C48 -/

/-- C48. Combining succeeds only for equal unsigned transactions, and keeps that transaction and the numbers of inputs and
outputs. -/
theorem C48_unsigned_tx {p q r : Psbt L} (h : p.combine q = (r, .ok ())) :
    p.unsignedTx = q.unsignedTx ∧ r.unsignedTx = p.unsignedTx ∧ r.inputs.length = p.inputs.length ∧
    r.outputs.length = p.outputs.length := by
  obtain ⟨ht, -, hr⟩ := combine_ok.mp h
  rw [hr]
  exact ⟨ht, rfl, combineZip_length _ _ _, combineZip_length _ _ _⟩

/-- C48. For different unsigned transactions combining reports both and changes nothing. -/
theorem C48_refused {p q : Psbt L} (h : p.unsignedTx ≠ q.unsignedTx) :
    p.combine q = (p, .error (.err (.unexpectedUnsignedTx p.unsignedTx q.unsignedTx))) := by
  unfold Psbt.combine
  rw [if_pos h]

example : (cP cI cI).unsignedTx ≠ { demoTx with lockTime := 18 } := by decide

/-- C48. Whatever the outcome, the unsigned transaction of the first PSBT stays. -/
theorem C48_unsigned_tx_kept (p q : Psbt L) : (p.combine q).1.unsignedTx = p.unsignedTx := by
  unfold Psbt.combine
  split
  · rfl
  · dsimp only
    cases mergeXpubs p.xpub q.xpub.l with
    | mk m r => cases r <;> (dsimp only; first | done | (split <;> rfl) | rfl)

/-- C48. Position by position the combined maps hold a pair for every key of either part, each pair taken from one of
them. Exceptions (`C48_sighash_counterexample`, `C48_utxo_counterexample`): the second's sighash type (input key type
0x03) and a non-witness UTXO (input key type 0x00) of either. For a PSBT whose maps match its transaction all positions
are common to both. -/
theorem C48_keys_partial {p q r : Psbt L} (h : p.combine q = (r, .ok ())) :
    Spec.Merged [] [] p.getPairs q.getPairs r.getPairs ∧
    (∀ (k : Nat) i j, p.inputs[k]? = some i → q.inputs[k]? = some j → ∃ c, r.inputs[k]? = some c ∧
      Spec.Merged [0x00] [0x00, 0x03] i.getPairs j.getPairs c.getPairs) ∧
    (∀ (k : Nat) i, p.inputs[k]? = some i → q.inputs[k]? = none → r.inputs[k]? = some i) ∧
    (∀ (k : Nat) i j, p.outputs[k]? = some i → q.outputs[k]? = some j → ∃ c, r.outputs[k]? = some c ∧
      Spec.Merged [] [] i.getPairs j.getPairs c.getPairs) ∧
    (∀ (k : Nat) i, p.outputs[k]? = some i → q.outputs[k]? = none → r.outputs[k]? = some i) := by
  obtain ⟨ht, -, hr⟩ := combine_ok.mp h
  refine ⟨merged_global h, ?_, ?_, ?_, ?_⟩
  · intro k i j e1 e2
    rw [hr]
    exact ⟨_, by simp only [combineZip_getElem?, e1, e2], merged_input i j⟩
  · intro k i e1 e2
    rw [hr]
    simp only [combineZip_getElem?, e1, e2]
  · intro k i j e1 e2
    rw [hr]
    exact ⟨_, by simp only [combineZip_getElem?, e1, e2], merged_output i j⟩
  · intro k i e1 e2
    rw [hr]
    simp only [combineZip_getElem?, e1, e2]

example : ∃ r, (cP { cI with redeemScript := some [1] } cI).combine (cP { cI with witnessScript := some [2] } { cI with witnessUtxo := some cU })
    = (r, .ok ()) ∧ r = cP { cI with redeemScript := some [1], witnessScript := some [2] } { cI with witnessUtxo := some cU } :=
  ⟨_, by decide +kernel, rfl⟩

/-- C48, signatures: no signature of either PSBT is lost; where both have one for the same key, the second's is taken. -/
theorem C48_signatures {p q r : Psbt L} (h : p.combine q = (r, .ok ())) {k : Nat} {i j c : Input L}
    (e1 : p.inputs[k]? = some i) (e2 : q.inputs[k]? = some j) (e3 : r.inputs[k]? = some c) :
    (∀ pk, c.partialSigs.get pk = (j.partialSigs.get pk).or (i.partialSigs.get pk)) ∧
    (∀ x, c.tapScriptSigs.get x = (j.tapScriptSigs.get x).or (i.tapScriptSigs.get x)) ∧
    c.tapKeySig = i.tapKeySig.or j.tapKeySig ∧ c.finalScriptSig = i.finalScriptSig.or j.finalScriptSig ∧
    c.finalScriptWitness = i.finalScriptWitness.or j.finalScriptWitness := by
  obtain ⟨ht, -, hr⟩ := combine_ok.mp h
  rw [hr] at e3
  simp only [combineZip_getElem?, e1, e2, Option.some.injEq] at e3
  subst e3
  refine ⟨fun pk => ?_, fun x => ?_, V2.combOpt_eq _ _, V2.combOpt_eq _ _, V2.combOpt_eq _ _⟩
  · exact BMap.get_extend _ _ _
  · exact BMap.get_extend _ _ _

/-- C48. The UTXOs of an input: a witness UTXO of either is kept; the non-witness UTXO too, unless a witness UTXO came in
from the second. -/
theorem C48_utxos {p q r : Psbt L} (h : p.combine q = (r, .ok ())) {k : Nat} {i j c : Input L}
    (e1 : p.inputs[k]? = some i) (e2 : q.inputs[k]? = some j) (e3 : r.inputs[k]? = some c) :
    c.witnessUtxo = i.witnessUtxo.or j.witnessUtxo ∧
    (i.witnessUtxo ≠ none ∨ j.witnessUtxo = none → c.nonWitnessUtxo = i.nonWitnessUtxo.or j.nonWitnessUtxo) := by
  obtain ⟨ht, -, hr⟩ := combine_ok.mp h
  rw [hr] at e3
  simp only [combineZip_getElem?, e1, e2, Option.some.injEq] at e3
  subst e3
  simp only [Input.combine, V2.combUtxos_snd, V2.combOpt_eq, true_and]
  rw [← V2.combOpt_eq]
  cases i.witnessUtxo <;> cases j.witnessUtxo <;> simp [V2.combUtxos]

/-- C48. An extended key known to one side keeps that origin; one known to both has the origin with the longer path, of
which the other path is an ending. -/
theorem C48_xpubs {p q r : Psbt L} (h : p.combine q = (r, .ok ())) (x : L.xpub.T) :
    (p.xpub.get x = none → r.xpub.get x = q.xpub.get x) ∧ (q.xpub.get x = none → r.xpub.get x = p.xpub.get x) ∧
    (∀ s t, p.xpub.get x = some s → q.xpub.get x = some t → ∃ u, r.xpub.get x = some u ∧ Spec.MergedKey s t u) := by
  obtain ⟨-, hx, -⟩ := combine_ok.mp h
  have hx := hx x
  refine ⟨?_, ?_, ?_⟩
  · intro e; rw [e] at hx; exact (Option.some.inj hx).symm
  · intro e; rw [e] at hx
    cases e' : p.xpub.get x with
    | none => rw [e'] at hx; exact (Option.some.inj hx).symm
    | some s => rw [e'] at hx; exact (Option.some.inj hx).symm
  · intro s t e1 e2
    rw [e1, e2] at hx
    simp only [V2.mergeOpt, Option.map_eq_some_iff] at hx
    obtain ⟨u, h1, h2⟩ := hx
    exact ⟨u, h2.symm, V2.ksMerge_iff.mp h1⟩

/-- C48. PSBTs for the same transaction can be combined exactly if for every extended key they share one path is an ending
of the other. -/
theorem C48_success_iff {p q : Psbt L} (ht : p.unsignedTx = q.unsignedTx) :
    (∃ r, p.combine q = (r, .ok ())) ↔
    ∀ x s t, p.xpub.get x = some s → q.xpub.get x = some t → s.2 <:+ t.2 ∨ t.2 <:+ s.2 := by
  constructor
  · rintro ⟨r, h⟩ x s t e1 e2
    obtain ⟨u, -, hu⟩ := (C48_xpubs h x).2.2 s t e1 e2
    cases hu with
    | mine _ h => exact .inr h
    | theirs h => exact .inl h
  · intro h
    obtain ⟨m, hm⟩ := V2.mergeXpubs_total (m := p.xpub) (n := q.xpub) (by
      intro x
      cases e1 : p.xpub.get x with
      | none => exact ⟨_, rfl⟩
      | some s =>
        cases e2 : q.xpub.get x with
        | none => exact ⟨_, rfl⟩
        | some t =>
          rcases h x s t e1 e2 with hs | hs
          · exact ⟨some t, by simp only [V2.mergeOpt, V2.ksMerge_iff.mpr (.theirs hs), Option.map_some]⟩
          · by_cases hl : t.2.length < s.2.length
            · exact ⟨some s, by simp only [V2.mergeOpt, V2.ksMerge_iff.mpr (.mine hl hs), Option.map_some]⟩
            · have he : t.2 = s.2 := hs.eq_of_length (by have := hs.length_le; omega)
              have hst : s.2 <:+ t.2 := by rw [he]; exact List.suffix_refl _
              exact ⟨some t, by simp only [V2.mergeOpt, V2.ksMerge_iff.mpr (.theirs hst), Option.map_some]⟩)
    exact ⟨{ p with
      version := vmax p.version q.version
      xpub := m
      proprietary := p.proprietary.extend q.proprietary
      unknown := p.unknown.extend q.unknown
      inputs := combineZip Input.combine p.inputs q.inputs
      outputs := combineZip Output.combine p.outputs q.outputs }, combine_ok.mpr ⟨ht, hm, rfl⟩⟩

example : ∃ r, (cXP 1 [1, 2, 3]).combine (cXP 9 [2, 3]) = (r, .ok ()) ∧ r.xpub.get cX = some (Demo.rep 4 1, [1, 2, 3]) :=
  ⟨_, Prod.ext rfl (by decide +kernel), by decide +kernel⟩

/-- C48. Combining a PSBT with itself succeeds and gives it back. -/
theorem C48_self (p : Psbt L) : p.combine p = (p, .ok ()) := by
  refine combine_ok.mpr ⟨rfl, fun x => V2.mergeOpt_self _, ?_⟩
  rw [vmax_self, combineZip_self Input.combine_self, combineZip_self Output.combine_self, BMap.extend_self, BMap.extend_self]

/-- C48. Combining again with the same other changes nothing, unless somewhere the first has no witness UTXO and the
other has both kinds of UTXO. -/
theorem C48_again_partial {p q r : Psbt L} (h : p.combine q = (r, .ok ()))
    (hu : ∀ (k : Nat) i j, p.inputs[k]? = some i → q.inputs[k]? = some j →
      ¬ (i.witnessUtxo = none ∧ j.witnessUtxo ≠ none ∧ j.nonWitnessUtxo ≠ none)) :
    r.combine q = (r, .ok ()) := by
  obtain ⟨ht, hx, hr⟩ := combine_ok.mp h
  have hi : combineZip Input.combine r.inputs q.inputs = r.inputs := by
    rw [hr]
    apply List.ext_getElem?
    intro k
    simp only [combineZip_getElem?]
    cases e1 : p.inputs[k]? with
    | none => rfl
    | some i => cases e2 : q.inputs[k]? with
      | none => rfl
      | some j => simp only [Input.combine_again i j (hu k i j e1 e2)]
  have ho : combineZip Output.combine r.outputs q.outputs = r.outputs := by
    rw [hr]
    apply List.ext_getElem?
    intro k
    simp only [combineZip_getElem?]
    cases e1 : p.outputs[k]? with
    | none => rfl
    | some i => cases e2 : q.outputs[k]? with
      | none => rfl
      | some j => simp only [Output.combine_again i j]
  refine combine_ok.mpr ⟨?_, fun x => V2.mergeOpt_again (hx x), ?_⟩
  · rw [hr]; exact ht
  · rw [hi, ho]
    have h1 : vmax r.version q.version = r.version := by rw [hr]; exact vmax_again _ _
    have h2 : r.proprietary.extend q.proprietary = r.proprietary := by rw [hr]; exact BMap.extend_extend_right _ _
    have h3 : r.unknown.extend q.unknown = r.unknown := by rw [hr]; exact BMap.extend_extend_right _ _
    rw [h1, h2, h3]

example : ∃ r, (cP { cI with nonWitnessUtxo := some cT } cI).combine (cP { cI with witnessUtxo := some cU } cI) = (r, .ok ()) :=
  ⟨_, Prod.ext rfl (by decide +kernel)⟩

/-- C48 fails: the sighash type the second PSBT requires is lost. -/
theorem C48_sighash_counterexample : ∃ p q r : Psbt DL, p.combine q = (r, .ok ()) ∧
    p.inputs.map Input.sighashType = [none, none] ∧ q.inputs.map Input.sighashType = [some 2, none] ∧
    r.inputs.map Input.sighashType = [none, none] :=
  ⟨cP cI cI, cP { cI with sighashType := some 2 } cI, _, Prod.ext rfl (by decide +kernel), by decide +kernel,
    by decide +kernel, by decide +kernel⟩

/-- C48 fails: a witness UTXO from the second removes the non-witness UTXO, the second's own included. -/
theorem C48_utxo_counterexample : ∃ p q r : Psbt DL, p.combine q = (r, .ok ()) ∧
    q.inputs.map Input.nonWitnessUtxo = [some cT, none] ∧ r.inputs.map Input.nonWitnessUtxo = [none, none] :=
  ⟨cP cI cI, cP { cI with witnessUtxo := some cU, nonWitnessUtxo := some cT } cI, _, Prod.ext rfl (by decide +kernel),
    by decide +kernel, by decide +kernel⟩

/-- C48 fails: for a shorter path that is not an ending of ours combining panics. -/
theorem C48_panic_counterexample : ∃ p q : Psbt DL, (p.combine q).2 = .error (.panic "attempt to subtract with overflow") :=
  ⟨cXP 1 [1, 2], cXP 1 [3], by decide +kernel⟩

/-- C48. That is the only way combining panics. -/
theorem C48_panic_only_partial {p q : Psbt L} {why : String} (h : (p.combine q).2 = .error (.panic why)) :
    ∃ x s t, p.xpub.get x = some s ∧ q.xpub.get x = some t ∧ t.2.length < s.2.length ∧ ¬ t.2 <:+ s.2 := by
  unfold Psbt.combine at h
  split at h
  · cases h
  · simp only at h
    cases e : mergeXpubs p.xpub q.xpub.l with
    | mk m r =>
      rw [e] at h
      cases r with
      | ok u => cases h
      | error x =>
        obtain ⟨x, s, t, h1, h2, h3⟩ := mergeXpubs_panic q.xpub.sorted (m := p.xpub) (why := why) (by rw [e]; exact h)
        exact ⟨x, s, t, h1, BMap.mem_iff_get.mp h2, h3⟩

/-- C48. A failed combine leaves the inputs, outputs and other data alone; at most the version and the extended keys have
changed. -/
theorem C48_failure_frame {p q r : Psbt L} {e : Fail Err} (h : p.combine q = (r, .error e)) :
    r = { p with version := r.version, xpub := r.xpub } := by
  unfold Psbt.combine at h
  split at h
  · cases h; rfl
  · simp only at h
    cases e : mergeXpubs p.xpub q.xpub.l with
    | mk m res =>
      rw [e] at h
      cases res with
      | ok u => cases h
      | error x => cases h; rfl

/-- An error is not a no-op, though: the version and the extended keys merged before the conflict was met stay changed. -/
theorem C48_failed_but_changed_counterexample : ∃ (p q r : Psbt DL) (e : Err), p.combine q = (r, .error (.err e)) ∧ r ≠ p :=
  ⟨cXP 1 [1], { cXP 1 [2] with version := 3, xpub := (BMap.empty.insert cX (Demo.rep 4 1, [2])).insert (Demo.val 78 (by decide) 1) (Demo.rep 4 1, [2]) }, _, _,
    Prod.ext rfl (by decide +kernel : _ = Except.error (Fail.err (Err.combineInconsistentKeySources cX.bytes))), by decide +kernel⟩

/-! ### C61 -/

/-- C61 fails: combining is documented to be commutative, but for conflicting values the result depends on the order. -/
theorem C61_counterexample : ∃ p q r s : Psbt DL, p.combine q = (r, .ok ()) ∧ q.combine p = (s, .ok ()) ∧ r ≠ s :=
  ⟨cP { cI with redeemScript := some [1] } cI, cP { cI with redeemScript := some [2] } cI, _, _,
    Prod.ext rfl (by decide +kernel), Prod.ext rfl (by decide +kernel), by decide +kernel⟩

/-- C61 fails even without conflicting values: one PSBT declares a sighash type, the other does not. -/
theorem C61_no_conflict_counterexample : ∃ p q r s : Psbt DL, p.combine q = (r, .ok ()) ∧ q.combine p = (s, .ok ()) ∧ r ≠ s :=
  ⟨cP cI cI, cP { cI with sighashType := some 2 } cI, _, _,
    Prod.ext rfl (by decide +kernel), Prod.ext rfl (by decide +kernel), by decide +kernel⟩

theorem Input.combine_comm {a b : Input L} (h : Spec.V0.CompatibleInputs a b) : a.combine b = b.combine a := by
  have hu := V2.combUtxos_comm (a := (a.nonWitnessUtxo, a.witnessUtxo)) (b := (b.nonWitnessUtxo, b.witnessUtxo))
    h.witnessUtxo h.nonWitnessUtxo h.oneSided
  unfold Input.combine
  rw [hu, h.sighashType, V2.extend_comm h.partialSigs, V2.combOpt_comm h.redeemScript, V2.combOpt_comm h.witnessScript,
    V2.extend_comm h.bip32, V2.combOpt_comm h.finalScriptSig, V2.combOpt_comm h.finalScriptWitness, V2.extend_comm h.ripemd160,
    V2.extend_comm h.sha256, V2.extend_comm h.hash160, V2.extend_comm h.hash256, V2.combOpt_comm h.tapKeySig,
    V2.extend_comm h.tapScriptSigs, V2.extend_comm h.tapScripts, V2.extend_comm h.tapKeyOrigins,
    V2.combOpt_comm h.tapInternalKey, V2.combOpt_comm h.tapMerkleRoot, V2.extend_comm h.proprietary, V2.extend_comm h.unknown]

theorem Output.combine_comm {a b : Output L} (h : Spec.V0.CompatibleOutputs a b) : a.combine b = b.combine a := by
  unfold Output.combine
  rw [V2.combOpt_comm h.redeemScript, V2.combOpt_comm h.witnessScript, V2.extend_comm h.bip32,
    V2.combOpt_comm h.tapInternalKey, V2.combOpt_comm h.tapTree, V2.extend_comm h.tapKeyOrigins,
    V2.extend_comm h.proprietary, V2.extend_comm h.unknown]

theorem combineZip_comm {α : Type} {f : α → α → α} {as bs : List α} (hl : as.length = bs.length)
    (h : ∀ (k : Nat) a b, as[k]? = some a → bs[k]? = some b → f a b = f b a) : combineZip f as bs = combineZip f bs as := by
  apply List.ext_getElem?
  intro k
  simp only [combineZip_getElem?]
  cases e1 : as[k]? with
  | none =>
    have : bs[k]? = none := by rw [List.getElem?_eq_none_iff] at e1 ⊢; omega
    rw [this]
  | some a =>
    cases e2 : bs[k]? with
    | none => rw [List.getElem?_eq_none_iff] at e2; have := (List.getElem?_eq_some_iff.mp e1).1; omega
    | some b => simp only [h k a b e1 e2]

theorem vmax_comm (a b : UInt32) : vmax a b = vmax b a := by
  unfold vmax
  split <;> split
  · rename_i h1 h2; exact (UInt32.le_antisymm h1 h2).symm
  · rfl
  · rfl
  · rename_i h1 h2
    simp only [UInt32.le_iff_toNat_le] at h1 h2
    omega

/-- C61. For PSBTs without contradictions (and with the same sighash types) the order does not matter: one order succeeds
exactly if the other does, with the same result. -/
theorem C61_partial {p q : Psbt L} (hc : Spec.V0.Compatible p q) (r : Psbt L) :
    p.combine q = (r, .ok ()) ↔ q.combine p = (r, .ok ()) := by
  have key : ∀ {p q : Psbt L}, Spec.V0.Compatible p q → ∀ {r}, p.combine q = (r, .ok ()) → q.combine p = (r, .ok ()) := by
    intro p q hc r h
    obtain ⟨ht, hx, hr⟩ := combine_ok.mp h
    refine combine_ok.mpr ⟨ht.symm, fun x => V2.mergeOpt_comm (hc.xpub x) (hx x), ?_⟩
    rw [vmax_comm, ← V2.extend_comm hc.proprietary, ← V2.extend_comm hc.unknown,
      ← combineZip_comm hc.inputsLength (fun k a b e1 e2 => Input.combine_comm (hc.inputs k a b e1 e2)),
      ← combineZip_comm hc.outputsLength (fun k a b e1 e2 => Output.combine_comm (hc.outputs k a b e1 e2)), ← ht]
    exact hr
  have agree {α : Type} {x y : Option α} (h : Spec.Agree x y) : Spec.Agree y x := fun a b e1 e2 => (h b a e2 e1).symm
  have agreeM {K V : Type} [OrdKey K] [DecidableEq K] {x y : BMap K V} (h : Spec.AgreeMap x y) : Spec.AgreeMap y x :=
    fun k a b e1 e2 => (h k b a e2 e1).symm
  have hc' : Spec.V0.Compatible q p := {
    xpub := fun x s t e1 e2 => (hc.xpub x t s e2 e1).imp Eq.symm Ne.symm
    proprietary := agreeM hc.proprietary
    unknown := agreeM hc.unknown
    inputsLength := hc.inputsLength.symm
    outputsLength := hc.outputsLength.symm
    inputs := fun k a b e1 e2 => by
      obtain ⟨h1, h2, h3, h4, h5, h6, h7, h8, h9, h10, h11, h12, h13, h14, h15, h16, h17, h18, h19, h20, h21, h22⟩ := hc.inputs k b a e2 e1
      exact ⟨agreeM h1, h2.symm, agree h3, agree h4, agreeM h5, agree h6, agree h7, agreeM h8, agreeM h9, agreeM h10,
        agreeM h11, agree h12, agreeM h13, agreeM h14, agreeM h15, agree h16, agree h17, agreeM h18, agreeM h19, agree h20,
        agree h21, fun h => (h22 (Ne.symm h)).symm⟩
    outputs := fun k a b e1 e2 => by
      obtain ⟨h1, h2, h3, h4, h5, h6, h7, h8⟩ := hc.outputs k b a e2 e1
      exact ⟨agree h1, agree h2, agreeM h3, agree h4, agree h5, agreeM h6, agreeM h7, agreeM h8⟩ }
  exact ⟨key hc, key hc'⟩

/-- C61. Combining is associative for the maps that matter to signers: three PSBTs for one transaction of which at each
position either none has a non-witness UTXO or none has a witness UTXO. -/
theorem C61_assoc_partial {a b c : Psbt L}
    (hi1 : a.inputs.length = b.inputs.length) (hi2 : b.inputs.length = c.inputs.length)
    (ho1 : a.outputs.length = b.outputs.length) (ho2 : b.outputs.length = c.outputs.length)
    (hu : ∀ (k : Nat) i j l, a.inputs[k]? = some i → b.inputs[k]? = some j → c.inputs[k]? = some l →
      (i.nonWitnessUtxo = none ∧ j.nonWitnessUtxo = none ∧ l.nonWitnessUtxo = none) ∨
      (i.witnessUtxo = none ∧ j.witnessUtxo = none ∧ l.witnessUtxo = none)) (d : Psbt L) :
    (∃ m, a.combine b = (m, .ok ()) ∧ m.combine c = (d, .ok ())) ↔ (∃ m, b.combine c = (m, .ok ()) ∧ a.combine m = (d, .ok ())) := by
  have vmax_toNat : ∀ x y : UInt32, (vmax x y).toNat = max x.toNat y.toNat := by
    intro x y
    unfold vmax
    simp only [UInt32.le_iff_toNat_le]
    split <;> omega
  have vassoc : ∀ x y z : UInt32, vmax (vmax x y) z = vmax x (vmax y z) := by
    intro x y z
    apply UInt32.toNat_inj.mp
    simp only [vmax_toNat]
    omega
  have hI : combineZip Input.combine (combineZip Input.combine a.inputs b.inputs) c.inputs =
      combineZip Input.combine a.inputs (combineZip Input.combine b.inputs c.inputs) := by
    apply List.ext_getElem?
    intro k
    simp only [combineZip_getElem?]
    cases e1 : a.inputs[k]? with
    | none => rfl
    | some i =>
      have : k < a.inputs.length := (List.getElem?_eq_some_iff.mp e1).1
      have e2 := List.getElem?_eq_getElem (l := b.inputs) (i := k) (by omega)
      have e3 := List.getElem?_eq_getElem (l := c.inputs) (i := k) (by omega)
      rw [e2, e3]
      simp only
      have := V2.combUtxos_assoc (a := (i.nonWitnessUtxo, i.witnessUtxo)) (b := (b.inputs[k].nonWitnessUtxo, b.inputs[k].witnessUtxo))
        (c := (c.inputs[k].nonWitnessUtxo, c.inputs[k].witnessUtxo)) (hu k _ _ _ e1 e2 e3)
      simp only [Input.combine, V2.combOpt_assoc, BMap.extend_assoc, Prod.eta, this]
  have hO : combineZip Output.combine (combineZip Output.combine a.outputs b.outputs) c.outputs =
      combineZip Output.combine a.outputs (combineZip Output.combine b.outputs c.outputs) := by
    apply List.ext_getElem?
    intro k
    simp only [combineZip_getElem?]
    cases e1 : a.outputs[k]? with
    | none => rfl
    | some i =>
      have : k < a.outputs.length := (List.getElem?_eq_some_iff.mp e1).1
      have e2 := List.getElem?_eq_getElem (l := b.outputs) (i := k) (by omega)
      have e3 := List.getElem?_eq_getElem (l := c.outputs) (i := k) (by omega)
      rw [e2, e3]
      simp only [Output.combine, V2.combOpt_assoc, BMap.extend_assoc]
  constructor
  · rintro ⟨m, h1, h2⟩
    obtain ⟨t1, x1, r1⟩ := combine_ok.mp h1
    obtain ⟨t2, x2, r2⟩ := combine_ok.mp h2
    have hx : ∀ x, ∃ n, V2.mergeOpt (b.xpub.get x) (c.xpub.get x) = some n ∧ V2.mergeOpt (a.xpub.get x) n = some (d.xpub.get x) :=
      fun x => (V2.mergeOpt_assoc _ _ _ _).mp ⟨_, x1 x, x2 x⟩
    obtain ⟨mx, hmx⟩ := V2.mergeXpubs_total (m := b.xpub) (n := c.xpub) (fun x => ⟨_, (hx x).choose_spec.1⟩)
    have hmt : m.unsignedTx = a.unsignedTx := by rw [r1]
    refine ⟨{ b with
      version := vmax b.version c.version
      xpub := mx
      proprietary := b.proprietary.extend c.proprietary
      unknown := b.unknown.extend c.unknown
      inputs := combineZip Input.combine b.inputs c.inputs
      outputs := combineZip Output.combine b.outputs c.outputs }, combine_ok.mpr ⟨t1.symm.trans (hmt.symm.trans t2), hmx, rfl⟩, combine_ok.mpr ⟨t1, ?_, ?_⟩⟩
    · intro x
      obtain ⟨n, e1, e2⟩ := hx x
      rw [hmx x] at e1
      cases e1
      exact e2
    · rw [r2, r1]
      simp only [BMap.extend_assoc, hI, hO, vassoc]
  · rintro ⟨m, h1, h2⟩
    obtain ⟨t1, x1, r1⟩ := combine_ok.mp h1
    obtain ⟨t2, x2, r2⟩ := combine_ok.mp h2
    have hx : ∀ x, ∃ n, V2.mergeOpt (a.xpub.get x) (b.xpub.get x) = some n ∧ V2.mergeOpt n (c.xpub.get x) = some (d.xpub.get x) :=
      fun x => (V2.mergeOpt_assoc _ _ _ _).mpr ⟨_, x1 x, x2 x⟩
    obtain ⟨mx, hmx⟩ := V2.mergeXpubs_total (m := a.xpub) (n := b.xpub) (fun x => ⟨_, (hx x).choose_spec.1⟩)
    have hmt : m.unsignedTx = b.unsignedTx := by rw [r1]
    refine ⟨{ a with
      version := vmax a.version b.version
      xpub := mx
      proprietary := a.proprietary.extend b.proprietary
      unknown := a.unknown.extend b.unknown
      inputs := combineZip Input.combine a.inputs b.inputs
      outputs := combineZip Output.combine a.outputs b.outputs }, combine_ok.mpr ⟨t2.trans hmt, hmx, rfl⟩, combine_ok.mpr ⟨(t2.trans hmt).trans t1, ?_, ?_⟩⟩
    · intro x
      obtain ⟨n, e1, e2⟩ := hx x
      rw [hmx x] at e1
      cases e1
      exact e2
    · rw [r2, r1]
      simp only [BMap.extend_assoc, hI, hO, vassoc]

end Psbt.V0
