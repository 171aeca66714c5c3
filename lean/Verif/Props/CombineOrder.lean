/- C27, C28, C61: exactly when the order and the grouping matter when combining. -/
import Verif.Props.V2Combine
import Verif.Props.V0Combine
namespace Psbt
variable {L : Lib}

namespace Spec

/-- The grouping of three inputs' UTXOs matters: either the first has a witness UTXO only, the second has none of these, the third has
one and some of the last two has a non-witness UTXO; or the first has no witness UTXO, the second has one and the third has a non-witness
UTXO. -/
def GroupingMatters (nw1 : Option Tx) (w1 : Option TxOut) (nw2 : Option Tx) (w2 : Option TxOut) (nw3 : Option Tx) (w3 : Option TxOut) : Prop :=
  (w1 ≠ none ∧ nw1 = none ∧ w2 = none ∧ w3 ≠ none ∧ (nw2 ≠ none ∨ nw3 ≠ none)) ∨ (w1 = none ∧ w2 ≠ none ∧ nw3 ≠ none)

end Spec

namespace V2

theorem agree_of_comm {α : Type} {a b : Option α} (h : combOpt a b = combOpt b a) : Spec.Agree a b := by
  rintro x y rfl rfl
  exact Option.some.inj h

theorem agreeMap_of_comm {K V : Type} [OrdKey K] [DecidableEq K] {m n : BMap K V} (h : m.extend n = n.extend m) : Spec.AgreeMap m n := by
  intro k x y e1 e2
  have := congrArg (fun z => BMap.get z k) h
  simp only [BMap.get_extend, e1, e2] at this
  simpa using this.symm

theorem utxos_of_comm {a b : Option Tx × Option TxOut} (h : combUtxos a b = combUtxos b a) :
    Spec.Agree a.2 b.2 ∧ Spec.Agree a.1 b.1 ∧ (a.2.isSome ≠ b.2.isSome → a.1 = none ∧ b.1 = none) := by
  obtain ⟨n, w⟩ := a
  obtain ⟨n', w'⟩ := b
  cases n <;> cases n' <;> cases w <;> cases w' <;> simp_all [combUtxos, combOpt, Spec.Agree]

theorem mergeOpt_eq_of_comm {a b : KeySource} {c : Option KeySource} (h1 : mergeOpt (some a) (some b) = some c)
    (h2 : mergeOpt (some b) (some a) = some c) : a = b ∨ a.2.length ≠ b.2.length := by
  by_cases hl : a.2.length = b.2.length
  · left
    simp only [mergeOpt, Option.map_eq_some_iff] at h1 h2
    obtain ⟨x, h1, rfl⟩ := h1
    obtain ⟨y, h2, e⟩ := h2
    cases Option.some.inj e
    rw [ksMerge_iff] at h1 h2
    cases h1 with
    | mine h _ => omega
    | theirs h =>
      cases h2 with
      | mine h _ => omega
      | theirs h => rfl
  · exact .inr hl

theorem zipAt {ε α : Type} {f : α → α → Except ε α} {as bs cs : List α} (h : combineZip f as bs = .ok cs) {k : Nat} {a b : α}
    (e1 : as[k]? = some a) (e2 : bs[k]? = some b) : ∃ c, cs[k]? = some c ∧ f a b = .ok c := by
  obtain ⟨hl, h⟩ := combineZip_ok.mp h
  obtain ⟨hk, -⟩ := List.getElem?_eq_some_iff.mp e1
  have e3 := List.getElem?_eq_getElem (l := cs) (i := k) (by omega)
  exact ⟨_, e3, (h k a _ e1 e3).1 b e2⟩

theorem compatibleInputs_of_comm {a b : Input L} (h : a.merge b = b.merge a) : Spec.CompatibleInputs a b := by
  have hu : combUtxos (a.nonWitnessUtxo, a.witnessUtxo) (b.nonWitnessUtxo, b.witnessUtxo) =
      combUtxos (b.nonWitnessUtxo, b.witnessUtxo) (a.nonWitnessUtxo, a.witnessUtxo) :=
    Prod.ext (congrArg Input.nonWitnessUtxo h) (congrArg Input.witnessUtxo h)
  obtain ⟨u1, u2, u3⟩ := utxos_of_comm hu
  exact {
    sequence := agree_of_comm (congrArg Input.sequence h)
    minTime := agree_of_comm (congrArg Input.minTime h)
    minHeight := agree_of_comm (congrArg Input.minHeight h)
    partialSigs := agreeMap_of_comm (congrArg Input.partialSigs h)
    sighashType := by have := congrArg Input.sighashType h; exact this
    redeemScript := agree_of_comm (congrArg Input.redeemScript h)
    witnessScript := agree_of_comm (congrArg Input.witnessScript h)
    bip32 := agreeMap_of_comm (congrArg Input.bip32Derivations h)
    finalScriptSig := agree_of_comm (congrArg Input.finalScriptSig h)
    finalScriptWitness := agree_of_comm (congrArg Input.finalScriptWitness h)
    ripemd160 := agreeMap_of_comm (congrArg Input.ripemd160Preimages h)
    sha256 := agreeMap_of_comm (congrArg Input.sha256Preimages h)
    hash160 := agreeMap_of_comm (congrArg Input.hash160Preimages h)
    hash256 := agreeMap_of_comm (congrArg Input.hash256Preimages h)
    tapKeySig := agree_of_comm (congrArg Input.tapKeySig h)
    tapScriptSigs := agreeMap_of_comm (congrArg Input.tapScriptSigs h)
    tapScripts := agreeMap_of_comm (congrArg Input.tapScripts h)
    tapKeyOrigins := agreeMap_of_comm (congrArg Input.tapKeyOrigins h)
    tapInternalKey := agree_of_comm (congrArg Input.tapInternalKey h)
    tapMerkleRoot := agree_of_comm (congrArg Input.tapMerkleRoot h)
    spEcdh := agreeMap_of_comm (congrArg Input.spEcdhShares h)
    spDleq := agreeMap_of_comm (congrArg Input.spDleqProofs h)
    proprietaries := agreeMap_of_comm (congrArg Input.proprietaries h)
    unknowns := agreeMap_of_comm (congrArg Input.unknowns h)
    witnessUtxo := u1
    nonWitnessUtxo := u2
    oneSided := u3 }

theorem compatibleOutputs_of_comm {a b : Output L} (h : a.merge b = b.merge a) : Spec.CompatibleOutputs a b where
  redeemScript := agree_of_comm (congrArg Output.redeemScript h)
  witnessScript := agree_of_comm (congrArg Output.witnessScript h)
  bip32 := agreeMap_of_comm (congrArg Output.bip32Derivations h)
  tapInternalKey := agree_of_comm (congrArg Output.tapInternalKey h)
  tapTree := agree_of_comm (congrArg Output.tapTree h)
  tapKeyOrigins := agreeMap_of_comm (congrArg Output.tapKeyOrigins h)
  spInfo := agree_of_comm (congrArg Output.spV0Info h)
  spLabel := agree_of_comm (congrArg Output.spV0Label h)
  proprietaries := agreeMap_of_comm (congrArg Output.proprietaries h)
  unknowns := agreeMap_of_comm (congrArg Output.unknowns h)

/-- C27, exactly: PSBTs that can be combined in one order give the same in the other order if and only if they do not contradict each
other. -/
theorem C27_iff_partial {p q r : Psbt L} (h : p.combine q = .ok r) : q.combine p = .ok r ↔ Spec.Compatible p q := by
  refine ⟨fun h' => ?_, fun hc => (C27_partial hc r).mp h⟩
  obtain ⟨g1, i1, o1⟩ := combine_ok.mp h
  obtain ⟨g2, i2, o2⟩ := combine_ok.mp h'
  obtain ⟨-, -, x1, e1⟩ := globalCombine_ok.mp g1
  obtain ⟨-, -, x2, e2⟩ := globalCombine_ok.mp g2
  have e := e1.symm.trans e2
  obtain ⟨l1, -⟩ := combineZip_ok.mp i1
  obtain ⟨l2, -⟩ := combineZip_ok.mp i2
  obtain ⟨l3, -⟩ := combineZip_ok.mp o1
  obtain ⟨l4, -⟩ := combineZip_ok.mp o2
  refine ⟨?_, by omega, by omega, fun k a b ha hb => ?_, fun k a b ha hb => ?_⟩
  · exact {
      fallback := by simpa using congrArg Global.fallbackLockTime e
      flags := by simpa using congrArg Global.txModifiableFlags e
      inputCount := by simpa using congrArg Global.inputCount e
      outputCount := by simpa using congrArg Global.outputCount e
      xpubs := fun x s t hs ht => by
        have m1 := x1 x
        have m2 := x2 x
        rw [hs, ht] at m1 m2
        exact mergeOpt_eq_of_comm m1 m2
      spEcdh := agreeMap_of_comm (by simpa using congrArg Global.spEcdhShares e)
      spDleq := agreeMap_of_comm (by simpa using congrArg Global.spDleqProofs e)
      proprietaries := agreeMap_of_comm (by simpa using congrArg Global.proprietaries e)
      unknowns := agreeMap_of_comm (by simpa using congrArg Global.unknowns e) }
  · obtain ⟨c, c1, f1⟩ := zipAt i1 ha hb
    obtain ⟨d, d1, f2⟩ := zipAt i2 hb ha
    cases Option.some.inj (c1.symm.trans d1)
    exact compatibleInputs_of_comm ((inputCombine_ok.mp f1).2.2.symm.trans (inputCombine_ok.mp f2).2.2)
  · obtain ⟨c, c1, f1⟩ := zipAt o1 ha hb
    obtain ⟨d, d1, f2⟩ := zipAt o2 hb ha
    cases Option.some.inj (c1.symm.trans d1)
    exact compatibleOutputs_of_comm ((outputCombine_ok.mp f1).2.2.symm.trans (outputCombine_ok.mp f2).2.2)

theorem combUtxos_assoc_iff {a b c : Option Tx × Option TxOut} :
    combUtxos (combUtxos a b) c = combUtxos a (combUtxos b c) ↔ ¬ Spec.GroupingMatters a.1 a.2 b.1 b.2 c.1 c.2 := by
  obtain ⟨n, w⟩ := a
  obtain ⟨n', w'⟩ := b
  obtain ⟨n'', w''⟩ := c
  cases n <;> cases w <;> cases n' <;> cases w' <;> cases n'' <;> cases w'' <;> simp [combUtxos, combOpt, Spec.GroupingMatters]

theorem merge_assoc_iff {a b c : Input L} : (a.merge b).merge c = a.merge (b.merge c) ↔
    ¬ Spec.GroupingMatters a.nonWitnessUtxo a.witnessUtxo b.nonWitnessUtxo b.witnessUtxo c.nonWitnessUtxo c.witnessUtxo := by
  have := combUtxos_assoc_iff (a := (a.nonWitnessUtxo, a.witnessUtxo)) (b := (b.nonWitnessUtxo, b.witnessUtxo))
    (c := (c.nonWitnessUtxo, c.witnessUtxo))
  refine ⟨fun h => this.mp (Prod.ext (congrArg Input.nonWitnessUtxo h) (congrArg Input.witnessUtxo h)), fun h => ?_⟩
  replace h := this.mpr h
  simp only [Input.merge, combOpt_assoc, BMap.extend_assoc, Prod.eta, h]

/-- C28, exactly: if three PSBTs with the same numbers of inputs and outputs can be combined from the left, combining from the right
gives the same if and only if nowhere the grouping of the UTXOs matters. -/
theorem C28_iff_partial {a b c r : Psbt L}
    (hi1 : a.inputs.length = b.inputs.length) (hi2 : b.inputs.length = c.inputs.length)
    (ho1 : a.outputs.length = b.outputs.length) (ho2 : b.outputs.length = c.outputs.length)
    (h : (a.combine b >>= fun ab => ab.combine c) = .ok r) :
    (b.combine c >>= fun bc => a.combine bc) = .ok r ↔
    ∀ (k : Nat) i j l, a.inputs[k]? = some i → b.inputs[k]? = some j → c.inputs[k]? = some l →
      ¬ Spec.GroupingMatters i.nonWitnessUtxo i.witnessUtxo j.nonWitnessUtxo j.witnessUtxo l.nonWitnessUtxo l.witnessUtxo := by
  simp only [bind_ok, combine_ok] at h ⊢
  obtain ⟨m, ⟨g1, i1, o1⟩, g2, i2, o2⟩ := h
  constructor
  · rintro ⟨n, ⟨-, i3, -⟩, -, i4, -⟩ k i j l e1 e2 e3
    obtain ⟨x, x1, x2⟩ := zipAt i1 e1 e2
    obtain ⟨y, y1, y2⟩ := zipAt i2 x1 e3
    obtain ⟨z, z1, z2⟩ := zipAt i3 e2 e3
    obtain ⟨t, t1, t2⟩ := zipAt i4 e1 z1
    cases Option.some.inj (y1.symm.trans t1)
    apply merge_assoc_iff.mp
    rw [← (inputCombine_ok.mp x2).2.2, ← (inputCombine_ok.mp y2).2.2, ← (inputCombine_ok.mp z2).2.2, ← (inputCombine_ok.mp t2).2.2]
  · intro hu
    have hI := combineZip_assoc (f := Input.combine) (ds := r.inputs) hi1 hi2 (fun k x y z e1 e2 e3 d => by
      have := merge_assoc_iff.mpr (hu k x y z e1 e2 e3)
      simp only [inputCombine_ok]
      constructor
      · rintro ⟨m, ⟨h1, h2, rfl⟩, h3, h4, rfl⟩
        have h3 : x.previousTxid = z.previousTxid := h3
        have h4 : x.spentOutputIndex = z.spentOutputIndex := h4
        exact ⟨_, ⟨h1 ▸ h3, h2 ▸ h4, rfl⟩, h1, h2, this⟩
      · rintro ⟨m, ⟨h1, h2, rfl⟩, h3, h4, rfl⟩
        have h3 : x.previousTxid = y.previousTxid := h3
        have h4 : x.spentOutputIndex = y.spentOutputIndex := h4
        exact ⟨_, ⟨h3, h4, rfl⟩, h3.trans h1, h4.trans h2, this.symm⟩)
    have hO := combineZip_assoc (f := Output.combine) (ds := r.outputs) ho1 ho2
      (fun k x y z e1 e2 e3 d => outputCombine_assoc)
    have hG := globalCombine_assoc (a := a.global) (b := b.global) (c := c.global) (d := r.global)
    obtain ⟨g, g3, g4⟩ := hG.mp ⟨_, g1, g2⟩
    obtain ⟨i, i3, i4⟩ := hI.mp ⟨_, i1, i2⟩
    obtain ⟨o, o3, o4⟩ := hO.mp ⟨_, o1, o2⟩
    exact ⟨⟨g, i, o⟩, ⟨g3, i3, o3⟩, g4, i4, o4⟩

/-- C27. Two origins of one sequence number: the order matters; no contradiction: it does not. -/
example : (∃ r, (cP [{ cIn 1 with sequence := some 1 }]).combine (cP [{ cIn 1 with sequence := some 2 }]) = .ok r ∧
      ¬ Spec.Compatible (cP [{ cIn 1 with sequence := some 1 }]) (cP [{ cIn 1 with sequence := some 2 }])) ∧
    (cP [{ cIn 1 with sequence := some 1 }]).combine (cP [{ cIn 1 with redeemScript := some [2] }]) =
      .ok (cP [{ cIn 1 with sequence := some 1, redeemScript := some [2] }]) ∧
    Spec.Compatible (cP [{ cIn 1 with sequence := some 1 }]) (cP [{ cIn 1 with redeemScript := some [2] }]) := by
  refine ⟨⟨cP [{ cIn 1 with sequence := some 1 }], combine?_some (by decide +kernel), fun hc => ?_⟩, combine?_some (by decide +kernel),
    (C27_iff_partial (combine?_some (p := cP [{ cIn 1 with sequence := some 1 }]) (q := cP [{ cIn 1 with redeemScript := some [2] }])
      (r := cP [{ cIn 1 with sequence := some 1, redeemScript := some [2] }]) (by decide +kernel))).mp
      (combine?_some (by decide +kernel))⟩
  have := (hc.inputs 0 _ _ rfl rfl).sequence 1 2 rfl rfl
  exact absurd this (by decide)

def gmA : Psbt DL := cP [{ cIn 1 with witnessUtxo := some cWU, nonWitnessUtxo := some cTx }]
def gmC : Psbt DL := cP [{ cIn 1 with nonWitnessUtxo := some cTx }]
/-- C28. Both kinds of UTXO occur, and still the grouping does not matter: they come in the first PSBT. -/
example : (gmA.combine (cP [cIn 1]) >>= fun x => x.combine gmC) = .ok gmA ∧
    ((cP [cIn 1]).combine gmC >>= fun x => gmA.combine x) = .ok gmA := by
  have h1 : gmA.combine (cP [cIn 1]) = .ok gmA := combine?_some (by decide +kernel)
  have h2 : gmA.combine gmC = .ok gmA := combine?_some (by decide +kernel)
  have h : (gmA.combine (cP [cIn 1]) >>= fun x => x.combine gmC) = .ok gmA := by rw [h1]; exact h2
  refine ⟨h, (C28_iff_partial (a := gmA) (b := cP [cIn 1]) (c := gmC) rfl rfl rfl rfl h).mpr ?_⟩
  intro k i j l h1 h2 h3
  cases k with
  | zero => cases h1; cases h2; cases h3; simp [Spec.GroupingMatters, cIn]
  | succ k => exact absurd h1 (by simp [gmA, cP])

end V2

namespace V0

theorem compatibleInputs_of_comm {a b : Input L} (h : a.combine b = b.combine a) : Spec.V0.CompatibleInputs a b := by
  have hu : V2.combUtxos (a.nonWitnessUtxo, a.witnessUtxo) (b.nonWitnessUtxo, b.witnessUtxo) =
      V2.combUtxos (b.nonWitnessUtxo, b.witnessUtxo) (a.nonWitnessUtxo, a.witnessUtxo) :=
    Prod.ext (congrArg Input.nonWitnessUtxo h) (congrArg Input.witnessUtxo h)
  obtain ⟨u1, u2, u3⟩ := V2.utxos_of_comm hu
  exact {
    partialSigs := V2.agreeMap_of_comm (congrArg Input.partialSigs h)
    sighashType := by have := congrArg Input.sighashType h; exact this
    redeemScript := V2.agree_of_comm (congrArg Input.redeemScript h)
    witnessScript := V2.agree_of_comm (congrArg Input.witnessScript h)
    bip32 := V2.agreeMap_of_comm (congrArg Input.bip32Derivation h)
    finalScriptSig := V2.agree_of_comm (congrArg Input.finalScriptSig h)
    finalScriptWitness := V2.agree_of_comm (congrArg Input.finalScriptWitness h)
    ripemd160 := V2.agreeMap_of_comm (congrArg Input.ripemd160Preimages h)
    sha256 := V2.agreeMap_of_comm (congrArg Input.sha256Preimages h)
    hash160 := V2.agreeMap_of_comm (congrArg Input.hash160Preimages h)
    hash256 := V2.agreeMap_of_comm (congrArg Input.hash256Preimages h)
    tapKeySig := V2.agree_of_comm (congrArg Input.tapKeySig h)
    tapScriptSigs := V2.agreeMap_of_comm (congrArg Input.tapScriptSigs h)
    tapScripts := V2.agreeMap_of_comm (congrArg Input.tapScripts h)
    tapKeyOrigins := V2.agreeMap_of_comm (congrArg Input.tapKeyOrigins h)
    tapInternalKey := V2.agree_of_comm (congrArg Input.tapInternalKey h)
    tapMerkleRoot := V2.agree_of_comm (congrArg Input.tapMerkleRoot h)
    proprietary := V2.agreeMap_of_comm (congrArg Input.proprietary h)
    unknown := V2.agreeMap_of_comm (congrArg Input.unknown h)
    witnessUtxo := u1
    nonWitnessUtxo := u2
    oneSided := u3 }

theorem compatibleOutputs_of_comm {a b : Output L} (h : a.combine b = b.combine a) : Spec.V0.CompatibleOutputs a b where
  redeemScript := V2.agree_of_comm (congrArg Output.redeemScript h)
  witnessScript := V2.agree_of_comm (congrArg Output.witnessScript h)
  bip32 := V2.agreeMap_of_comm (congrArg Output.bip32Derivation h)
  tapInternalKey := V2.agree_of_comm (congrArg Output.tapInternalKey h)
  tapTree := V2.agree_of_comm (congrArg Output.tapTree h)
  tapKeyOrigins := V2.agreeMap_of_comm (congrArg Output.tapKeyOrigins h)
  proprietary := V2.agreeMap_of_comm (congrArg Output.proprietary h)
  unknown := V2.agreeMap_of_comm (congrArg Output.unknown h)

theorem combineZip_len {α : Type} (f : α → α → α) : ∀ as bs : List α, (combineZip f as bs).length = as.length
  | [], _ => by cases ‹List α› <;> rfl
  | _ :: _, [] => rfl
  | _ :: as, _ :: bs => congrArg (· + 1) (combineZip_len f as bs)

/-- C61, exactly: PSBTs that can be combined in one order give the same in the other order if and only if they do not contradict each
other. -/
theorem C61_iff_partial {p q r : Psbt L} (h : p.combine q = (r, .ok ())) : q.combine p = (r, .ok ()) ↔ Spec.V0.Compatible p q := by
  refine ⟨fun h' => ?_, fun hc => (C61_partial hc r).mp h⟩
  obtain ⟨-, x1, e1⟩ := combine_ok.mp h
  obtain ⟨-, x2, e2⟩ := combine_ok.mp h'
  have e := e1.symm.trans e2
  have hI : combineZip Input.combine p.inputs q.inputs = combineZip Input.combine q.inputs p.inputs := congrArg Psbt.inputs e
  have hO : combineZip Output.combine p.outputs q.outputs = combineZip Output.combine q.outputs p.outputs := congrArg Psbt.outputs e
  exact {
    xpub := fun x s t hs ht => by
      have m1 := x1 x
      have m2 := x2 x
      rw [hs, ht] at m1 m2
      exact V2.mergeOpt_eq_of_comm m1 m2
    proprietary := V2.agreeMap_of_comm (congrArg Psbt.proprietary e)
    unknown := V2.agreeMap_of_comm (congrArg Psbt.unknown e)
    inputsLength := by simpa only [combineZip_len] using congrArg List.length hI
    outputsLength := by simpa only [combineZip_len] using congrArg List.length hO
    inputs := fun k a b ha hb => by
      have := congrArg (·[k]?) hI
      simp only [combineZip_getElem?, ha, hb] at this
      exact compatibleInputs_of_comm (Option.some.inj this)
    outputs := fun k a b ha hb => by
      have := congrArg (·[k]?) hO
      simp only [combineZip_getElem?, ha, hb] at this
      exact compatibleOutputs_of_comm (Option.some.inj this) }

example : ¬ Spec.V0.Compatible (cP { cI with redeemScript := some [1] } cI) (cP { cI with redeemScript := some [2] } cI) ∧
    Spec.V0.Compatible (cP { cI with redeemScript := some [1] } cI) (cP { cI with witnessScript := some [2] } cI) := by
  constructor
  · intro hc
    have := (hc.inputs 0 _ _ rfl rfl).redeemScript [1] [2] rfl rfl
    exact absurd this (by decide)
  · exact (C61_iff_partial (r := ((cP { cI with redeemScript := some [1] } cI).combine (cP { cI with witnessScript := some [2] } cI)).1)
      (Prod.ext rfl (by decide +kernel))).mp (Prod.ext (by decide +kernel) (by decide +kernel))

theorem combine_assoc_iff {a b c : Input L} : (a.combine b).combine c = a.combine (b.combine c) ↔
    ¬ Spec.GroupingMatters a.nonWitnessUtxo a.witnessUtxo b.nonWitnessUtxo b.witnessUtxo c.nonWitnessUtxo c.witnessUtxo := by
  have := V2.combUtxos_assoc_iff (a := (a.nonWitnessUtxo, a.witnessUtxo)) (b := (b.nonWitnessUtxo, b.witnessUtxo))
    (c := (c.nonWitnessUtxo, c.witnessUtxo))
  refine ⟨fun h => this.mp (Prod.ext (congrArg Input.nonWitnessUtxo h) (congrArg Input.witnessUtxo h)), fun h => ?_⟩
  replace h := this.mpr h
  simp only [Input.combine, V2.combOpt_assoc, BMap.extend_assoc, Prod.eta, h]

/-- C61, exactly: if three PSBTs with the same numbers of inputs and outputs can be combined from the left, combining from the right
gives the same if and only if nowhere the grouping of the UTXOs matters. -/
theorem C61_assoc_iff_partial {a b c d : Psbt L}
    (hi1 : a.inputs.length = b.inputs.length) (hi2 : b.inputs.length = c.inputs.length)
    (ho1 : a.outputs.length = b.outputs.length) (ho2 : b.outputs.length = c.outputs.length)
    (h : ∃ m, a.combine b = (m, .ok ()) ∧ m.combine c = (d, .ok ())) :
    (∃ m, b.combine c = (m, .ok ()) ∧ a.combine m = (d, .ok ())) ↔
    ∀ (k : Nat) i j l, a.inputs[k]? = some i → b.inputs[k]? = some j → c.inputs[k]? = some l →
      ¬ Spec.GroupingMatters i.nonWitnessUtxo i.witnessUtxo j.nonWitnessUtxo j.witnessUtxo l.nonWitnessUtxo l.witnessUtxo := by
  obtain ⟨m, h1, h2⟩ := h
  constructor
  · rintro ⟨n, h3, h4⟩ k i j l e1 e2 e3
    obtain ⟨-, -, r1⟩ := combine_ok.mp h1
    obtain ⟨-, -, r2⟩ := combine_ok.mp h2
    obtain ⟨-, -, r3⟩ := combine_ok.mp h3
    obtain ⟨-, -, r4⟩ := combine_ok.mp h4
    have k1 : m.inputs[k]? = some (i.combine j) := by rw [r1]; simp only [combineZip_getElem?, e1, e2]
    have k2 : d.inputs[k]? = some ((i.combine j).combine l) := by
      rw [show d.inputs = combineZip Input.combine m.inputs c.inputs from congrArg Psbt.inputs r2]
      simp only [combineZip_getElem?, k1, e3]
    have k3 : n.inputs[k]? = some (j.combine l) := by rw [r3]; simp only [combineZip_getElem?, e2, e3]
    have k4 : d.inputs[k]? = some (i.combine (j.combine l)) := by
      rw [show d.inputs = combineZip Input.combine a.inputs n.inputs from congrArg Psbt.inputs r4]
      simp only [combineZip_getElem?, e1, k3]
    exact combine_assoc_iff.mp (Option.some.inj (k2.symm.trans k4))
  · intro hu
    have vmax_toNat : ∀ x y : UInt32, (vmax x y).toNat = max x.toNat y.toNat := by
      intro x y
      unfold vmax
      simp only [UInt32.le_iff_toNat_le]
      split <;> omega
    have vassoc : ∀ x y z : UInt32, vmax (vmax x y) z = vmax x (vmax y z) := by
      intro x y z
      apply UInt32.toNat_inj.mp
      simp only [vmax_toNat]
      omega
    have hI : combineZip Input.combine (combineZip Input.combine a.inputs b.inputs) c.inputs =
        combineZip Input.combine a.inputs (combineZip Input.combine b.inputs c.inputs) := by
      apply List.ext_getElem?
      intro k
      simp only [combineZip_getElem?]
      cases e1 : a.inputs[k]? with
      | none => rfl
      | some i =>
        have : k < a.inputs.length := (List.getElem?_eq_some_iff.mp e1).1
        have e2 := List.getElem?_eq_getElem (l := b.inputs) (i := k) (by omega)
        have e3 := List.getElem?_eq_getElem (l := c.inputs) (i := k) (by omega)
        rw [e2, e3]
        simp only
        exact congrArg some (combine_assoc_iff.mpr (hu k _ _ _ e1 e2 e3))
    have hO : combineZip Output.combine (combineZip Output.combine a.outputs b.outputs) c.outputs =
        combineZip Output.combine a.outputs (combineZip Output.combine b.outputs c.outputs) := by
      apply List.ext_getElem?
      intro k
      simp only [combineZip_getElem?]
      cases e1 : a.outputs[k]? with
      | none => rfl
      | some i =>
        have : k < a.outputs.length := (List.getElem?_eq_some_iff.mp e1).1
        have e2 := List.getElem?_eq_getElem (l := b.outputs) (i := k) (by omega)
        have e3 := List.getElem?_eq_getElem (l := c.outputs) (i := k) (by omega)
        rw [e2, e3]
        simp only [Output.combine, V2.combOpt_assoc, BMap.extend_assoc]
    obtain ⟨t1, x1, r1⟩ := combine_ok.mp h1
    obtain ⟨t2, x2, r2⟩ := combine_ok.mp h2
    have hx : ∀ x, ∃ n, V2.mergeOpt (b.xpub.get x) (c.xpub.get x) = some n ∧ V2.mergeOpt (a.xpub.get x) n = some (d.xpub.get x) :=
      fun x => (V2.mergeOpt_assoc _ _ _ _).mp ⟨_, x1 x, x2 x⟩
    obtain ⟨mx, hmx⟩ := V2.mergeXpubs_total (m := b.xpub) (n := c.xpub) (fun x => ⟨_, (hx x).choose_spec.1⟩)
    have hmt : m.unsignedTx = a.unsignedTx := by rw [r1]
    refine ⟨{ b with
      version := vmax b.version c.version
      xpub := mx
      proprietary := b.proprietary.extend c.proprietary
      unknown := b.unknown.extend c.unknown
      inputs := combineZip Input.combine b.inputs c.inputs
      outputs := combineZip Output.combine b.outputs c.outputs }, combine_ok.mpr ⟨t1.symm.trans (hmt.symm.trans t2), hmx, rfl⟩, combine_ok.mpr ⟨t1, ?_, ?_⟩⟩
    · intro x
      obtain ⟨n, e1, e2⟩ := hx x
      rw [hmx x] at e1
      cases e1
      exact e2
    · rw [r2, r1]
      simp only [BMap.extend_assoc, hI, hO, vassoc]

def gmB : Psbt DL := cP { cI with witnessUtxo := some cU } cI
def gmC : Psbt DL := cP { cI with nonWitnessUtxo := some cT } cI
/-- C61. A witness UTXO from the second and a non-witness UTXO from the third: the grouping matters; the other way round it does not. -/
example : (¬ ∃ m, gmB.combine gmC = (m, .ok ()) ∧ (cP cI cI).combine m = ((((cP cI cI).combine gmB).1.combine gmC).1, .ok ())) ∧
    ∃ m, gmC.combine gmB = (m, .ok ()) ∧ (cP cI cI).combine m = ((((cP cI cI).combine gmC).1.combine gmB).1, .ok ()) := by
  have e1 : (cP cI cI).combine gmB = (((cP cI cI).combine gmB).1, .ok ()) := Prod.ext rfl (by decide +kernel)
  have e2 : ((cP cI cI).combine gmB).1.combine gmC = ((((cP cI cI).combine gmB).1.combine gmC).1, .ok ()) := Prod.ext rfl (by decide +kernel)
  have e3 : (cP cI cI).combine gmC = (((cP cI cI).combine gmC).1, .ok ()) := Prod.ext rfl (by decide +kernel)
  have e4 : ((cP cI cI).combine gmC).1.combine gmB = ((((cP cI cI).combine gmC).1.combine gmB).1, .ok ()) := Prod.ext rfl (by decide +kernel)
  refine ⟨fun h => (C61_assoc_iff_partial (a := cP cI cI) (b := gmB) (c := gmC) rfl rfl rfl rfl ⟨_, e1, e2⟩).mp h 0 _ _ _ rfl rfl rfl
    (.inr ⟨rfl, by simp, by simp⟩),
    (C61_assoc_iff_partial (a := cP cI cI) (b := gmC) (c := gmB) rfl rfl rfl rfl ⟨_, e3, e4⟩).mpr ?_⟩
  rintro k i j l h1 h2 h3 (⟨hw, -⟩ | ⟨-, hw, -⟩)
  · rcases (show i = cI ∨ i = cI by simpa [cP] using List.mem_of_getElem? h1) with rfl | rfl <;> exact hw rfl
  · rcases (show j = { cI with nonWitnessUtxo := some cT } ∨ j = cI by simpa [gmC, cP] using List.mem_of_getElem? h2) with rfl | rfl <;>
      exact hw rfl

end V0
end Psbt
