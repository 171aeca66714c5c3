/- C102: whose records a combined PSBT has. -/
import Verif.Spec.Precedence
import Verif.Props.V0Combine
import Verif.Props.V2Combine
import Verif.Props.V0Complete
namespace Psbt
open Spec (Precedence)

theorem opt_first {α : Type} {a b : Option α} {v : α} (h : a = some v) : V2.combOpt a b = some v := by
  rw [V2.combOpt_eq, h]; rfl
theorem opt_second {α : Type} {a b : Option α} {v : α} (h : b = some v) (ha : a = none) : V2.combOpt a b = some v := by
  rw [V2.combOpt_eq, ha]; exact h
theorem opt_origin {α : Type} {a b : Option α} {v : α} (h : V2.combOpt a b = some v) : a = some v ∨ b = some v := by
  rw [V2.combOpt_eq] at h
  cases a with
  | none => exact .inr h
  | some a => exact .inl h
theorem map_second {K V : Type} [OrdKey K] [DecidableEq K] {m n : BMap K V} {k : K} {v : V} (h : n.get k = some v) :
    (m.extend n).get k = some v := by
  rw [BMap.get_extend, h]; rfl
theorem map_first {K V : Type} [OrdKey K] [DecidableEq K] {m n : BMap K V} {k : K} {v : V} (h : m.get k = some v)
    (hn : n.get k = none) : (m.extend n).get k = some v := by
  rw [BMap.get_extend, hn, h]; rfl
theorem map_origin {K V : Type} [OrdKey K] [DecidableEq K] {m n : BMap K V} {k : K} {v : V}
    (h : (m.extend n).get k = some v) : m.get k = some v ∨ n.get k = some v := by
  rw [BMap.get_extend] at h
  cases e : n.get k with
  | none => rw [e] at h; exact .inl h
  | some w => rw [e] at h; exact .inr h
theorem none_of {α : Type} {o : Option α} (h : ∀ v, ¬ o = some v) : o = none := by
  cases o with
  | none => rfl
  | some v => exact (h v rfl).elim

namespace V2
variable {L : Lib}
open _root_.Psbt.Spec (singleGlobal singleInput singleOutput)

theorem precedence_input (a b : Input L) (ha : ∀ k v, a.unknowns.get k = some v → k.ty ∉ singleInput) :
    Precedence singleInput [0x00] [0x03] (Spec.InputPair a) (Spec.InputPair b) (Spec.InputPair (a.merge b)) where
  first t k v hs hm h := by
    cases h with
    | previousTxid => exact .previousTxid
    | outputIndex => exact .outputIndex
    | sequence h => exact .sequence (opt_first h)
    | timeLockTime h => exact .timeLockTime (opt_first h)
    | heightLockTime h => exact .heightLockTime (opt_first h)
    | nonWitnessUtxo _ => exact absurd (by decide) hm
    | witnessUtxo h => exact .witnessUtxo ((V2.combUtxos_snd _ _).trans (opt_first h))
    | partialSig _ => exact absurd hs (by decide)
    | sighashType h => exact .sighashType h
    | redeemScript h => exact .redeemScript (opt_first h)
    | witnessScript h => exact .witnessScript (opt_first h)
    | bip32Derivation _ => exact absurd hs (by decide)
    | finalScriptSig h => exact .finalScriptSig (opt_first h)
    | finalScriptWitness h => exact .finalScriptWitness (opt_first h)
    | ripemd160 _ => exact absurd hs (by decide)
    | sha256 _ => exact absurd hs (by decide)
    | hash160 _ => exact absurd hs (by decide)
    | hash256 _ => exact absurd hs (by decide)
    | tapKeySig h => exact .tapKeySig (opt_first h)
    | tapScriptSig _ => exact absurd hs (by decide)
    | tapLeafScript _ => exact absurd hs (by decide)
    | tapBip32Derivation _ => exact absurd hs (by decide)
    | tapInternalKey h => exact .tapInternalKey (opt_first h)
    | tapMerkleRoot h => exact .tapMerkleRoot (opt_first h)
    | spEcdhShare _ _ => exact absurd hs (by decide)
    | spDleqProof _ _ => exact absurd hs (by decide)
    | proprietary _ => exact absurd hs (by decide)
    | unknown h => exact absurd hs (ha _ _ h)
  second t k v hs hm h := by
    cases h with
    | previousTxid => exact absurd (by decide) hs
    | outputIndex => exact absurd (by decide) hs
    | sequence _ => exact absurd (by decide) hs
    | timeLockTime _ => exact absurd (by decide) hs
    | heightLockTime _ => exact absurd (by decide) hs
    | nonWitnessUtxo _ => exact absurd (by decide) hs
    | witnessUtxo _ => exact absurd (by decide) hs
    | partialSig h => exact .partialSig (map_second h)
    | sighashType _ => exact absurd (by decide) hs
    | redeemScript _ => exact absurd (by decide) hs
    | witnessScript _ => exact absurd (by decide) hs
    | bip32Derivation h => exact .bip32Derivation (map_second h)
    | finalScriptSig _ => exact absurd (by decide) hs
    | finalScriptWitness _ => exact absurd (by decide) hs
    | ripemd160 h => exact .ripemd160 (map_second h)
    | sha256 h => exact .sha256 (map_second h)
    | hash160 h => exact .hash160 (map_second h)
    | hash256 h => exact .hash256 (map_second h)
    | tapKeySig _ => exact absurd (by decide) hs
    | tapScriptSig h => exact .tapScriptSig (map_second h)
    | tapLeafScript h => exact .tapLeafScript (map_second h)
    | tapBip32Derivation h => exact .tapBip32Derivation (map_second h)
    | tapInternalKey _ => exact absurd (by decide) hs
    | tapMerkleRoot _ => exact absurd (by decide) hs
    | spEcdhShare s h => exact .spEcdhShare s (map_second h)
    | spDleqProof s h => exact .spDleqProof s (map_second h)
    | proprietary h => exact .proprietary (map_second h)
    | unknown h => exact .unknown (map_second h)
  firstAlone t k v hm h hy := by
    cases h with
    | previousTxid => exact .previousTxid
    | outputIndex => exact .outputIndex
    | sequence h => exact .sequence (opt_first h)
    | timeLockTime h => exact .timeLockTime (opt_first h)
    | heightLockTime h => exact .heightLockTime (opt_first h)
    | nonWitnessUtxo _ => exact absurd (by decide) hm
    | witnessUtxo h => exact .witnessUtxo ((V2.combUtxos_snd _ _).trans (opt_first h))
    | partialSig h => exact .partialSig (map_first h (none_of fun _ e => hy _ (.partialSig e)))
    | sighashType h => exact .sighashType h
    | redeemScript h => exact .redeemScript (opt_first h)
    | witnessScript h => exact .witnessScript (opt_first h)
    | bip32Derivation h => exact .bip32Derivation (map_first h (none_of fun _ e => hy _ (.bip32Derivation e)))
    | finalScriptSig h => exact .finalScriptSig (opt_first h)
    | finalScriptWitness h => exact .finalScriptWitness (opt_first h)
    | ripemd160 h => exact .ripemd160 (map_first h (none_of fun _ e => hy _ (.ripemd160 e)))
    | sha256 h => exact .sha256 (map_first h (none_of fun _ e => hy _ (.sha256 e)))
    | hash160 h => exact .hash160 (map_first h (none_of fun _ e => hy _ (.hash160 e)))
    | hash256 h => exact .hash256 (map_first h (none_of fun _ e => hy _ (.hash256 e)))
    | tapKeySig h => exact .tapKeySig (opt_first h)
    | tapScriptSig h => exact .tapScriptSig (map_first h (none_of fun _ e => hy _ (.tapScriptSig e)))
    | tapLeafScript h => exact .tapLeafScript (map_first h (none_of fun _ e => hy _ (.tapLeafScript e)))
    | tapBip32Derivation h => exact .tapBip32Derivation (map_first h (none_of fun _ e => hy _ (.tapBip32Derivation e)))
    | tapInternalKey h => exact .tapInternalKey (opt_first h)
    | tapMerkleRoot h => exact .tapMerkleRoot (opt_first h)
    | spEcdhShare s h => exact .spEcdhShare s (map_first h (none_of fun _ e => hy _ (.spEcdhShare s e)))
    | spDleqProof s h => exact .spDleqProof s (map_first h (none_of fun _ e => hy _ (.spDleqProof s e)))
    | proprietary h => exact .proprietary (map_first h (none_of fun _ e => hy _ (.proprietary e)))
    | unknown h => exact .unknown (map_first h (none_of fun _ e => hy _ (.unknown e)))
  secondAlone t k v hm ho h hx := by
    cases h with
    | previousTxid => exact absurd .previousTxid (hx _)
    | outputIndex => exact absurd .outputIndex (hx _)
    | sequence h => exact .sequence (opt_second h (none_of fun _ e => hx _ (.sequence e)))
    | timeLockTime h => exact .timeLockTime (opt_second h (none_of fun _ e => hx _ (.timeLockTime e)))
    | heightLockTime h => exact .heightLockTime (opt_second h (none_of fun _ e => hx _ (.heightLockTime e)))
    | nonWitnessUtxo _ => exact absurd (by decide) hm
    | witnessUtxo h => exact .witnessUtxo ((V2.combUtxos_snd _ _).trans (opt_second h (none_of fun _ e => hx _ (.witnessUtxo e))))
    | partialSig h => exact .partialSig (map_second h)
    | sighashType _ => exact absurd (by decide) ho
    | redeemScript h => exact .redeemScript (opt_second h (none_of fun _ e => hx _ (.redeemScript e)))
    | witnessScript h => exact .witnessScript (opt_second h (none_of fun _ e => hx _ (.witnessScript e)))
    | bip32Derivation h => exact .bip32Derivation (map_second h)
    | finalScriptSig h => exact .finalScriptSig (opt_second h (none_of fun _ e => hx _ (.finalScriptSig e)))
    | finalScriptWitness h => exact .finalScriptWitness (opt_second h (none_of fun _ e => hx _ (.finalScriptWitness e)))
    | ripemd160 h => exact .ripemd160 (map_second h)
    | sha256 h => exact .sha256 (map_second h)
    | hash160 h => exact .hash160 (map_second h)
    | hash256 h => exact .hash256 (map_second h)
    | tapKeySig h => exact .tapKeySig (opt_second h (none_of fun _ e => hx _ (.tapKeySig e)))
    | tapScriptSig h => exact .tapScriptSig (map_second h)
    | tapLeafScript h => exact .tapLeafScript (map_second h)
    | tapBip32Derivation h => exact .tapBip32Derivation (map_second h)
    | tapInternalKey h => exact .tapInternalKey (opt_second h (none_of fun _ e => hx _ (.tapInternalKey e)))
    | tapMerkleRoot h => exact .tapMerkleRoot (opt_second h (none_of fun _ e => hx _ (.tapMerkleRoot e)))
    | spEcdhShare s h => exact .spEcdhShare s (map_second h)
    | spDleqProof s h => exact .spDleqProof s (map_second h)
    | proprietary h => exact .proprietary (map_second h)
    | unknown h => exact .unknown (map_second h)
  origin t k v hm h := by
    cases h with
    | previousTxid => exact .inl .previousTxid
    | outputIndex => exact .inl .outputIndex
    | sequence h => exact (opt_origin h).imp .sequence .sequence
    | timeLockTime h => exact (opt_origin h).imp .timeLockTime .timeLockTime
    | heightLockTime h => exact (opt_origin h).imp .heightLockTime .heightLockTime
    | nonWitnessUtxo _ => exact absurd (by decide) hm
    | witnessUtxo h => exact (opt_origin ((V2.combUtxos_snd _ _).symm.trans h)).imp .witnessUtxo .witnessUtxo
    | partialSig h => exact (map_origin h).imp .partialSig .partialSig
    | sighashType h => exact .inl (.sighashType h)
    | redeemScript h => exact (opt_origin h).imp .redeemScript .redeemScript
    | witnessScript h => exact (opt_origin h).imp .witnessScript .witnessScript
    | bip32Derivation h => exact (map_origin h).imp .bip32Derivation .bip32Derivation
    | finalScriptSig h => exact (opt_origin h).imp .finalScriptSig .finalScriptSig
    | finalScriptWitness h => exact (opt_origin h).imp .finalScriptWitness .finalScriptWitness
    | ripemd160 h => exact (map_origin h).imp .ripemd160 .ripemd160
    | sha256 h => exact (map_origin h).imp .sha256 .sha256
    | hash160 h => exact (map_origin h).imp .hash160 .hash160
    | hash256 h => exact (map_origin h).imp .hash256 .hash256
    | tapKeySig h => exact (opt_origin h).imp .tapKeySig .tapKeySig
    | tapScriptSig h => exact (map_origin h).imp .tapScriptSig .tapScriptSig
    | tapLeafScript h => exact (map_origin h).imp .tapLeafScript .tapLeafScript
    | tapBip32Derivation h => exact (map_origin h).imp .tapBip32Derivation .tapBip32Derivation
    | tapInternalKey h => exact (opt_origin h).imp .tapInternalKey .tapInternalKey
    | tapMerkleRoot h => exact (opt_origin h).imp .tapMerkleRoot .tapMerkleRoot
    | spEcdhShare s h => exact (map_origin h).imp (.spEcdhShare s) (.spEcdhShare s)
    | spDleqProof s h => exact (map_origin h).imp (.spDleqProof s) (.spDleqProof s)
    | proprietary h => exact (map_origin h).imp .proprietary .proprietary
    | unknown h => exact (map_origin h).imp .unknown .unknown

theorem precedence_output (a b : Output L) (ha : ∀ k v, a.unknowns.get k = some v → k.ty ∉ singleOutput L.sp) :
    Precedence (singleOutput L.sp) [] [] (Spec.OutputPair a) (Spec.OutputPair b) (Spec.OutputPair (a.merge b)) where
  first t k v hs hm h := by
    have h0 : ∀ t : UInt8, t ∉ [0x03, 0x04, 0x00, 0x01, 0x05, 0x06, 0x09, 0x0A] → t ∉ singleOutput L.sp := by
      intro t ht; unfold singleOutput; split <;> simp_all
    cases h with
    | amount => exact .amount
    | script => exact .script
    | redeemScript h => exact .redeemScript (opt_first h)
    | witnessScript h => exact .witnessScript (opt_first h)
    | bip32Derivation _ => exact absurd hs (h0 _ (by decide))
    | tapInternalKey h => exact .tapInternalKey (opt_first h)
    | tapTree h => exact .tapTree (opt_first h)
    | tapBip32Derivation _ => exact absurd hs (h0 _ (by decide))
    | spV0Info s h => exact .spV0Info s (opt_first h)
    | spV0Label s h => exact .spV0Label s (opt_first h)
    | proprietary _ => exact absurd hs (h0 _ (by decide))
    | unknown h => exact absurd hs (ha _ _ h)
  second t k v hs hm h := by
    cases h with
    | amount => exact absurd (by simp [singleOutput]) hs
    | script => exact absurd (by simp [singleOutput]) hs
    | redeemScript _ => exact absurd (by simp [singleOutput]) hs
    | witnessScript _ => exact absurd (by simp [singleOutput]) hs
    | bip32Derivation h => exact .bip32Derivation (map_second h)
    | tapInternalKey _ => exact absurd (by simp [singleOutput]) hs
    | tapTree _ => exact absurd (by simp [singleOutput]) hs
    | tapBip32Derivation h => exact .tapBip32Derivation (map_second h)
    | spV0Info s _ => exact absurd (by simp [singleOutput, s]) hs
    | spV0Label s _ => exact absurd (by simp [singleOutput, s]) hs
    | proprietary h => exact .proprietary (map_second h)
    | unknown h => exact .unknown (map_second h)
  firstAlone t k v hm h hy := by
    cases h with
    | amount => exact .amount
    | script => exact .script
    | redeemScript h => exact .redeemScript (opt_first h)
    | witnessScript h => exact .witnessScript (opt_first h)
    | bip32Derivation h => exact .bip32Derivation (map_first h (none_of fun _ e => hy _ (.bip32Derivation e)))
    | tapInternalKey h => exact .tapInternalKey (opt_first h)
    | tapTree h => exact .tapTree (opt_first h)
    | tapBip32Derivation h => exact .tapBip32Derivation (map_first h (none_of fun _ e => hy _ (.tapBip32Derivation e)))
    | spV0Info s h => exact .spV0Info s (opt_first h)
    | spV0Label s h => exact .spV0Label s (opt_first h)
    | proprietary h => exact .proprietary (map_first h (none_of fun _ e => hy _ (.proprietary e)))
    | unknown h => exact .unknown (map_first h (none_of fun _ e => hy _ (.unknown e)))
  secondAlone t k v hm ho h hx := by
    cases h with
    | amount => exact absurd .amount (hx _)
    | script => exact absurd .script (hx _)
    | redeemScript h => exact .redeemScript (opt_second h (none_of fun _ e => hx _ (.redeemScript e)))
    | witnessScript h => exact .witnessScript (opt_second h (none_of fun _ e => hx _ (.witnessScript e)))
    | bip32Derivation h => exact .bip32Derivation (map_second h)
    | tapInternalKey h => exact .tapInternalKey (opt_second h (none_of fun _ e => hx _ (.tapInternalKey e)))
    | tapTree h => exact .tapTree (opt_second h (none_of fun _ e => hx _ (.tapTree e)))
    | tapBip32Derivation h => exact .tapBip32Derivation (map_second h)
    | spV0Info s h => exact .spV0Info s (opt_second h (none_of fun _ e => hx _ (.spV0Info s e)))
    | spV0Label s h => exact .spV0Label s (opt_second h (none_of fun _ e => hx _ (.spV0Label s e)))
    | proprietary h => exact .proprietary (map_second h)
    | unknown h => exact .unknown (map_second h)
  origin t k v hm h := by
    cases h with
    | amount => exact .inl .amount
    | script => exact .inl .script
    | redeemScript h => exact (opt_origin h).imp .redeemScript .redeemScript
    | witnessScript h => exact (opt_origin h).imp .witnessScript .witnessScript
    | bip32Derivation h => exact (map_origin h).imp .bip32Derivation .bip32Derivation
    | tapInternalKey h => exact (opt_origin h).imp .tapInternalKey .tapInternalKey
    | tapTree h => exact (opt_origin h).imp .tapTree .tapTree
    | tapBip32Derivation h => exact (map_origin h).imp .tapBip32Derivation .tapBip32Derivation
    | spV0Info s h => exact (opt_origin h).imp (.spV0Info s) (.spV0Info s)
    | spV0Label s h => exact (opt_origin h).imp (.spV0Label s) (.spV0Label s)
    | proprietary h => exact (map_origin h).imp .proprietary .proprietary
    | unknown h => exact (map_origin h).imp .unknown .unknown

theorem precedence_global {a b : Global L} (x : BMap L.xpub.T KeySource)
    (ha : ∀ k v, a.unknowns.get k = some v → k.ty ∉ singleGlobal) :
    Precedence singleGlobal [0x01] [0x03] (Spec.GlobalPair a) (Spec.GlobalPair b) (Spec.GlobalPair { a with
      xpubs := x
      spEcdhShares := a.spEcdhShares.extend b.spEcdhShares
      spDleqProofs := a.spDleqProofs.extend b.spDleqProofs
      proprietaries := a.proprietaries.extend b.proprietaries
      unknowns := a.unknowns.extend b.unknowns }) where
  first t k v hs hm h := by
    cases h with
    | version => exact .version
    | txVersion => exact .txVersion
    | fallbackLockTime h => exact .fallbackLockTime h
    | inputCount => exact .inputCount
    | outputCount => exact .outputCount
    | txModifiable => exact .txModifiable
    | xpub _ => exact absurd (by decide) hm
    | spEcdhShare _ _ => exact absurd hs (by decide)
    | spDleqProof _ _ => exact absurd hs (by decide)
    | proprietary _ => exact absurd hs (by decide)
    | unknown h => exact absurd hs (ha _ _ h)
  second t k v hs hm h := by
    cases h with
    | version => exact absurd (by decide) hs
    | txVersion => exact absurd (by decide) hs
    | fallbackLockTime _ => exact absurd (by decide) hs
    | inputCount => exact absurd (by decide) hs
    | outputCount => exact absurd (by decide) hs
    | txModifiable => exact absurd (by decide) hs
    | xpub _ => exact absurd (by decide) hm
    | spEcdhShare s h => exact .spEcdhShare s (map_second h)
    | spDleqProof s h => exact .spDleqProof s (map_second h)
    | proprietary h => exact .proprietary (map_second h)
    | unknown h => exact .unknown (map_second h)
  firstAlone t k v hm h hy := by
    cases h with
    | version => exact .version
    | txVersion => exact .txVersion
    | fallbackLockTime h => exact .fallbackLockTime h
    | inputCount => exact .inputCount
    | outputCount => exact .outputCount
    | txModifiable => exact .txModifiable
    | xpub _ => exact absurd (by decide) hm
    | spEcdhShare s h => exact .spEcdhShare s (map_first h (none_of fun _ e => hy _ (.spEcdhShare s e)))
    | spDleqProof s h => exact .spDleqProof s (map_first h (none_of fun _ e => hy _ (.spDleqProof s e)))
    | proprietary h => exact .proprietary (map_first h (none_of fun _ e => hy _ (.proprietary e)))
    | unknown h => exact .unknown (map_first h (none_of fun _ e => hy _ (.unknown e)))
  secondAlone t k v hm ho h hx := by
    cases h with
    | version => exact absurd .version (hx _)
    | txVersion => exact absurd .txVersion (hx _)
    | fallbackLockTime _ => exact absurd (by decide) ho
    | inputCount => exact absurd .inputCount (hx _)
    | outputCount => exact absurd .outputCount (hx _)
    | txModifiable => exact absurd .txModifiable (hx _)
    | xpub _ => exact absurd (by decide) hm
    | spEcdhShare s h => exact .spEcdhShare s (map_second h)
    | spDleqProof s h => exact .spDleqProof s (map_second h)
    | proprietary h => exact .proprietary (map_second h)
    | unknown h => exact .unknown (map_second h)
  origin t k v hm h := by
    cases h with
    | version => exact .inl .version
    | txVersion => exact .inl .txVersion
    | fallbackLockTime h => exact .inl (.fallbackLockTime h)
    | inputCount => exact .inl .inputCount
    | outputCount => exact .inl .outputCount
    | txModifiable => exact .inl .txModifiable
    | xpub _ => exact absurd (by decide) hm
    | spEcdhShare s h => exact (map_origin h).imp (.spEcdhShare s) (.spEcdhShare s)
    | spDleqProof s h => exact (map_origin h).imp (.spDleqProof s) (.spDleqProof s)
    | proprietary h => exact (map_origin h).imp .proprietary .proprietary
    | unknown h => exact (map_origin h).imp .unknown .unknown

/-- C102. A combined PSBT v2 is made from the two PSBTs in the stated way. -/
theorem C102_v2 {p q r : Psbt L} (hp : Spec.UnknownsApart p) (h : p.combine q = .ok r) : Spec.Combined p q r := by
  obtain ⟨h1, h2, h3⟩ := combine_ok.mp h
  obtain ⟨-, -, -, hg⟩ := globalCombine_ok.mp h1
  obtain ⟨l2, z2⟩ := combineZip_ok.mp h2
  obtain ⟨l3, z3⟩ := combineZip_ok.mp h3
  refine ⟨?_, l2, fun n i j c hi hj hc => ?_, fun n hj => ?_, l3, fun n i j c hi hj hc => ?_, fun n hj => ?_⟩
  · rw [hg]; exact precedence_global _ hp.global
  · rw [(inputCombine_ok.mp ((z2 n i c hi hc).1 j hj)).2.2]
    exact precedence_input i j (hp.inputs i (List.mem_of_getElem? hi))
  · cases hi : p.inputs[n]? with
    | none => exact List.getElem?_eq_none (by rw [l2]; exact List.getElem?_eq_none_iff.mp hi)
    | some i =>
      have hl := (List.getElem?_eq_some_iff.mp hi).1
      have hc : r.inputs[n]? = some (r.inputs[n]'(by omega)) := List.getElem?_eq_getElem _
      rw [hc, (z2 n i _ hi hc).2 hj]
  · rw [(outputCombine_ok.mp ((z3 n i c hi hc).1 j hj)).2.2]
    exact precedence_output i j (hp.outputs i (List.mem_of_getElem? hi))
  · cases hi : p.outputs[n]? with
    | none => exact List.getElem?_eq_none (by rw [l3]; exact List.getElem?_eq_none_iff.mp hi)
    | some i =>
      have hl := (List.getElem?_eq_some_iff.mp hi).1
      have hc : r.outputs[n]? = some (r.outputs[n]'(by omega)) := List.getElem?_eq_getElem _
      rw [hc, (z3 n i _ hi hc).2 hj]

/-- An xpub that was merged once can be merged with what it was merged from. -/
theorem mergeOpt_back {a b c : Option KeySource} (h : mergeOpt a b = some c) : ∃ d, mergeOpt c a = some d := by
  cases a with
  | none => cases c <;> exact ⟨_, rfl⟩
  | some a =>
    cases b with
    | none => cases h; exact ⟨_, mergeOpt_self _⟩
    | some b =>
      simp only [mergeOpt, Option.map_eq_some_iff] at h
      obtain ⟨c, h, rfl⟩ := h
      cases ksMerge_iff.mp h with
      | mine h1 h2 => exact ⟨_, mergeOpt_self _⟩
      | theirs h1 =>
        by_cases hl : a.2.length < b.2.length
        · have e := ksMerge_iff.mpr (Spec.MergedKey.mine hl h1)
          exact ⟨some b, by simp only [mergeOpt, e, Option.map_some]⟩
        · have hs : b.2 <:+ a.2 := by rw [h1.eq_of_length_le (by omega)]; exact List.suffix_refl _
          have e := ksMerge_iff.mpr (Spec.MergedKey.theirs hs)
          exact ⟨some a, by simp only [mergeOpt, e, Option.map_some]⟩

theorem combineZip_total {ε α : Type} {f : α → α → Except ε α} {as bs : List α}
    (h : ∀ (k : Nat) a b, as[k]? = some a → bs[k]? = some b → ∃ c, f a b = .ok c) : ∃ cs, combineZip f as bs = .ok cs := by
  induction as generalizing bs with
  | nil => exact ⟨_, rfl⟩
  | cons a as ih =>
    cases bs with
    | nil => exact ⟨_, rfl⟩
    | cons b bs =>
      obtain ⟨c, hc⟩ := h 0 a b rfl rfl
      obtain ⟨cs, hcs⟩ := ih (bs := bs) fun k x y hx hy => h (k + 1) x y hx hy
      exact ⟨c :: cs, by simp only [combineZip, hc, hcs, ok_bind]⟩

theorem unknowns_apart {p q r : Psbt L} (hp : Spec.UnknownsApart p) (hq : Spec.UnknownsApart q) (h : p.combine q = .ok r) :
    Spec.UnknownsApart r := by
  obtain ⟨h1, h2, h3⟩ := combine_ok.mp h
  obtain ⟨-, -, -, hg⟩ := globalCombine_ok.mp h1
  obtain ⟨l2, z2⟩ := combineZip_ok.mp h2
  obtain ⟨l3, z3⟩ := combineZip_ok.mp h3
  refine ⟨fun k v hk => ?_, fun c hc k v hk => ?_, fun c hc k v hk => ?_⟩
  · rw [hg] at hk
    exact (map_origin hk).elim (hp.global k v) (hq.global k v)
  · obtain ⟨n, hn⟩ := List.getElem?_of_mem hc
    have hl := (List.getElem?_eq_some_iff.mp hn).1
    have hi : p.inputs[n]? = some (p.inputs[n]'(by omega)) := List.getElem?_eq_getElem _
    cases hj : q.inputs[n]? with
    | none =>
      have e : c = _ := (z2 n _ c hi hn).2 hj
      rw [e] at hk
      exact hp.inputs _ (List.mem_of_getElem? hi) k v hk
    | some j =>
      rw [(inputCombine_ok.mp ((z2 n _ c hi hn).1 j hj)).2.2] at hk
      exact (map_origin hk).elim (hp.inputs _ (List.mem_of_getElem? hi) k v) (hq.inputs _ (List.mem_of_getElem? hj) k v)
  · obtain ⟨n, hn⟩ := List.getElem?_of_mem hc
    have hl := (List.getElem?_eq_some_iff.mp hn).1
    have hi : p.outputs[n]? = some (p.outputs[n]'(by omega)) := List.getElem?_eq_getElem _
    cases hj : q.outputs[n]? with
    | none =>
      have e : c = _ := (z3 n _ c hi hn).2 hj
      rw [e] at hk
      exact hp.outputs _ (List.mem_of_getElem? hi) k v hk
    | some j =>
      rw [(outputCombine_ok.mp ((z3 n _ c hi hn).1 j hj)).2.2] at hk
      exact (map_origin hk).elim (hp.outputs _ (List.mem_of_getElem? hi) k v) (hq.outputs _ (List.mem_of_getElem? hj) k v)

/-- C102. Whatever the second participant put into the PSBT: combining the result with the first participant's PSBT
again succeeds and brings back every record of it. -/
theorem C102_v2_restored {p q r : Psbt L} (hp : Spec.UnknownsApart p) (hq : Spec.UnknownsApart q) (h : p.combine q = .ok r) :
    ∃ s, r.combine p = .ok s ∧ Spec.Preserves p s := by
  have hr := unknowns_apart hp hq h
  have c1 := C102_v2 hp h
  obtain ⟨h1, h2, h3⟩ := combine_ok.mp h
  obtain ⟨gv, gt, gx, hg⟩ := globalCombine_ok.mp h1
  obtain ⟨l2, z2⟩ := combineZip_ok.mp h2
  obtain ⟨l3, z3⟩ := combineZip_ok.mp h3
  have hs : ∃ s, r.combine p = .ok s := by
    obtain ⟨x, hx⟩ := mergeXpubs_total fun x => mergeOpt_back (gx x)
    obtain ⟨is, his⟩ := combineZip_total (f := Input.combine) (as := r.inputs) (bs := p.inputs) fun n c i hc hi => by
      cases hj : q.inputs[n]? with
      | none =>
        have e : c = i := (z2 n i c hi hc).2 hj
        exact ⟨_, inputCombine_ok.mpr ⟨by rw [e], by rw [e], rfl⟩⟩
      | some j =>
        have e := (inputCombine_ok.mp ((z2 n i c hi hc).1 j hj)).2.2
        exact ⟨_, inputCombine_ok.mpr ⟨by rw [e]; rfl, by rw [e]; rfl, rfl⟩⟩
    obtain ⟨os, hos⟩ := combineZip_total (f := Output.combine) (as := r.outputs) (bs := p.outputs) fun n c i hc hi => by
      cases hj : q.outputs[n]? with
      | none =>
        have e : c = i := (z3 n i c hi hc).2 hj
        exact ⟨_, outputCombine_ok.mpr ⟨by rw [e], by rw [e], rfl⟩⟩
      | some j =>
        have e := (outputCombine_ok.mp ((z3 n i c hi hc).1 j hj)).2.2
        exact ⟨_, outputCombine_ok.mpr ⟨by rw [e]; rfl, by rw [e]; rfl, rfl⟩⟩
    refine ⟨⟨{ r.global with
      xpubs := x
      spEcdhShares := r.global.spEcdhShares.extend p.global.spEcdhShares
      spDleqProofs := r.global.spDleqProofs.extend p.global.spDleqProofs
      proprietaries := r.global.proprietaries.extend p.global.proprietaries
      unknowns := r.global.unknowns.extend p.global.unknowns }, is, os⟩, combine_ok.mpr ⟨?_, his, hos⟩⟩
    exact globalCombine_ok.mpr ⟨by rw [hg], by rw [hg], hx, rfl⟩
  obtain ⟨s, hs⟩ := hs
  have c2 := C102_v2 hr hs
  refine ⟨s, hs, fun t k v ht hk => ?_, fun n i hi => ?_, fun n i hi => ?_⟩
  · have ht : t ∉ [(0x01 : UInt8)] := by simpa using ht
    by_cases hm : t ∈ singleGlobal
    · exact c2.global.first t k v hm ht (c1.global.first t k v hm ht hk)
    · exact c2.global.second t k v hm ht hk
  · have hl := (List.getElem?_eq_some_iff.mp hi).1
    have l4 := c2.inputCount
    have hc : r.inputs[n]? = some (r.inputs[n]'(by omega)) := List.getElem?_eq_getElem _
    have hd : s.inputs[n]? = some (s.inputs[n]'(by omega)) := List.getElem?_eq_getElem _
    refine ⟨_, hd, fun t k v ht hk => ?_⟩
    have ht : t ∉ [(0x00 : UInt8)] := by simpa using ht
    have c3 := c2.inputs n _ _ _ hc hi hd
    by_cases hm : t ∈ singleInput
    · refine c3.first t k v hm ht ?_
      cases hj : q.inputs[n]? with
      | none => rw [← Option.some.inj (hi.symm.trans ((c1.inputsLeft n hj).symm.trans hc))]; exact hk
      | some j => exact (c1.inputs n i j _ hi hj hc).first t k v hm ht hk
    · exact c3.second t k v hm ht hk
  · have hl := (List.getElem?_eq_some_iff.mp hi).1
    have l4 := c2.outputCount
    have hc : r.outputs[n]? = some (r.outputs[n]'(by omega)) := List.getElem?_eq_getElem _
    have hd : s.outputs[n]? = some (s.outputs[n]'(by omega)) := List.getElem?_eq_getElem _
    refine ⟨_, hd, fun t k v hk => ?_⟩
    have c3 := c2.outputs n _ _ _ hc hi hd
    by_cases hm : t ∈ singleOutput L.sp
    · refine c3.first t k v hm List.not_mem_nil ?_
      cases hj : q.outputs[n]? with
      | none => rw [← Option.some.inj (hi.symm.trans ((c1.outputsLeft n hj).symm.trans hc))]; exact hk
      | some j => exact (c1.outputs n i j _ hi hj hc).first t k v hm List.not_mem_nil hk
    · exact c3.second t k v hm List.not_mem_nil hk

end V2

namespace V0
variable {L : Lib}
open _root_.Psbt.Spec.V0 (singleGlobal singleInput singleOutput)

theorem precedence_input (a b : Input L) (ha : ∀ k v, a.unknown.get k = some v → k.ty ∉ singleInput) :
    Precedence singleInput [0x00] [0x03] (Spec.V0.InputPair a) (Spec.V0.InputPair b) (Spec.V0.InputPair (a.combine b)) where
  first t k v hs hm h := by
    cases h with
    | nonWitnessUtxo _ => exact absurd (by decide) hm
    | witnessUtxo h => exact .witnessUtxo ((V2.combUtxos_snd _ _).trans (opt_first h))
    | partialSig _ => exact absurd hs (by decide)
    | sighashType h => exact .sighashType h
    | redeemScript h => exact .redeemScript (opt_first h)
    | witnessScript h => exact .witnessScript (opt_first h)
    | bip32Derivation _ => exact absurd hs (by decide)
    | finalScriptSig h => exact .finalScriptSig (opt_first h)
    | finalScriptWitness h => exact .finalScriptWitness (opt_first h)
    | ripemd160 _ => exact absurd hs (by decide)
    | sha256 _ => exact absurd hs (by decide)
    | hash160 _ => exact absurd hs (by decide)
    | hash256 _ => exact absurd hs (by decide)
    | tapKeySig h => exact .tapKeySig (opt_first h)
    | tapScriptSig _ => exact absurd hs (by decide)
    | tapLeafScript _ => exact absurd hs (by decide)
    | tapBip32Derivation _ => exact absurd hs (by decide)
    | tapInternalKey h => exact .tapInternalKey (opt_first h)
    | tapMerkleRoot h => exact .tapMerkleRoot (opt_first h)
    | proprietary _ => exact absurd hs (by decide)
    | unknown h => exact absurd hs (ha _ _ h)
  second t k v hs hm h := by
    cases h with
    | nonWitnessUtxo _ => exact absurd (by decide) hs
    | witnessUtxo _ => exact absurd (by decide) hs
    | partialSig h => exact .partialSig (map_second h)
    | sighashType _ => exact absurd (by decide) hs
    | redeemScript _ => exact absurd (by decide) hs
    | witnessScript _ => exact absurd (by decide) hs
    | bip32Derivation h => exact .bip32Derivation (map_second h)
    | finalScriptSig _ => exact absurd (by decide) hs
    | finalScriptWitness _ => exact absurd (by decide) hs
    | ripemd160 h => exact .ripemd160 (map_second h)
    | sha256 h => exact .sha256 (map_second h)
    | hash160 h => exact .hash160 (map_second h)
    | hash256 h => exact .hash256 (map_second h)
    | tapKeySig _ => exact absurd (by decide) hs
    | tapScriptSig h => exact .tapScriptSig (map_second h)
    | tapLeafScript h => exact .tapLeafScript (map_second h)
    | tapBip32Derivation h => exact .tapBip32Derivation (map_second h)
    | tapInternalKey _ => exact absurd (by decide) hs
    | tapMerkleRoot _ => exact absurd (by decide) hs
    | proprietary h => exact .proprietary (map_second h)
    | unknown h => exact .unknown (map_second h)
  firstAlone t k v hm h hy := by
    cases h with
    | nonWitnessUtxo _ => exact absurd (by decide) hm
    | witnessUtxo h => exact .witnessUtxo ((V2.combUtxos_snd _ _).trans (opt_first h))
    | partialSig h => exact .partialSig (map_first h (none_of fun _ e => hy _ (.partialSig e)))
    | sighashType h => exact .sighashType h
    | redeemScript h => exact .redeemScript (opt_first h)
    | witnessScript h => exact .witnessScript (opt_first h)
    | bip32Derivation h => exact .bip32Derivation (map_first h (none_of fun _ e => hy _ (.bip32Derivation e)))
    | finalScriptSig h => exact .finalScriptSig (opt_first h)
    | finalScriptWitness h => exact .finalScriptWitness (opt_first h)
    | ripemd160 h => exact .ripemd160 (map_first h (none_of fun _ e => hy _ (.ripemd160 e)))
    | sha256 h => exact .sha256 (map_first h (none_of fun _ e => hy _ (.sha256 e)))
    | hash160 h => exact .hash160 (map_first h (none_of fun _ e => hy _ (.hash160 e)))
    | hash256 h => exact .hash256 (map_first h (none_of fun _ e => hy _ (.hash256 e)))
    | tapKeySig h => exact .tapKeySig (opt_first h)
    | tapScriptSig h => exact .tapScriptSig (map_first h (none_of fun _ e => hy _ (.tapScriptSig e)))
    | tapLeafScript h => exact .tapLeafScript (map_first h (none_of fun _ e => hy _ (.tapLeafScript e)))
    | tapBip32Derivation h => exact .tapBip32Derivation (map_first h (none_of fun _ e => hy _ (.tapBip32Derivation e)))
    | tapInternalKey h => exact .tapInternalKey (opt_first h)
    | tapMerkleRoot h => exact .tapMerkleRoot (opt_first h)
    | proprietary h => exact .proprietary (map_first h (none_of fun _ e => hy _ (.proprietary e)))
    | unknown h => exact .unknown (map_first h (none_of fun _ e => hy _ (.unknown e)))
  secondAlone t k v hm ho h hx := by
    cases h with
    | nonWitnessUtxo _ => exact absurd (by decide) hm
    | witnessUtxo h => exact .witnessUtxo ((V2.combUtxos_snd _ _).trans (opt_second h (none_of fun _ e => hx _ (.witnessUtxo e))))
    | partialSig h => exact .partialSig (map_second h)
    | sighashType _ => exact absurd (by decide) ho
    | redeemScript h => exact .redeemScript (opt_second h (none_of fun _ e => hx _ (.redeemScript e)))
    | witnessScript h => exact .witnessScript (opt_second h (none_of fun _ e => hx _ (.witnessScript e)))
    | bip32Derivation h => exact .bip32Derivation (map_second h)
    | finalScriptSig h => exact .finalScriptSig (opt_second h (none_of fun _ e => hx _ (.finalScriptSig e)))
    | finalScriptWitness h => exact .finalScriptWitness (opt_second h (none_of fun _ e => hx _ (.finalScriptWitness e)))
    | ripemd160 h => exact .ripemd160 (map_second h)
    | sha256 h => exact .sha256 (map_second h)
    | hash160 h => exact .hash160 (map_second h)
    | hash256 h => exact .hash256 (map_second h)
    | tapKeySig h => exact .tapKeySig (opt_second h (none_of fun _ e => hx _ (.tapKeySig e)))
    | tapScriptSig h => exact .tapScriptSig (map_second h)
    | tapLeafScript h => exact .tapLeafScript (map_second h)
    | tapBip32Derivation h => exact .tapBip32Derivation (map_second h)
    | tapInternalKey h => exact .tapInternalKey (opt_second h (none_of fun _ e => hx _ (.tapInternalKey e)))
    | tapMerkleRoot h => exact .tapMerkleRoot (opt_second h (none_of fun _ e => hx _ (.tapMerkleRoot e)))
    | proprietary h => exact .proprietary (map_second h)
    | unknown h => exact .unknown (map_second h)
  origin t k v hm h := by
    cases h with
    | nonWitnessUtxo _ => exact absurd (by decide) hm
    | witnessUtxo h => exact (opt_origin ((V2.combUtxos_snd _ _).symm.trans h)).imp .witnessUtxo .witnessUtxo
    | partialSig h => exact (map_origin h).imp .partialSig .partialSig
    | sighashType h => exact .inl (.sighashType h)
    | redeemScript h => exact (opt_origin h).imp .redeemScript .redeemScript
    | witnessScript h => exact (opt_origin h).imp .witnessScript .witnessScript
    | bip32Derivation h => exact (map_origin h).imp .bip32Derivation .bip32Derivation
    | finalScriptSig h => exact (opt_origin h).imp .finalScriptSig .finalScriptSig
    | finalScriptWitness h => exact (opt_origin h).imp .finalScriptWitness .finalScriptWitness
    | ripemd160 h => exact (map_origin h).imp .ripemd160 .ripemd160
    | sha256 h => exact (map_origin h).imp .sha256 .sha256
    | hash160 h => exact (map_origin h).imp .hash160 .hash160
    | hash256 h => exact (map_origin h).imp .hash256 .hash256
    | tapKeySig h => exact (opt_origin h).imp .tapKeySig .tapKeySig
    | tapScriptSig h => exact (map_origin h).imp .tapScriptSig .tapScriptSig
    | tapLeafScript h => exact (map_origin h).imp .tapLeafScript .tapLeafScript
    | tapBip32Derivation h => exact (map_origin h).imp .tapBip32Derivation .tapBip32Derivation
    | tapInternalKey h => exact (opt_origin h).imp .tapInternalKey .tapInternalKey
    | tapMerkleRoot h => exact (opt_origin h).imp .tapMerkleRoot .tapMerkleRoot
    | proprietary h => exact (map_origin h).imp .proprietary .proprietary
    | unknown h => exact (map_origin h).imp .unknown .unknown

theorem precedence_output (a b : Output L) (ha : ∀ k v, a.unknown.get k = some v → k.ty ∉ singleOutput) :
    Precedence singleOutput [] [] (Spec.V0.OutputPair a) (Spec.V0.OutputPair b) (Spec.V0.OutputPair (a.combine b)) where
  first t k v hs hm h := by
    cases h with
    | redeemScript h => exact .redeemScript (opt_first h)
    | witnessScript h => exact .witnessScript (opt_first h)
    | bip32Derivation _ => exact absurd hs (by decide)
    | tapInternalKey h => exact .tapInternalKey (opt_first h)
    | tapTree h => exact .tapTree (opt_first h)
    | tapBip32Derivation _ => exact absurd hs (by decide)
    | proprietary _ => exact absurd hs (by decide)
    | unknown h => exact absurd hs (ha _ _ h)
  second t k v hs hm h := by
    cases h with
    | redeemScript _ => exact absurd (by decide) hs
    | witnessScript _ => exact absurd (by decide) hs
    | bip32Derivation h => exact .bip32Derivation (map_second h)
    | tapInternalKey _ => exact absurd (by decide) hs
    | tapTree _ => exact absurd (by decide) hs
    | tapBip32Derivation h => exact .tapBip32Derivation (map_second h)
    | proprietary h => exact .proprietary (map_second h)
    | unknown h => exact .unknown (map_second h)
  firstAlone t k v hm h hy := by
    cases h with
    | redeemScript h => exact .redeemScript (opt_first h)
    | witnessScript h => exact .witnessScript (opt_first h)
    | bip32Derivation h => exact .bip32Derivation (map_first h (none_of fun _ e => hy _ (.bip32Derivation e)))
    | tapInternalKey h => exact .tapInternalKey (opt_first h)
    | tapTree h => exact .tapTree (opt_first h)
    | tapBip32Derivation h => exact .tapBip32Derivation (map_first h (none_of fun _ e => hy _ (.tapBip32Derivation e)))
    | proprietary h => exact .proprietary (map_first h (none_of fun _ e => hy _ (.proprietary e)))
    | unknown h => exact .unknown (map_first h (none_of fun _ e => hy _ (.unknown e)))
  secondAlone t k v hm ho h hx := by
    cases h with
    | redeemScript h => exact .redeemScript (opt_second h (none_of fun _ e => hx _ (.redeemScript e)))
    | witnessScript h => exact .witnessScript (opt_second h (none_of fun _ e => hx _ (.witnessScript e)))
    | bip32Derivation h => exact .bip32Derivation (map_second h)
    | tapInternalKey h => exact .tapInternalKey (opt_second h (none_of fun _ e => hx _ (.tapInternalKey e)))
    | tapTree h => exact .tapTree (opt_second h (none_of fun _ e => hx _ (.tapTree e)))
    | tapBip32Derivation h => exact .tapBip32Derivation (map_second h)
    | proprietary h => exact .proprietary (map_second h)
    | unknown h => exact .unknown (map_second h)
  origin t k v hm h := by
    cases h with
    | redeemScript h => exact (opt_origin h).imp .redeemScript .redeemScript
    | witnessScript h => exact (opt_origin h).imp .witnessScript .witnessScript
    | bip32Derivation h => exact (map_origin h).imp .bip32Derivation .bip32Derivation
    | tapInternalKey h => exact (opt_origin h).imp .tapInternalKey .tapInternalKey
    | tapTree h => exact (opt_origin h).imp .tapTree .tapTree
    | tapBip32Derivation h => exact (map_origin h).imp .tapBip32Derivation .tapBip32Derivation
    | proprietary h => exact (map_origin h).imp .proprietary .proprietary
    | unknown h => exact (map_origin h).imp .unknown .unknown

theorem precedence_global {p q r : Psbt L} (h : p.combine q = (r, .ok ()))
    (ha : ∀ k v, p.unknown.get k = some v → k.ty ∉ singleGlobal) :
    Precedence singleGlobal [0x01, 0xFB] [] (Spec.V0.GlobalPair p) (Spec.V0.GlobalPair q) (Spec.V0.GlobalPair r) := by
  obtain ⟨-, -, hr⟩ := combine_ok.mp h
  rw [hr]
  exact {
  first t k v hs hm h := by
    cases h with
    | unsignedTx => exact .unsignedTx
    | xpub _ => exact absurd (by decide) hm
    | version _ => exact absurd (by decide) hm
    | proprietary _ => exact absurd hs (by decide)
    | unknown h => exact absurd hs (ha _ _ h)
  second t k v hs hm h := by
    cases h with
    | unsignedTx => exact absurd (by decide) hs
    | xpub _ => exact absurd (by decide) hm
    | version _ => exact absurd (by decide) hs
    | proprietary h => exact .proprietary (map_second h)
    | unknown h => exact .unknown (map_second h)
  firstAlone t k v hm h hy := by
    cases h with
    | unsignedTx => exact .unsignedTx
    | xpub _ => exact absurd (by decide) hm
    | version _ => exact absurd (by decide) hm
    | proprietary h => exact .proprietary (map_first h (none_of fun _ e => hy _ (.proprietary e)))
    | unknown h => exact .unknown (map_first h (none_of fun _ e => hy _ (.unknown e)))
  secondAlone t k v hm ho h hx := by
    cases h with
    | unsignedTx => exact absurd .unsignedTx (hx _)
    | xpub _ => exact absurd (by decide) hm
    | version _ => exact absurd (by decide) hm
    | proprietary h => exact .proprietary (map_second h)
    | unknown h => exact .unknown (map_second h)
  origin t k v hm h := by
    cases h with
    | unsignedTx => exact .inl .unsignedTx
    | xpub _ => exact absurd (by decide) hm
    | version _ => exact absurd (by decide) hm
    | proprietary h => exact (map_origin h).imp .proprietary .proprietary
    | unknown h => exact (map_origin h).imp .unknown .unknown
  }

/-- C102. A combined PSBT v0 is made from the two PSBTs in the stated way. -/
theorem C102_v0 {p q r : Psbt L} (hp : Spec.V0.UnknownsApart p) (h : p.combine q = (r, .ok ())) : Spec.V0.Combined p q r := by
  obtain ⟨-, -, hr⟩ := combine_ok.mp h
  have e1 : r.inputs = combineZip Input.combine p.inputs q.inputs := by rw [hr]
  have e2 : r.outputs = combineZip Output.combine p.outputs q.outputs := by rw [hr]
  refine ⟨precedence_global h hp.global, by rw [e1, combineZip_length], fun n i j c hi hj hc => ?_, fun n hj => ?_,
    by rw [e2, combineZip_length], fun n i j c hi hj hc => ?_, fun n hj => ?_⟩
  · rw [e1, combineZip_getElem?, hi, hj] at hc
    cases hc
    exact precedence_input i j (hp.inputs i (List.mem_of_getElem? hi))
  · rw [e1, combineZip_getElem?, hj]
    cases p.inputs[n]? <;> rfl
  · rw [e2, combineZip_getElem?, hi, hj] at hc
    cases hc
    exact precedence_output i j (hp.outputs i (List.mem_of_getElem? hi))
  · rw [e2, combineZip_getElem?, hj]
    cases p.outputs[n]? <;> rfl

theorem unknowns_apart {p q r : Psbt L} (hp : Spec.V0.UnknownsApart p) (hq : Spec.V0.UnknownsApart q)
    (h : p.combine q = (r, .ok ())) : Spec.V0.UnknownsApart r := by
  obtain ⟨-, -, hr⟩ := combine_ok.mp h
  refine ⟨fun k v hk => ?_, fun c hc k v hk => ?_, fun c hc k v hk => ?_⟩
  · rw [hr] at hk
    exact (map_origin hk).elim (hp.global k v) (hq.global k v)
  · obtain ⟨n, hn⟩ := List.getElem?_of_mem hc
    rw [hr, combineZip_getElem?] at hn
    cases hi : p.inputs[n]? with
    | none => rw [hi] at hn; cases hn
    | some i =>
      cases hj : q.inputs[n]? with
      | none => rw [hi, hj] at hn; cases hn; exact hp.inputs _ (List.mem_of_getElem? hi) k v hk
      | some j =>
        rw [hi, hj] at hn; cases hn
        exact (map_origin hk).elim (hp.inputs _ (List.mem_of_getElem? hi) k v) (hq.inputs _ (List.mem_of_getElem? hj) k v)
  · obtain ⟨n, hn⟩ := List.getElem?_of_mem hc
    rw [hr, combineZip_getElem?] at hn
    cases hi : p.outputs[n]? with
    | none => rw [hi] at hn; cases hn
    | some i =>
      cases hj : q.outputs[n]? with
      | none => rw [hi, hj] at hn; cases hn; exact hp.outputs _ (List.mem_of_getElem? hi) k v hk
      | some j =>
        rw [hi, hj] at hn; cases hn
        exact (map_origin hk).elim (hp.outputs _ (List.mem_of_getElem? hi) k v) (hq.outputs _ (List.mem_of_getElem? hj) k v)

/-- C102. Whatever the second participant put into the PSBT: combining the result with the first participant's PSBT
again succeeds and brings back every record of it. -/
theorem C102_v0_restored {p q r : Psbt L} (hp : Spec.V0.UnknownsApart p) (hq : Spec.V0.UnknownsApart q)
    (h : p.combine q = (r, .ok ())) : ∃ s, r.combine p = (s, .ok ()) ∧ Spec.V0.Preserves p s := by
  have hr := unknowns_apart hp hq h
  have c1 := C102_v0 hp h
  obtain ⟨gt, gx, hg⟩ := combine_ok.mp h
  obtain ⟨x, hx⟩ := V2.mergeXpubs_total fun x => V2.mergeOpt_back (gx x)
  have hs : ∃ s, r.combine p = (s, .ok ()) := ⟨{ r with
      version := vmax r.version p.version
      xpub := x
      proprietary := r.proprietary.extend p.proprietary
      unknown := r.unknown.extend p.unknown
      inputs := combineZip Input.combine r.inputs p.inputs
      outputs := combineZip Output.combine r.outputs p.outputs }, combine_ok.mpr ⟨by rw [hg], hx, rfl⟩⟩
  obtain ⟨s, hs⟩ := hs
  have c2 := C102_v0 hr hs
  refine ⟨s, hs, fun t k v ht hv hk => ?_, fun n i hi => ?_, fun n i hi => ?_⟩
  · have ht : t ∉ [(0x01 : UInt8), 0xFB] := by simp [ht, hv]
    by_cases hm : t ∈ singleGlobal
    · exact c2.global.first t k v hm ht (c1.global.first t k v hm ht hk)
    · exact c2.global.second t k v hm ht hk
  · have hl := (List.getElem?_eq_some_iff.mp hi).1
    have l2 := c1.inputCount
    have l4 := c2.inputCount
    have hc : r.inputs[n]? = some (r.inputs[n]'(by omega)) := List.getElem?_eq_getElem _
    have hd : s.inputs[n]? = some (s.inputs[n]'(by omega)) := List.getElem?_eq_getElem _
    refine ⟨_, hd, fun t k v ht hk => ?_⟩
    have ht : t ∉ [(0x00 : UInt8)] := by simpa using ht
    have c3 := c2.inputs n _ _ _ hc hi hd
    by_cases hm : t ∈ singleInput
    · refine c3.first t k v hm ht ?_
      cases hj : q.inputs[n]? with
      | none => rw [← Option.some.inj (hi.symm.trans ((c1.inputsLeft n hj).symm.trans hc))]; exact hk
      | some j => exact (c1.inputs n i j _ hi hj hc).first t k v hm ht hk
    · exact c3.second t k v hm ht hk
  · have hl := (List.getElem?_eq_some_iff.mp hi).1
    have l2 := c1.outputCount
    have l4 := c2.outputCount
    have hc : r.outputs[n]? = some (r.outputs[n]'(by omega)) := List.getElem?_eq_getElem _
    have hd : s.outputs[n]? = some (s.outputs[n]'(by omega)) := List.getElem?_eq_getElem _
    refine ⟨_, hd, fun t k v hk => ?_⟩
    have c3 := c2.outputs n _ _ _ hc hi hd
    by_cases hm : t ∈ singleOutput
    · refine c3.first t k v hm List.not_mem_nil ?_
      cases hj : q.outputs[n]? with
      | none => rw [← Option.some.inj (hi.symm.trans ((c1.outputsLeft n hj).symm.trans hc))]; exact hk
      | some j => exact (c1.outputs n i j _ hi hj hc).first t k v hm List.not_mem_nil hk
    · exact c3.second t k v hm List.not_mem_nil hk

/-! ### A participant who puts in invalid signatures -/

open Spec (ecdsaBytes schnorrBytes keyCode)

/-- The two inputs of `yP` that are spent with a segwit v0 and a taproot key, and the PSBT the first participant signed. -/
def pP : Psbt gL := gP [gEcdsa (gIn ySh), yTr]
def pQ : Psbt gL := gQ pP

/-- Libraries that satisfy `wpkh` and accept the signatures of `gS` for the two inputs only. -/
def pM : MsLib gL where
  ofSecp x := ⟨x.bytes, x.ok⟩
  Ms := Bytes
  parse _ _ := none
  substitute _ b := b
  accepts _ := true
  satisfy _ d sat := match d with
    | .wpkh pk => (sat.ecdsaSig pk).map fun s => ([s.der.bytes ++ [s.ty.1], pk.bytes], [])
    | _ => none
  TapMs := Bytes
  tapParse _ := none
  tapSubstitute _ b := b
  tapSatisfy _ _ _ := none
  tapEncode b := b
  interp a := if a.index = 0 then
      match segwitSighash gL a.tx 0 (keyCode yKey) 1000 ⟨1, by decide⟩ with
      | some m => if a.witness = [ecdsaBytes gS m ySk ⟨1, by decide⟩, yKey.bytes] then none else some .satisfaction
      | none => some .satisfaction
    else
      match tapSighash gL a.tx 1 (.all a.utxos) none ⟨0, by decide⟩ with
      | .ok m => if a.witness = [schnorrBytes gS m (gS.tapTweak (gS.keypair ySk) none) ⟨0, by decide⟩] then none else some .satisfaction
      | .error _ => some .satisfaction

/-- Finalizing succeeds for every input. -/
def finalizes (p : Psbt gL) : Bool := match p.finalizeMut pM false with
  | .ok (_, []) => true
  | _ => false

/-- The PSBT of the second participant: other signatures for the same inputs, the first one under the same key. -/
def pBad : Psbt gL := { pP with inputs :=
  [{ gEcdsa (gIn ySh) with partialSigs := BMap.empty.insert yKey ⟨Demo.val 8 (by decide) 9, ⟨1, by decide⟩⟩ },
    { yTr with tapKeySig := some ⟨Demo.rep 64 9, ⟨0, by decide⟩⟩ }] }

/-- C102 does not hold of what participants contribute with their signatures: from a PSBT that is signed and finalizes, and
one of another participant with other signatures, neither `combine` makes a PSBT that finalizes. The ECDSA signature is
lost in one order, the taproot signature in the other one. Only the first participant's PSBT combined in again makes up
for it. -/
theorem C102_signatures_counterexample : ∃ (p q bad r r' s : Psbt gL) (used : BMap Nat (SigningKeys gL)),
    p.sign gS gKeys = .ok (q, .ok used) ∧ finalizes q = true ∧
    q.combine bad = (r, .ok ()) ∧ finalizes r = false ∧ bad.combine q = (r', .ok ()) ∧ finalizes r' = false ∧
    r.combine q = (s, .ok ()) ∧ finalizes s = true :=
  ⟨pP, pQ, pBad, _, _, _, _, rfl, by decide +kernel, rfl, by decide +kernel, rfl, by decide +kernel, rfl, by decide +kernel⟩

/-- What a parser returns meets the condition on unknown records. -/
theorem C102_v0_parsed {p : Psbt L} (h : Spec.V0.WF p) : Spec.V0.UnknownsApart p where
  global k v hk hm := h.unknowns k v hk (by
    have : ∀ t ∈ Spec.V0.singleGlobal, t ∈ Spec.V0.globalTypes := by decide
    exact this _ hm)
  inputs i hi k v hk hm := (h.inputs i hi).unknowns k v hk (by
    have : ∀ t ∈ Spec.V0.singleInput, t ∈ Spec.V0.inputTypes := by decide
    exact this _ hm)
  outputs o ho k v hk hm := (h.outputs o ho).unknowns k v hk (by
    have : ∀ t ∈ Spec.V0.singleOutput, t ∈ Spec.V0.outputTypes := by decide
    exact this _ hm)

-- The hypotheses of `C102_v0` and `C102_v0_restored` are met by these PSBTs.
theorem pApart (i j : Input gL) (hi : i.unknown = .empty) (hj : j.unknown = .empty) : Spec.V0.UnknownsApart { pP with inputs := [i, j] } where
  global _ _ h := by cases h
  inputs x hx k v h := by
    rcases List.mem_cons.mp hx with rfl | hx
    · rw [hi] at h; cases h
    · cases List.mem_singleton.mp hx; rw [hj] at h; cases h
  outputs x hx k v h := by cases List.mem_singleton.mp hx; cases h
example : Spec.V0.UnknownsApart pBad := pApart _ _ rfl rfl
example : Spec.V0.UnknownsApart pQ := pApart (pQ.inputs[0]'(by decide +kernel)) (pQ.inputs[1]'(by decide +kernel)) rfl rfl
end V0

namespace V2
/-- What a parser returns meets the condition on unknown records. -/
theorem C102_v2_parsed {L : Lib} {p : Psbt L} (h : Spec.WF p) : Spec.UnknownsApart p where
  global k v hk hm := h.global.unknowns k v hk (by
    have : ∀ t ∈ Spec.singleGlobal, ∀ b, t ∈ Spec.globalTypes b := by decide
    exact this _ hm _)
  inputs i hi k v hk hm := (h.inputs i hi).unknowns k v hk (by
    have : ∀ t ∈ Spec.singleInput, ∀ b, t ∈ Spec.inputTypes b := by decide
    exact this _ hm _)
  outputs o ho k v hk hm := (h.outputs o ho).unknowns k v hk (by
    have : ∀ b, ∀ t ∈ Spec.singleOutput b, t ∈ Spec.outputTypes b := by decide
    exact this _ _ hm)

-- The hypotheses of `C102_v2` and `C102_v2_restored` are met, with conflicting and with new records on both sides.
def pA : Psbt DL := cP [{ cIn 1 with sequence := some 5, witnessScript := some [1], unknowns := BMap.empty.insert ⟨0xEE, [1]⟩ [1] }]
def pB : Psbt DL := cP [{ cIn 1 with sequence := some 6, minHeight := some ⟨7, by decide⟩, unknowns := (BMap.empty.insert ⟨0xEE, [1]⟩ [2]).insert ⟨0xEE, [2]⟩ [3] }]
theorem pApart (i : Input DL) (hi : ∀ kv ∈ i.unknowns.l, kv.1.ty = 0xEE) : Spec.UnknownsApart (cP [i]) where
  global _ _ h := by cases h
  inputs x hx k v h := by
    cases List.mem_singleton.mp hx
    rw [hi (k, v) (BMap.mem_iff_get.mpr h)]; decide
  outputs x hx k v h := by cases List.mem_singleton.mp hx; cases h
example : Spec.UnknownsApart pA ∧ Spec.UnknownsApart pB := ⟨pApart _ (by decide), pApart _ (by decide)⟩
example : ∃ r, pA.combine pB = .ok r ∧ r.inputs.map (fun i => (i.sequence, i.minHeight.isSome, i.unknowns.l.length,
    i.unknowns.get ⟨0xEE, [1]⟩)) = [(some 5, true, 2, some [2])] := ⟨_, rfl, by decide +kernel⟩
example : ∃ r s, pA.combine pB = .ok r ∧ r.combine pA = .ok s ∧ s.inputs.map (fun i => (i.sequence, i.minHeight.isSome, i.unknowns.l.length,
    i.unknowns.get ⟨0xEE, [1]⟩)) = [(some 5, true, 2, some [1])] := ⟨_, _, rfl, rfl, by decide +kernel⟩
end V2
end Psbt
