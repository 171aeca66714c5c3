/- C60: the PSBT v2 format. -/
import Verif.Lemmas.V2Format
import Verif.Props.V2Parse
namespace Psbt.V2
open Psbt

variable {L : Lib}

attribute [local irreducible] Spec.txBytes Spec.unsignedTxBytes Spec.txOutBytes Spec.witnessBytes Spec.compact Spec.blob Spec.le32 Spec.le64

local macro "pairEq" : tactic => `(tactic| first
  | rfl
  | (simp only [bare, ser_u32, ser_time, ser_height, ser_version, ser_amount, ser_tx, ser_txOut, ser_witness, ser_raw, ser_source, ser_pubkey, ser_secpPk,
      ser_xonly, ser_ctrl, ser_sig, ser_tapSig, ser_hash, ser_xonlyLeaf, ser_leafScript, ser_tapOrigin, ser_tapTree, encVar_eq, encVec_eq, List.append_eq, List.append_assoc, PropKey.toKey, encProp, List.singleton_append, List.cons_append, List.nil_append]; done)
  | (simp only [bare, ser_u32, ser_time, ser_height, ser_version, ser_amount, ser_tx, ser_txOut, ser_witness, ser_raw, ser_source, ser_pubkey, ser_secpPk,
      ser_xonly, ser_ctrl, ser_sig, ser_tapSig, ser_hash, ser_xonlyLeaf, ser_leafScript, ser_tapOrigin, ser_tapTree, encVar_eq, encVec_eq, List.append_eq, List.append_assoc, PropKey.toKey, encProp, List.singleton_append, List.cons_append, List.nil_append]; rfl))

/-- C60. The pairs of a global map are exactly those the format defines for its fields. -/
theorem C60_global_pairs (g : Global L) (p : Pair) : p ∈ g.getPairs ↔ Spec.GlobalPair g p.key.ty p.key.key p.value := by
  unfold Global.getPairs
  simp only [List.flatten_cons, List.flatten_nil, List.append_nil, List.mem_append, List.mem_singleton, mem_emitOpt, mem_emitMap,
    mem_emitSp, mem_emitProp, mem_emitUnknown, mem_emitXpub, mem_emitSpInfo, mem_emitSpLabel]
  constructor
  · rintro (rfl | rfl | ⟨v, h, rfl⟩ | rfl | rfl | rfl | ⟨k, v, h, rfl⟩ | ⟨hs, k, v, h, rfl⟩ | ⟨hs, k, v, h, rfl⟩ | ⟨k, v, h, rfl⟩ | ⟨k, v, h, rfl⟩)
    · have h60 := Spec.GlobalPair.version (g := g)
      simpa only [bare, ser_u32, ser_time, ser_height, ser_version, ser_amount, ser_tx, ser_txOut, ser_witness, ser_raw, ser_source, ser_pubkey, ser_secpPk,
      ser_xonly, ser_ctrl, ser_sig, ser_tapSig, ser_hash, ser_xonlyLeaf, ser_leafScript, ser_tapOrigin, ser_tapTree, encVar_eq, encVec_eq, List.append_assoc, PropKey.toKey, encProp, List.singleton_append, List.cons_append, List.nil_append] using h60
    · have h60 := Spec.GlobalPair.txVersion (g := g)
      simpa only [bare, ser_u32, ser_time, ser_height, ser_version, ser_amount, ser_tx, ser_txOut, ser_witness, ser_raw, ser_source, ser_pubkey, ser_secpPk,
      ser_xonly, ser_ctrl, ser_sig, ser_tapSig, ser_hash, ser_xonlyLeaf, ser_leafScript, ser_tapOrigin, ser_tapTree, encVar_eq, encVec_eq, List.append_assoc, PropKey.toKey, encProp, List.singleton_append, List.cons_append, List.nil_append] using h60
    · have h60 := Spec.GlobalPair.fallbackLockTime (g := g) h
      simpa only [bare, ser_u32, ser_time, ser_height, ser_version, ser_amount, ser_tx, ser_txOut, ser_witness, ser_raw, ser_source, ser_pubkey, ser_secpPk,
      ser_xonly, ser_ctrl, ser_sig, ser_tapSig, ser_hash, ser_xonlyLeaf, ser_leafScript, ser_tapOrigin, ser_tapTree, encVar_eq, encVec_eq, List.append_assoc, PropKey.toKey, encProp, List.singleton_append, List.cons_append, List.nil_append] using h60
    · have h60 := Spec.GlobalPair.inputCount (g := g)
      simpa only [bare, ser_u32, ser_time, ser_height, ser_version, ser_amount, ser_tx, ser_txOut, ser_witness, ser_raw, ser_source, ser_pubkey, ser_secpPk,
      ser_xonly, ser_ctrl, ser_sig, ser_tapSig, ser_hash, ser_xonlyLeaf, ser_leafScript, ser_tapOrigin, ser_tapTree, encVar_eq, encVec_eq, List.append_assoc, PropKey.toKey, encProp, List.singleton_append, List.cons_append, List.nil_append] using h60
    · have h60 := Spec.GlobalPair.outputCount (g := g)
      simpa only [bare, ser_u32, ser_time, ser_height, ser_version, ser_amount, ser_tx, ser_txOut, ser_witness, ser_raw, ser_source, ser_pubkey, ser_secpPk,
      ser_xonly, ser_ctrl, ser_sig, ser_tapSig, ser_hash, ser_xonlyLeaf, ser_leafScript, ser_tapOrigin, ser_tapTree, encVar_eq, encVec_eq, List.append_assoc, PropKey.toKey, encProp, List.singleton_append, List.cons_append, List.nil_append] using h60
    · have h60 := Spec.GlobalPair.txModifiable (g := g)
      simpa only [bare, ser_u32, ser_time, ser_height, ser_version, ser_amount, ser_tx, ser_txOut, ser_witness, ser_raw, ser_source, ser_pubkey, ser_secpPk,
      ser_xonly, ser_ctrl, ser_sig, ser_tapSig, ser_hash, ser_xonlyLeaf, ser_leafScript, ser_tapOrigin, ser_tapTree, encVar_eq, encVec_eq, List.append_assoc, PropKey.toKey, encProp, List.singleton_append, List.cons_append, List.nil_append] using h60
    · have h60 := Spec.GlobalPair.xpub (g := g) h
      simpa only [bare, ser_u32, ser_time, ser_height, ser_version, ser_amount, ser_tx, ser_txOut, ser_witness, ser_raw, ser_source, ser_pubkey, ser_secpPk,
      ser_xonly, ser_ctrl, ser_sig, ser_tapSig, ser_hash, ser_xonlyLeaf, ser_leafScript, ser_tapOrigin, ser_tapTree, encVar_eq, encVec_eq, List.append_assoc, PropKey.toKey, encProp, List.singleton_append, List.cons_append, List.nil_append] using h60
    · have h60 := Spec.GlobalPair.spEcdhShare (g := g) hs h
      simpa only [bare, ser_u32, ser_time, ser_height, ser_version, ser_amount, ser_tx, ser_txOut, ser_witness, ser_raw, ser_source, ser_pubkey, ser_secpPk,
      ser_xonly, ser_ctrl, ser_sig, ser_tapSig, ser_hash, ser_xonlyLeaf, ser_leafScript, ser_tapOrigin, ser_tapTree, encVar_eq, encVec_eq, List.append_assoc, PropKey.toKey, encProp, List.singleton_append, List.cons_append, List.nil_append] using h60
    · have h60 := Spec.GlobalPair.spDleqProof (g := g) hs h
      simpa only [bare, ser_u32, ser_time, ser_height, ser_version, ser_amount, ser_tx, ser_txOut, ser_witness, ser_raw, ser_source, ser_pubkey, ser_secpPk,
      ser_xonly, ser_ctrl, ser_sig, ser_tapSig, ser_hash, ser_xonlyLeaf, ser_leafScript, ser_tapOrigin, ser_tapTree, encVar_eq, encVec_eq, List.append_assoc, PropKey.toKey, encProp, List.singleton_append, List.cons_append, List.nil_append] using h60
    · have h60 := Spec.GlobalPair.proprietary (g := g) h
      simpa only [bare, ser_u32, ser_time, ser_height, ser_version, ser_amount, ser_tx, ser_txOut, ser_witness, ser_raw, ser_source, ser_pubkey, ser_secpPk,
      ser_xonly, ser_ctrl, ser_sig, ser_tapSig, ser_hash, ser_xonlyLeaf, ser_leafScript, ser_tapOrigin, ser_tapTree, encVar_eq, encVec_eq, List.append_assoc, PropKey.toKey, encProp, List.singleton_append, List.cons_append, List.nil_append] using h60
    · have h60 := Spec.GlobalPair.unknown (g := g) h
      simpa only [bare, ser_u32, ser_time, ser_height, ser_version, ser_amount, ser_tx, ser_txOut, ser_witness, ser_raw, ser_source, ser_pubkey, ser_secpPk,
      ser_xonly, ser_ctrl, ser_sig, ser_tapSig, ser_hash, ser_xonlyLeaf, ser_leafScript, ser_tapOrigin, ser_tapTree, encVar_eq, encVec_eq, List.append_assoc, PropKey.toKey, encProp, List.singleton_append, List.cons_append, List.nil_append] using h60
  · obtain ⟨⟨t, kd⟩, val⟩ := p
    intro h
    cases h with
    | version => exact .inl (by pairEq)
    | txVersion => exact .inr (.inl (by pairEq))
    | fallbackLockTime h => exact .inr (.inr (.inl (⟨_, h, by pairEq⟩)))
    | inputCount => exact .inr (.inr (.inr (.inl (by pairEq))))
    | outputCount => exact .inr (.inr (.inr (.inr (.inl (by pairEq)))))
    | txModifiable => exact .inr (.inr (.inr (.inr (.inr (.inl (by pairEq))))))
    | xpub h => exact .inr (.inr (.inr (.inr (.inr (.inr (.inl (⟨_, _, h, by pairEq⟩)))))))
    | spEcdhShare hs h => exact .inr (.inr (.inr (.inr (.inr (.inr (.inr (.inl (⟨hs, _, _, h, by pairEq⟩))))))))
    | spDleqProof hs h => exact .inr (.inr (.inr (.inr (.inr (.inr (.inr (.inr (.inl (⟨hs, _, _, h, by pairEq⟩)))))))))
    | proprietary h => exact .inr (.inr (.inr (.inr (.inr (.inr (.inr (.inr (.inr (.inl (⟨_, _, h, by pairEq⟩))))))))))
    | unknown h => exact .inr (.inr (.inr (.inr (.inr (.inr (.inr (.inr (.inr (.inr (⟨_, _, h, by pairEq⟩))))))))))

/-- C60. The pairs of an input map are exactly those the format defines for its fields. -/
theorem C60_input_pairs (i : Input L) (p : Pair) : p ∈ i.getPairs ↔ Spec.InputPair i p.key.ty p.key.key p.value := by
  unfold Input.getPairs
  simp only [List.flatten_cons, List.flatten_nil, List.append_nil, List.mem_append, List.mem_singleton, mem_emitOpt, mem_emitMap,
    mem_emitSp, mem_emitProp, mem_emitUnknown, mem_emitXpub, mem_emitSpInfo, mem_emitSpLabel]
  constructor
  · rintro (rfl | rfl | ⟨v, h, rfl⟩ | ⟨v, h, rfl⟩ | ⟨v, h, rfl⟩ | ⟨v, h, rfl⟩ | ⟨v, h, rfl⟩ | ⟨k, v, h, rfl⟩ | ⟨v, h, rfl⟩ | ⟨v, h, rfl⟩ | ⟨v, h, rfl⟩ | ⟨k, v, h, rfl⟩ | ⟨v, h, rfl⟩ | ⟨v, h, rfl⟩ | ⟨k, v, h, rfl⟩ | ⟨k, v, h, rfl⟩ | ⟨k, v, h, rfl⟩ | ⟨k, v, h, rfl⟩ | ⟨v, h, rfl⟩ | ⟨k, v, h, rfl⟩ | ⟨k, v, h, rfl⟩ | ⟨k, v, h, rfl⟩ | ⟨v, h, rfl⟩ | ⟨v, h, rfl⟩ | ⟨hs, k, v, h, rfl⟩ | ⟨hs, k, v, h, rfl⟩ | ⟨k, v, h, rfl⟩ | ⟨k, v, h, rfl⟩)
    · have h60 := Spec.InputPair.previousTxid (i := i)
      simpa only [bare, ser_u32, ser_time, ser_height, ser_version, ser_amount, ser_tx, ser_txOut, ser_witness, ser_raw, ser_source, ser_pubkey, ser_secpPk,
      ser_xonly, ser_ctrl, ser_sig, ser_tapSig, ser_hash, ser_xonlyLeaf, ser_leafScript, ser_tapOrigin, ser_tapTree, encVar_eq, encVec_eq, List.append_assoc, PropKey.toKey, encProp, List.singleton_append, List.cons_append, List.nil_append] using h60
    · have h60 := Spec.InputPair.outputIndex (i := i)
      simpa only [bare, ser_u32, ser_time, ser_height, ser_version, ser_amount, ser_tx, ser_txOut, ser_witness, ser_raw, ser_source, ser_pubkey, ser_secpPk,
      ser_xonly, ser_ctrl, ser_sig, ser_tapSig, ser_hash, ser_xonlyLeaf, ser_leafScript, ser_tapOrigin, ser_tapTree, encVar_eq, encVec_eq, List.append_assoc, PropKey.toKey, encProp, List.singleton_append, List.cons_append, List.nil_append] using h60
    · have h60 := Spec.InputPair.sequence (i := i) h
      simpa only [bare, ser_u32, ser_time, ser_height, ser_version, ser_amount, ser_tx, ser_txOut, ser_witness, ser_raw, ser_source, ser_pubkey, ser_secpPk,
      ser_xonly, ser_ctrl, ser_sig, ser_tapSig, ser_hash, ser_xonlyLeaf, ser_leafScript, ser_tapOrigin, ser_tapTree, encVar_eq, encVec_eq, List.append_assoc, PropKey.toKey, encProp, List.singleton_append, List.cons_append, List.nil_append] using h60
    · have h60 := Spec.InputPair.timeLockTime (i := i) h
      simpa only [bare, ser_u32, ser_time, ser_height, ser_version, ser_amount, ser_tx, ser_txOut, ser_witness, ser_raw, ser_source, ser_pubkey, ser_secpPk,
      ser_xonly, ser_ctrl, ser_sig, ser_tapSig, ser_hash, ser_xonlyLeaf, ser_leafScript, ser_tapOrigin, ser_tapTree, encVar_eq, encVec_eq, List.append_assoc, PropKey.toKey, encProp, List.singleton_append, List.cons_append, List.nil_append] using h60
    · have h60 := Spec.InputPair.heightLockTime (i := i) h
      simpa only [bare, ser_u32, ser_time, ser_height, ser_version, ser_amount, ser_tx, ser_txOut, ser_witness, ser_raw, ser_source, ser_pubkey, ser_secpPk,
      ser_xonly, ser_ctrl, ser_sig, ser_tapSig, ser_hash, ser_xonlyLeaf, ser_leafScript, ser_tapOrigin, ser_tapTree, encVar_eq, encVec_eq, List.append_assoc, PropKey.toKey, encProp, List.singleton_append, List.cons_append, List.nil_append] using h60
    · have h60 := Spec.InputPair.nonWitnessUtxo (i := i) h
      simpa only [bare, ser_u32, ser_time, ser_height, ser_version, ser_amount, ser_tx, ser_txOut, ser_witness, ser_raw, ser_source, ser_pubkey, ser_secpPk,
      ser_xonly, ser_ctrl, ser_sig, ser_tapSig, ser_hash, ser_xonlyLeaf, ser_leafScript, ser_tapOrigin, ser_tapTree, encVar_eq, encVec_eq, List.append_assoc, PropKey.toKey, encProp, List.singleton_append, List.cons_append, List.nil_append] using h60
    · have h60 := Spec.InputPair.witnessUtxo (i := i) h
      simpa only [bare, ser_u32, ser_time, ser_height, ser_version, ser_amount, ser_tx, ser_txOut, ser_witness, ser_raw, ser_source, ser_pubkey, ser_secpPk,
      ser_xonly, ser_ctrl, ser_sig, ser_tapSig, ser_hash, ser_xonlyLeaf, ser_leafScript, ser_tapOrigin, ser_tapTree, encVar_eq, encVec_eq, List.append_assoc, PropKey.toKey, encProp, List.singleton_append, List.cons_append, List.nil_append] using h60
    · have h60 := Spec.InputPair.partialSig (i := i) h
      simpa only [bare, ser_u32, ser_time, ser_height, ser_version, ser_amount, ser_tx, ser_txOut, ser_witness, ser_raw, ser_source, ser_pubkey, ser_secpPk,
      ser_xonly, ser_ctrl, ser_sig, ser_tapSig, ser_hash, ser_xonlyLeaf, ser_leafScript, ser_tapOrigin, ser_tapTree, encVar_eq, encVec_eq, List.append_assoc, PropKey.toKey, encProp, List.singleton_append, List.cons_append, List.nil_append] using h60
    · have h60 := Spec.InputPair.sighashType (i := i) h
      simpa only [bare, ser_u32, ser_time, ser_height, ser_version, ser_amount, ser_tx, ser_txOut, ser_witness, ser_raw, ser_source, ser_pubkey, ser_secpPk,
      ser_xonly, ser_ctrl, ser_sig, ser_tapSig, ser_hash, ser_xonlyLeaf, ser_leafScript, ser_tapOrigin, ser_tapTree, encVar_eq, encVec_eq, List.append_assoc, PropKey.toKey, encProp, List.singleton_append, List.cons_append, List.nil_append] using h60
    · have h60 := Spec.InputPair.redeemScript (i := i) h
      simpa only [bare, ser_u32, ser_time, ser_height, ser_version, ser_amount, ser_tx, ser_txOut, ser_witness, ser_raw, ser_source, ser_pubkey, ser_secpPk,
      ser_xonly, ser_ctrl, ser_sig, ser_tapSig, ser_hash, ser_xonlyLeaf, ser_leafScript, ser_tapOrigin, ser_tapTree, encVar_eq, encVec_eq, List.append_assoc, PropKey.toKey, encProp, List.singleton_append, List.cons_append, List.nil_append] using h60
    · have h60 := Spec.InputPair.witnessScript (i := i) h
      simpa only [bare, ser_u32, ser_time, ser_height, ser_version, ser_amount, ser_tx, ser_txOut, ser_witness, ser_raw, ser_source, ser_pubkey, ser_secpPk,
      ser_xonly, ser_ctrl, ser_sig, ser_tapSig, ser_hash, ser_xonlyLeaf, ser_leafScript, ser_tapOrigin, ser_tapTree, encVar_eq, encVec_eq, List.append_assoc, PropKey.toKey, encProp, List.singleton_append, List.cons_append, List.nil_append] using h60
    · have h60 := Spec.InputPair.bip32Derivation (i := i) h
      simpa only [bare, ser_u32, ser_time, ser_height, ser_version, ser_amount, ser_tx, ser_txOut, ser_witness, ser_raw, ser_source, ser_pubkey, ser_secpPk,
      ser_xonly, ser_ctrl, ser_sig, ser_tapSig, ser_hash, ser_xonlyLeaf, ser_leafScript, ser_tapOrigin, ser_tapTree, encVar_eq, encVec_eq, List.append_assoc, PropKey.toKey, encProp, List.singleton_append, List.cons_append, List.nil_append] using h60
    · have h60 := Spec.InputPair.finalScriptSig (i := i) h
      simpa only [bare, ser_u32, ser_time, ser_height, ser_version, ser_amount, ser_tx, ser_txOut, ser_witness, ser_raw, ser_source, ser_pubkey, ser_secpPk,
      ser_xonly, ser_ctrl, ser_sig, ser_tapSig, ser_hash, ser_xonlyLeaf, ser_leafScript, ser_tapOrigin, ser_tapTree, encVar_eq, encVec_eq, List.append_assoc, PropKey.toKey, encProp, List.singleton_append, List.cons_append, List.nil_append] using h60
    · have h60 := Spec.InputPair.finalScriptWitness (i := i) h
      simpa only [bare, ser_u32, ser_time, ser_height, ser_version, ser_amount, ser_tx, ser_txOut, ser_witness, ser_raw, ser_source, ser_pubkey, ser_secpPk,
      ser_xonly, ser_ctrl, ser_sig, ser_tapSig, ser_hash, ser_xonlyLeaf, ser_leafScript, ser_tapOrigin, ser_tapTree, encVar_eq, encVec_eq, List.append_assoc, PropKey.toKey, encProp, List.singleton_append, List.cons_append, List.nil_append] using h60
    · have h60 := Spec.InputPair.ripemd160 (i := i) h
      simpa only [bare, ser_u32, ser_time, ser_height, ser_version, ser_amount, ser_tx, ser_txOut, ser_witness, ser_raw, ser_source, ser_pubkey, ser_secpPk,
      ser_xonly, ser_ctrl, ser_sig, ser_tapSig, ser_hash, ser_xonlyLeaf, ser_leafScript, ser_tapOrigin, ser_tapTree, encVar_eq, encVec_eq, List.append_assoc, PropKey.toKey, encProp, List.singleton_append, List.cons_append, List.nil_append] using h60
    · have h60 := Spec.InputPair.sha256 (i := i) h
      simpa only [bare, ser_u32, ser_time, ser_height, ser_version, ser_amount, ser_tx, ser_txOut, ser_witness, ser_raw, ser_source, ser_pubkey, ser_secpPk,
      ser_xonly, ser_ctrl, ser_sig, ser_tapSig, ser_hash, ser_xonlyLeaf, ser_leafScript, ser_tapOrigin, ser_tapTree, encVar_eq, encVec_eq, List.append_assoc, PropKey.toKey, encProp, List.singleton_append, List.cons_append, List.nil_append] using h60
    · have h60 := Spec.InputPair.hash160 (i := i) h
      simpa only [bare, ser_u32, ser_time, ser_height, ser_version, ser_amount, ser_tx, ser_txOut, ser_witness, ser_raw, ser_source, ser_pubkey, ser_secpPk,
      ser_xonly, ser_ctrl, ser_sig, ser_tapSig, ser_hash, ser_xonlyLeaf, ser_leafScript, ser_tapOrigin, ser_tapTree, encVar_eq, encVec_eq, List.append_assoc, PropKey.toKey, encProp, List.singleton_append, List.cons_append, List.nil_append] using h60
    · have h60 := Spec.InputPair.hash256 (i := i) h
      simpa only [bare, ser_u32, ser_time, ser_height, ser_version, ser_amount, ser_tx, ser_txOut, ser_witness, ser_raw, ser_source, ser_pubkey, ser_secpPk,
      ser_xonly, ser_ctrl, ser_sig, ser_tapSig, ser_hash, ser_xonlyLeaf, ser_leafScript, ser_tapOrigin, ser_tapTree, encVar_eq, encVec_eq, List.append_assoc, PropKey.toKey, encProp, List.singleton_append, List.cons_append, List.nil_append] using h60
    · have h60 := Spec.InputPair.tapKeySig (i := i) h
      simpa only [bare, ser_u32, ser_time, ser_height, ser_version, ser_amount, ser_tx, ser_txOut, ser_witness, ser_raw, ser_source, ser_pubkey, ser_secpPk,
      ser_xonly, ser_ctrl, ser_sig, ser_tapSig, ser_hash, ser_xonlyLeaf, ser_leafScript, ser_tapOrigin, ser_tapTree, encVar_eq, encVec_eq, List.append_assoc, PropKey.toKey, encProp, List.singleton_append, List.cons_append, List.nil_append] using h60
    · have h60 := Spec.InputPair.tapScriptSig (i := i) h
      simpa only [bare, ser_u32, ser_time, ser_height, ser_version, ser_amount, ser_tx, ser_txOut, ser_witness, ser_raw, ser_source, ser_pubkey, ser_secpPk,
      ser_xonly, ser_ctrl, ser_sig, ser_tapSig, ser_hash, ser_xonlyLeaf, ser_leafScript, ser_tapOrigin, ser_tapTree, encVar_eq, encVec_eq, List.append_assoc, PropKey.toKey, encProp, List.singleton_append, List.cons_append, List.nil_append] using h60
    · have h60 := Spec.InputPair.tapLeafScript (i := i) h
      simpa only [bare, ser_u32, ser_time, ser_height, ser_version, ser_amount, ser_tx, ser_txOut, ser_witness, ser_raw, ser_source, ser_pubkey, ser_secpPk,
      ser_xonly, ser_ctrl, ser_sig, ser_tapSig, ser_hash, ser_xonlyLeaf, ser_leafScript, ser_tapOrigin, ser_tapTree, encVar_eq, encVec_eq, List.append_assoc, PropKey.toKey, encProp, List.singleton_append, List.cons_append, List.nil_append] using h60
    · have h60 := Spec.InputPair.tapBip32Derivation (i := i) h
      simpa only [bare, ser_u32, ser_time, ser_height, ser_version, ser_amount, ser_tx, ser_txOut, ser_witness, ser_raw, ser_source, ser_pubkey, ser_secpPk,
      ser_xonly, ser_ctrl, ser_sig, ser_tapSig, ser_hash, ser_xonlyLeaf, ser_leafScript, ser_tapOrigin, ser_tapTree, encVar_eq, encVec_eq, List.append_assoc, PropKey.toKey, encProp, List.singleton_append, List.cons_append, List.nil_append] using h60
    · have h60 := Spec.InputPair.tapInternalKey (i := i) h
      simpa only [bare, ser_u32, ser_time, ser_height, ser_version, ser_amount, ser_tx, ser_txOut, ser_witness, ser_raw, ser_source, ser_pubkey, ser_secpPk,
      ser_xonly, ser_ctrl, ser_sig, ser_tapSig, ser_hash, ser_xonlyLeaf, ser_leafScript, ser_tapOrigin, ser_tapTree, encVar_eq, encVec_eq, List.append_assoc, PropKey.toKey, encProp, List.singleton_append, List.cons_append, List.nil_append] using h60
    · have h60 := Spec.InputPair.tapMerkleRoot (i := i) h
      simpa only [bare, ser_u32, ser_time, ser_height, ser_version, ser_amount, ser_tx, ser_txOut, ser_witness, ser_raw, ser_source, ser_pubkey, ser_secpPk,
      ser_xonly, ser_ctrl, ser_sig, ser_tapSig, ser_hash, ser_xonlyLeaf, ser_leafScript, ser_tapOrigin, ser_tapTree, encVar_eq, encVec_eq, List.append_assoc, PropKey.toKey, encProp, List.singleton_append, List.cons_append, List.nil_append] using h60
    · have h60 := Spec.InputPair.spEcdhShare (i := i) hs h
      simpa only [bare, ser_u32, ser_time, ser_height, ser_version, ser_amount, ser_tx, ser_txOut, ser_witness, ser_raw, ser_source, ser_pubkey, ser_secpPk,
      ser_xonly, ser_ctrl, ser_sig, ser_tapSig, ser_hash, ser_xonlyLeaf, ser_leafScript, ser_tapOrigin, ser_tapTree, encVar_eq, encVec_eq, List.append_assoc, PropKey.toKey, encProp, List.singleton_append, List.cons_append, List.nil_append] using h60
    · have h60 := Spec.InputPair.spDleqProof (i := i) hs h
      simpa only [bare, ser_u32, ser_time, ser_height, ser_version, ser_amount, ser_tx, ser_txOut, ser_witness, ser_raw, ser_source, ser_pubkey, ser_secpPk,
      ser_xonly, ser_ctrl, ser_sig, ser_tapSig, ser_hash, ser_xonlyLeaf, ser_leafScript, ser_tapOrigin, ser_tapTree, encVar_eq, encVec_eq, List.append_assoc, PropKey.toKey, encProp, List.singleton_append, List.cons_append, List.nil_append] using h60
    · have h60 := Spec.InputPair.proprietary (i := i) h
      simpa only [bare, ser_u32, ser_time, ser_height, ser_version, ser_amount, ser_tx, ser_txOut, ser_witness, ser_raw, ser_source, ser_pubkey, ser_secpPk,
      ser_xonly, ser_ctrl, ser_sig, ser_tapSig, ser_hash, ser_xonlyLeaf, ser_leafScript, ser_tapOrigin, ser_tapTree, encVar_eq, encVec_eq, List.append_assoc, PropKey.toKey, encProp, List.singleton_append, List.cons_append, List.nil_append] using h60
    · have h60 := Spec.InputPair.unknown (i := i) h
      simpa only [bare, ser_u32, ser_time, ser_height, ser_version, ser_amount, ser_tx, ser_txOut, ser_witness, ser_raw, ser_source, ser_pubkey, ser_secpPk,
      ser_xonly, ser_ctrl, ser_sig, ser_tapSig, ser_hash, ser_xonlyLeaf, ser_leafScript, ser_tapOrigin, ser_tapTree, encVar_eq, encVec_eq, List.append_assoc, PropKey.toKey, encProp, List.singleton_append, List.cons_append, List.nil_append] using h60
  · obtain ⟨⟨t, kd⟩, val⟩ := p
    intro h
    cases h with
    | previousTxid => exact .inl (by pairEq)
    | outputIndex => exact .inr (.inl (by pairEq))
    | sequence h => exact .inr (.inr (.inl (⟨_, h, by pairEq⟩)))
    | timeLockTime h => exact .inr (.inr (.inr (.inl (⟨_, h, by pairEq⟩))))
    | heightLockTime h => exact .inr (.inr (.inr (.inr (.inl (⟨_, h, by pairEq⟩)))))
    | nonWitnessUtxo h => exact .inr (.inr (.inr (.inr (.inr (.inl (⟨_, h, by pairEq⟩))))))
    | witnessUtxo h => exact .inr (.inr (.inr (.inr (.inr (.inr (.inl (⟨_, h, by pairEq⟩)))))))
    | partialSig h => exact .inr (.inr (.inr (.inr (.inr (.inr (.inr (.inl (⟨_, _, h, by pairEq⟩))))))))
    | sighashType h => exact .inr (.inr (.inr (.inr (.inr (.inr (.inr (.inr (.inl (⟨_, h, by pairEq⟩)))))))))
    | redeemScript h => exact .inr (.inr (.inr (.inr (.inr (.inr (.inr (.inr (.inr (.inl (⟨_, h, by pairEq⟩))))))))))
    | witnessScript h => exact .inr (.inr (.inr (.inr (.inr (.inr (.inr (.inr (.inr (.inr (.inl (⟨_, h, by pairEq⟩)))))))))))
    | bip32Derivation h => exact .inr (.inr (.inr (.inr (.inr (.inr (.inr (.inr (.inr (.inr (.inr (.inl (⟨_, _, h, by pairEq⟩))))))))))))
    | finalScriptSig h => exact .inr (.inr (.inr (.inr (.inr (.inr (.inr (.inr (.inr (.inr (.inr (.inr (.inl (⟨_, h, by pairEq⟩)))))))))))))
    | finalScriptWitness h => exact .inr (.inr (.inr (.inr (.inr (.inr (.inr (.inr (.inr (.inr (.inr (.inr (.inr (.inl (⟨_, h, by pairEq⟩))))))))))))))
    | ripemd160 h => exact .inr (.inr (.inr (.inr (.inr (.inr (.inr (.inr (.inr (.inr (.inr (.inr (.inr (.inr (.inl (⟨_, _, h, by pairEq⟩)))))))))))))))
    | sha256 h => exact .inr (.inr (.inr (.inr (.inr (.inr (.inr (.inr (.inr (.inr (.inr (.inr (.inr (.inr (.inr (.inl (⟨_, _, h, by pairEq⟩))))))))))))))))
    | hash160 h => exact .inr (.inr (.inr (.inr (.inr (.inr (.inr (.inr (.inr (.inr (.inr (.inr (.inr (.inr (.inr (.inr (.inl (⟨_, _, h, by pairEq⟩)))))))))))))))))
    | hash256 h => exact .inr (.inr (.inr (.inr (.inr (.inr (.inr (.inr (.inr (.inr (.inr (.inr (.inr (.inr (.inr (.inr (.inr (.inl (⟨_, _, h, by pairEq⟩))))))))))))))))))
    | tapKeySig h => exact .inr (.inr (.inr (.inr (.inr (.inr (.inr (.inr (.inr (.inr (.inr (.inr (.inr (.inr (.inr (.inr (.inr (.inr (.inl (⟨_, h, by pairEq⟩)))))))))))))))))))
    | tapScriptSig h => exact .inr (.inr (.inr (.inr (.inr (.inr (.inr (.inr (.inr (.inr (.inr (.inr (.inr (.inr (.inr (.inr (.inr (.inr (.inr (.inl (⟨_, _, h, by pairEq⟩))))))))))))))))))))
    | tapLeafScript h => exact .inr (.inr (.inr (.inr (.inr (.inr (.inr (.inr (.inr (.inr (.inr (.inr (.inr (.inr (.inr (.inr (.inr (.inr (.inr (.inr (.inl (⟨_, _, h, by pairEq⟩)))))))))))))))))))))
    | tapBip32Derivation h => exact .inr (.inr (.inr (.inr (.inr (.inr (.inr (.inr (.inr (.inr (.inr (.inr (.inr (.inr (.inr (.inr (.inr (.inr (.inr (.inr (.inr (.inl (⟨_, _, h, by pairEq⟩))))))))))))))))))))))
    | tapInternalKey h => exact .inr (.inr (.inr (.inr (.inr (.inr (.inr (.inr (.inr (.inr (.inr (.inr (.inr (.inr (.inr (.inr (.inr (.inr (.inr (.inr (.inr (.inr (.inl (⟨_, h, by pairEq⟩)))))))))))))))))))))))
    | tapMerkleRoot h => exact .inr (.inr (.inr (.inr (.inr (.inr (.inr (.inr (.inr (.inr (.inr (.inr (.inr (.inr (.inr (.inr (.inr (.inr (.inr (.inr (.inr (.inr (.inr (.inl (⟨_, h, by pairEq⟩))))))))))))))))))))))))
    | spEcdhShare hs h => exact .inr (.inr (.inr (.inr (.inr (.inr (.inr (.inr (.inr (.inr (.inr (.inr (.inr (.inr (.inr (.inr (.inr (.inr (.inr (.inr (.inr (.inr (.inr (.inr (.inl (⟨hs, _, _, h, by pairEq⟩)))))))))))))))))))))))))
    | spDleqProof hs h => exact .inr (.inr (.inr (.inr (.inr (.inr (.inr (.inr (.inr (.inr (.inr (.inr (.inr (.inr (.inr (.inr (.inr (.inr (.inr (.inr (.inr (.inr (.inr (.inr (.inr (.inl (⟨hs, _, _, h, by pairEq⟩))))))))))))))))))))))))))
    | proprietary h => exact .inr (.inr (.inr (.inr (.inr (.inr (.inr (.inr (.inr (.inr (.inr (.inr (.inr (.inr (.inr (.inr (.inr (.inr (.inr (.inr (.inr (.inr (.inr (.inr (.inr (.inr (.inl (⟨_, _, h, by pairEq⟩)))))))))))))))))))))))))))
    | unknown h => exact .inr (.inr (.inr (.inr (.inr (.inr (.inr (.inr (.inr (.inr (.inr (.inr (.inr (.inr (.inr (.inr (.inr (.inr (.inr (.inr (.inr (.inr (.inr (.inr (.inr (.inr (.inr (⟨_, _, h, by pairEq⟩)))))))))))))))))))))))))))

/-- C60. The pairs of an output map are exactly those the format defines for its fields. -/
theorem C60_output_pairs (o : Output L) (p : Pair) : p ∈ o.getPairs ↔ Spec.OutputPair o p.key.ty p.key.key p.value := by
  unfold Output.getPairs
  simp only [List.flatten_cons, List.flatten_nil, List.append_nil, List.mem_append, List.mem_singleton, mem_emitOpt, mem_emitMap,
    mem_emitSp, mem_emitProp, mem_emitUnknown, mem_emitXpub, mem_emitSpInfo, mem_emitSpLabel]
  constructor
  · rintro (rfl | rfl | ⟨v, h, rfl⟩ | ⟨v, h, rfl⟩ | ⟨k, v, h, rfl⟩ | ⟨v, h, rfl⟩ | ⟨v, h, rfl⟩ | ⟨k, v, h, rfl⟩ | ⟨hs, v, h, rfl⟩ | ⟨hs, v, h, rfl⟩ | ⟨k, v, h, rfl⟩ | ⟨k, v, h, rfl⟩)
    · have h60 := Spec.OutputPair.amount (o := o)
      simpa only [bare, ser_u32, ser_time, ser_height, ser_version, ser_amount, ser_tx, ser_txOut, ser_witness, ser_raw, ser_source, ser_pubkey, ser_secpPk,
      ser_xonly, ser_ctrl, ser_sig, ser_tapSig, ser_hash, ser_xonlyLeaf, ser_leafScript, ser_tapOrigin, ser_tapTree, encVar_eq, encVec_eq, List.append_assoc, PropKey.toKey, encProp, List.singleton_append, List.cons_append, List.nil_append] using h60
    · have h60 := Spec.OutputPair.script (o := o)
      simpa only [bare, ser_u32, ser_time, ser_height, ser_version, ser_amount, ser_tx, ser_txOut, ser_witness, ser_raw, ser_source, ser_pubkey, ser_secpPk,
      ser_xonly, ser_ctrl, ser_sig, ser_tapSig, ser_hash, ser_xonlyLeaf, ser_leafScript, ser_tapOrigin, ser_tapTree, encVar_eq, encVec_eq, List.append_assoc, PropKey.toKey, encProp, List.singleton_append, List.cons_append, List.nil_append] using h60
    · have h60 := Spec.OutputPair.redeemScript (o := o) h
      simpa only [bare, ser_u32, ser_time, ser_height, ser_version, ser_amount, ser_tx, ser_txOut, ser_witness, ser_raw, ser_source, ser_pubkey, ser_secpPk,
      ser_xonly, ser_ctrl, ser_sig, ser_tapSig, ser_hash, ser_xonlyLeaf, ser_leafScript, ser_tapOrigin, ser_tapTree, encVar_eq, encVec_eq, List.append_assoc, PropKey.toKey, encProp, List.singleton_append, List.cons_append, List.nil_append] using h60
    · have h60 := Spec.OutputPair.witnessScript (o := o) h
      simpa only [bare, ser_u32, ser_time, ser_height, ser_version, ser_amount, ser_tx, ser_txOut, ser_witness, ser_raw, ser_source, ser_pubkey, ser_secpPk,
      ser_xonly, ser_ctrl, ser_sig, ser_tapSig, ser_hash, ser_xonlyLeaf, ser_leafScript, ser_tapOrigin, ser_tapTree, encVar_eq, encVec_eq, List.append_assoc, PropKey.toKey, encProp, List.singleton_append, List.cons_append, List.nil_append] using h60
    · have h60 := Spec.OutputPair.bip32Derivation (o := o) h
      simpa only [bare, ser_u32, ser_time, ser_height, ser_version, ser_amount, ser_tx, ser_txOut, ser_witness, ser_raw, ser_source, ser_pubkey, ser_secpPk,
      ser_xonly, ser_ctrl, ser_sig, ser_tapSig, ser_hash, ser_xonlyLeaf, ser_leafScript, ser_tapOrigin, ser_tapTree, encVar_eq, encVec_eq, List.append_assoc, PropKey.toKey, encProp, List.singleton_append, List.cons_append, List.nil_append] using h60
    · have h60 := Spec.OutputPair.tapInternalKey (o := o) h
      simpa only [bare, ser_u32, ser_time, ser_height, ser_version, ser_amount, ser_tx, ser_txOut, ser_witness, ser_raw, ser_source, ser_pubkey, ser_secpPk,
      ser_xonly, ser_ctrl, ser_sig, ser_tapSig, ser_hash, ser_xonlyLeaf, ser_leafScript, ser_tapOrigin, ser_tapTree, encVar_eq, encVec_eq, List.append_assoc, PropKey.toKey, encProp, List.singleton_append, List.cons_append, List.nil_append] using h60
    · have h60 := Spec.OutputPair.tapTree (o := o) h
      simpa only [bare, ser_u32, ser_time, ser_height, ser_version, ser_amount, ser_tx, ser_txOut, ser_witness, ser_raw, ser_source, ser_pubkey, ser_secpPk,
      ser_xonly, ser_ctrl, ser_sig, ser_tapSig, ser_hash, ser_xonlyLeaf, ser_leafScript, ser_tapOrigin, ser_tapTree, encVar_eq, encVec_eq, List.append_assoc, PropKey.toKey, encProp, List.singleton_append, List.cons_append, List.nil_append] using h60
    · have h60 := Spec.OutputPair.tapBip32Derivation (o := o) h
      simpa only [bare, ser_u32, ser_time, ser_height, ser_version, ser_amount, ser_tx, ser_txOut, ser_witness, ser_raw, ser_source, ser_pubkey, ser_secpPk,
      ser_xonly, ser_ctrl, ser_sig, ser_tapSig, ser_hash, ser_xonlyLeaf, ser_leafScript, ser_tapOrigin, ser_tapTree, encVar_eq, encVec_eq, List.append_assoc, PropKey.toKey, encProp, List.singleton_append, List.cons_append, List.nil_append] using h60
    · have h60 := Spec.OutputPair.spV0Info (o := o) hs h
      simpa only [bare, ser_u32, ser_time, ser_height, ser_version, ser_amount, ser_tx, ser_txOut, ser_witness, ser_raw, ser_source, ser_pubkey, ser_secpPk,
      ser_xonly, ser_ctrl, ser_sig, ser_tapSig, ser_hash, ser_xonlyLeaf, ser_leafScript, ser_tapOrigin, ser_tapTree, encVar_eq, encVec_eq, List.append_assoc, PropKey.toKey, encProp, List.singleton_append, List.cons_append, List.nil_append] using h60
    · have h60 := Spec.OutputPair.spV0Label (o := o) hs h
      simpa only [bare, ser_u32, ser_time, ser_height, ser_version, ser_amount, ser_tx, ser_txOut, ser_witness, ser_raw, ser_source, ser_pubkey, ser_secpPk,
      ser_xonly, ser_ctrl, ser_sig, ser_tapSig, ser_hash, ser_xonlyLeaf, ser_leafScript, ser_tapOrigin, ser_tapTree, encVar_eq, encVec_eq, List.append_assoc, PropKey.toKey, encProp, List.singleton_append, List.cons_append, List.nil_append] using h60
    · have h60 := Spec.OutputPair.proprietary (o := o) h
      simpa only [bare, ser_u32, ser_time, ser_height, ser_version, ser_amount, ser_tx, ser_txOut, ser_witness, ser_raw, ser_source, ser_pubkey, ser_secpPk,
      ser_xonly, ser_ctrl, ser_sig, ser_tapSig, ser_hash, ser_xonlyLeaf, ser_leafScript, ser_tapOrigin, ser_tapTree, encVar_eq, encVec_eq, List.append_assoc, PropKey.toKey, encProp, List.singleton_append, List.cons_append, List.nil_append] using h60
    · have h60 := Spec.OutputPair.unknown (o := o) h
      simpa only [bare, ser_u32, ser_time, ser_height, ser_version, ser_amount, ser_tx, ser_txOut, ser_witness, ser_raw, ser_source, ser_pubkey, ser_secpPk,
      ser_xonly, ser_ctrl, ser_sig, ser_tapSig, ser_hash, ser_xonlyLeaf, ser_leafScript, ser_tapOrigin, ser_tapTree, encVar_eq, encVec_eq, List.append_assoc, PropKey.toKey, encProp, List.singleton_append, List.cons_append, List.nil_append] using h60
  · obtain ⟨⟨t, kd⟩, val⟩ := p
    intro h
    cases h with
    | amount => exact .inl (by pairEq)
    | script => exact .inr (.inl (by pairEq))
    | redeemScript h => exact .inr (.inr (.inl (⟨_, h, by pairEq⟩)))
    | witnessScript h => exact .inr (.inr (.inr (.inl (⟨_, h, by pairEq⟩))))
    | bip32Derivation h => exact .inr (.inr (.inr (.inr (.inl (⟨_, _, h, by pairEq⟩)))))
    | tapInternalKey h => exact .inr (.inr (.inr (.inr (.inr (.inl (⟨_, h, by pairEq⟩))))))
    | tapTree h => exact .inr (.inr (.inr (.inr (.inr (.inr (.inl (⟨_, h, by pairEq⟩)))))))
    | tapBip32Derivation h => exact .inr (.inr (.inr (.inr (.inr (.inr (.inr (.inl (⟨_, _, h, by pairEq⟩))))))))
    | spV0Info hs h => exact .inr (.inr (.inr (.inr (.inr (.inr (.inr (.inr (.inl (⟨hs, _, h, by pairEq⟩)))))))))
    | spV0Label hs h => exact .inr (.inr (.inr (.inr (.inr (.inr (.inr (.inr (.inr (.inl (⟨hs, _, h, by pairEq⟩))))))))))
    | proprietary h => exact .inr (.inr (.inr (.inr (.inr (.inr (.inr (.inr (.inr (.inr (.inl (⟨_, _, h, by pairEq⟩)))))))))))
    | unknown h => exact .inr (.inr (.inr (.inr (.inr (.inr (.inr (.inr (.inr (.inr (.inr (⟨_, _, h, by pairEq⟩)))))))))))

/-- C60. A PSBT is written as the magic bytes `psbt`, 0xFF, and its maps one after the other: the global map, the inputs in
order, the outputs in order; each map is its pairs and a zero byte. -/
theorem C60_bytes (p : Psbt L) : p.serialize =
    [0x70, 0x73, 0x62, 0x74, 0xff] ++
    (p.global.getPairs :: (p.inputs.map Input.getPairs ++ p.outputs.map Output.getPairs)).flatMap Spec.mapBytes := by
  rw [mapBytes_fun]
  simp [Psbt.serialize, MAGIC, List.flatMap_append, List.flatMap_map, List.append_assoc]

/-- C60. And the other way round: whatever byte string is read successfully describes a PSBT whose own bytes are the format's
bytes for it (reading is the inverse of writing, C06 and C07), so a reader and a writer that both follow the format agree. -/
theorem C60_read {b : Bytes} {p : Psbt L} (h : Psbt.deserialize L b = .ok p) :
    Psbt.deserialize L ([0x70, 0x73, 0x62, 0x74, 0xff] ++
      (p.global.getPairs :: (p.inputs.map Input.getPairs ++ p.outputs.map Output.getPairs)).flatMap Spec.mapBytes) = .ok p := by
  rw [← C60_bytes]
  exact C07_parse_stable h

example : ∃ b, Psbt.deserialize (Demo.lib false) b = .ok demo := ⟨demo.serialize, by decide +kernel⟩
/-- Two pairs of the demonstration PSBT, and one that is not among its pairs. -/
example : (⟨⟨0x0f, []⟩, [0, 0, 0, 0]⟩ : Pair) ∉ demoInput.getPairs ∧ (⟨⟨0x50, []⟩, [1, 2, 3]⟩ : Pair) ∈ demoGlobal.getPairs ∧
    Spec.GlobalPair demoGlobal 0x50 [] [1, 2, 3] :=
  ⟨by decide +kernel, by decide +kernel, (C60_global_pairs demoGlobal ⟨⟨0x50, []⟩, [1, 2, 3]⟩).mp (by decide +kernel)⟩

end Psbt.V2
