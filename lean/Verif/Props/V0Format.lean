/- C60: the PSBT v0 format. -/
import Verif.Lemmas.V2Format
import Verif.Spec.V0Format
import Verif.Props.V0Parse
namespace Psbt.V0
open Psbt

variable {L : Lib}

attribute [local irreducible] Spec.txBytes Spec.unsignedTxBytes Spec.txOutBytes Spec.witnessBytes Spec.compact Spec.blob Spec.le32 Spec.le64

theorem unsignedTx_eq (t : Tx) : encTxLegacy t = Spec.unsignedTxBytes t := by rw [unsignedTxBytes_fun]

theorem mem_emitVersion {q : Pair} {v : UInt32} :
    q ∈ (if v > 0 then [bare PSBT_GLOBAL_VERSION (u32Codec.ser v)] else []) ↔
      v > 0 ∧ q = bare PSBT_GLOBAL_VERSION (u32Codec.ser v) := by
  split <;> simp [*]

local macro "pairEq" : tactic => `(tactic| first
  | rfl
  | (simp only [bare, V2.ser_u32, V2.ser_time, V2.ser_height, V2.ser_version, V2.ser_amount, V2.ser_tx, V2.ser_txOut, V2.ser_witness, V2.ser_raw, V2.ser_source, V2.ser_pubkey, V2.ser_secpPk,
      V2.ser_xonly, V2.ser_ctrl, V2.ser_sig, V2.ser_tapSig, V2.ser_hash, V2.ser_xonlyLeaf, V2.ser_leafScript, V2.ser_tapOrigin, V2.ser_tapTree, encVar_eq, encVec_eq, unsignedTx_eq, List.append_eq, unsignedTx_eq, List.append_assoc, PropKey.toKey, encProp, List.singleton_append, List.cons_append, List.nil_append]; done)
  | (simp only [bare, V2.ser_u32, V2.ser_time, V2.ser_height, V2.ser_version, V2.ser_amount, V2.ser_tx, V2.ser_txOut, V2.ser_witness, V2.ser_raw, V2.ser_source, V2.ser_pubkey, V2.ser_secpPk,
      V2.ser_xonly, V2.ser_ctrl, V2.ser_sig, V2.ser_tapSig, V2.ser_hash, V2.ser_xonlyLeaf, V2.ser_leafScript, V2.ser_tapOrigin, V2.ser_tapTree, encVar_eq, encVec_eq, unsignedTx_eq, List.append_eq, unsignedTx_eq, List.append_assoc, PropKey.toKey, encProp, List.singleton_append, List.cons_append, List.nil_append]; rfl))

/-- C60 for PSBT v0. The pairs of the global map are exactly those the format defines for its fields. -/
theorem C60_v0_global_pairs (p : Psbt L) (q : Pair) : q ∈ p.getPairs ↔ Spec.V0.GlobalPair p q.key.ty q.key.key q.value := by
  unfold Psbt.getPairs
  simp only [List.flatten_cons, List.flatten_nil, List.append_nil, List.mem_append, List.mem_singleton, V2.mem_emitOpt, V2.mem_emitMap,
    V2.mem_emitSp, V2.mem_emitProp, V2.mem_emitUnknown, V2.mem_emitXpub, mem_emitVersion, V2.mem_emitSpInfo, V2.mem_emitSpLabel]
  constructor
  · rintro (rfl | ⟨k, v, h, rfl⟩ | ⟨hv, rfl⟩ | ⟨k, v, h, rfl⟩ | ⟨k, v, h, rfl⟩)
    · have h60 := Spec.V0.GlobalPair.unsignedTx (p := p)
      simpa only [bare, V2.ser_u32, V2.ser_time, V2.ser_height, V2.ser_version, V2.ser_amount, V2.ser_tx, V2.ser_txOut, V2.ser_witness, V2.ser_raw, V2.ser_source, V2.ser_pubkey, V2.ser_secpPk,
      V2.ser_xonly, V2.ser_ctrl, V2.ser_sig, V2.ser_tapSig, V2.ser_hash, V2.ser_xonlyLeaf, V2.ser_leafScript, V2.ser_tapOrigin, V2.ser_tapTree, encVar_eq, encVec_eq, unsignedTx_eq, List.append_assoc, PropKey.toKey, encProp, List.singleton_append, List.cons_append, List.nil_append] using h60
    · have h60 := Spec.V0.GlobalPair.xpub (p := p) h
      simpa only [bare, V2.ser_u32, V2.ser_time, V2.ser_height, V2.ser_version, V2.ser_amount, V2.ser_tx, V2.ser_txOut, V2.ser_witness, V2.ser_raw, V2.ser_source, V2.ser_pubkey, V2.ser_secpPk,
      V2.ser_xonly, V2.ser_ctrl, V2.ser_sig, V2.ser_tapSig, V2.ser_hash, V2.ser_xonlyLeaf, V2.ser_leafScript, V2.ser_tapOrigin, V2.ser_tapTree, encVar_eq, encVec_eq, unsignedTx_eq, List.append_assoc, PropKey.toKey, encProp, List.singleton_append, List.cons_append, List.nil_append] using h60
    · have h60 := Spec.V0.GlobalPair.version (p := p) hv
      simpa only [bare, V2.ser_u32, V2.ser_time, V2.ser_height, V2.ser_version, V2.ser_amount, V2.ser_tx, V2.ser_txOut, V2.ser_witness, V2.ser_raw, V2.ser_source, V2.ser_pubkey, V2.ser_secpPk,
      V2.ser_xonly, V2.ser_ctrl, V2.ser_sig, V2.ser_tapSig, V2.ser_hash, V2.ser_xonlyLeaf, V2.ser_leafScript, V2.ser_tapOrigin, V2.ser_tapTree, encVar_eq, encVec_eq, unsignedTx_eq, List.append_assoc, PropKey.toKey, encProp, List.singleton_append, List.cons_append, List.nil_append] using h60
    · have h60 := Spec.V0.GlobalPair.proprietary (p := p) h
      simpa only [bare, V2.ser_u32, V2.ser_time, V2.ser_height, V2.ser_version, V2.ser_amount, V2.ser_tx, V2.ser_txOut, V2.ser_witness, V2.ser_raw, V2.ser_source, V2.ser_pubkey, V2.ser_secpPk,
      V2.ser_xonly, V2.ser_ctrl, V2.ser_sig, V2.ser_tapSig, V2.ser_hash, V2.ser_xonlyLeaf, V2.ser_leafScript, V2.ser_tapOrigin, V2.ser_tapTree, encVar_eq, encVec_eq, unsignedTx_eq, List.append_assoc, PropKey.toKey, encProp, List.singleton_append, List.cons_append, List.nil_append] using h60
    · have h60 := Spec.V0.GlobalPair.unknown (p := p) h
      simpa only [bare, V2.ser_u32, V2.ser_time, V2.ser_height, V2.ser_version, V2.ser_amount, V2.ser_tx, V2.ser_txOut, V2.ser_witness, V2.ser_raw, V2.ser_source, V2.ser_pubkey, V2.ser_secpPk,
      V2.ser_xonly, V2.ser_ctrl, V2.ser_sig, V2.ser_tapSig, V2.ser_hash, V2.ser_xonlyLeaf, V2.ser_leafScript, V2.ser_tapOrigin, V2.ser_tapTree, encVar_eq, encVec_eq, unsignedTx_eq, List.append_assoc, PropKey.toKey, encProp, List.singleton_append, List.cons_append, List.nil_append] using h60
  · obtain ⟨⟨t, kd⟩, val⟩   := q
    intro h
    cases h with
    | unsignedTx => exact .inl (by rw [bare, unsignedTx_eq]; rfl)
    | xpub h => exact .inr (.inl (⟨_, _, h, by pairEq⟩))
    | version hv => exact .inr (.inr (.inl (⟨hv, by pairEq⟩)))
    | proprietary h => exact .inr (.inr (.inr (.inl (⟨_, _, h, by pairEq⟩))))
    | unknown h => exact .inr (.inr (.inr (.inr (⟨_, _, h, by pairEq⟩))))

/-- C60 for PSBT v0. The pairs of an input map are exactly those the format defines for its fields. -/
theorem C60_v0_input_pairs (i : Input L) (q : Pair) : q ∈ i.getPairs ↔ Spec.V0.InputPair i q.key.ty q.key.key q.value := by
  unfold Input.getPairs
  simp only [List.flatten_cons, List.flatten_nil, List.append_nil, List.mem_append, List.mem_singleton, V2.mem_emitOpt, V2.mem_emitMap,
    V2.mem_emitSp, V2.mem_emitProp, V2.mem_emitUnknown, V2.mem_emitXpub, mem_emitVersion, V2.mem_emitSpInfo, V2.mem_emitSpLabel]
  constructor
  · rintro (⟨v, h, rfl⟩ | ⟨v, h, rfl⟩ | ⟨k, v, h, rfl⟩ | ⟨v, h, rfl⟩ | ⟨v, h, rfl⟩ | ⟨v, h, rfl⟩ | ⟨k, v, h, rfl⟩ | ⟨v, h, rfl⟩ | ⟨v, h, rfl⟩ | ⟨k, v, h, rfl⟩ | ⟨k, v, h, rfl⟩ | ⟨k, v, h, rfl⟩ | ⟨k, v, h, rfl⟩ | ⟨v, h, rfl⟩ | ⟨k, v, h, rfl⟩ | ⟨k, v, h, rfl⟩ | ⟨k, v, h, rfl⟩ | ⟨v, h, rfl⟩ | ⟨v, h, rfl⟩ | ⟨k, v, h, rfl⟩ | ⟨k, v, h, rfl⟩)
    · have h60 := Spec.V0.InputPair.nonWitnessUtxo (i := i) h
      simpa only [bare, V2.ser_u32, V2.ser_time, V2.ser_height, V2.ser_version, V2.ser_amount, V2.ser_tx, V2.ser_txOut, V2.ser_witness, V2.ser_raw, V2.ser_source, V2.ser_pubkey, V2.ser_secpPk,
      V2.ser_xonly, V2.ser_ctrl, V2.ser_sig, V2.ser_tapSig, V2.ser_hash, V2.ser_xonlyLeaf, V2.ser_leafScript, V2.ser_tapOrigin, V2.ser_tapTree, encVar_eq, encVec_eq, unsignedTx_eq, List.append_assoc, PropKey.toKey, encProp, List.singleton_append, List.cons_append, List.nil_append] using h60
    · have h60 := Spec.V0.InputPair.witnessUtxo (i := i) h
      simpa only [bare, V2.ser_u32, V2.ser_time, V2.ser_height, V2.ser_version, V2.ser_amount, V2.ser_tx, V2.ser_txOut, V2.ser_witness, V2.ser_raw, V2.ser_source, V2.ser_pubkey, V2.ser_secpPk,
      V2.ser_xonly, V2.ser_ctrl, V2.ser_sig, V2.ser_tapSig, V2.ser_hash, V2.ser_xonlyLeaf, V2.ser_leafScript, V2.ser_tapOrigin, V2.ser_tapTree, encVar_eq, encVec_eq, unsignedTx_eq, List.append_assoc, PropKey.toKey, encProp, List.singleton_append, List.cons_append, List.nil_append] using h60
    · have h60 := Spec.V0.InputPair.partialSig (i := i) h
      simpa only [bare, V2.ser_u32, V2.ser_time, V2.ser_height, V2.ser_version, V2.ser_amount, V2.ser_tx, V2.ser_txOut, V2.ser_witness, V2.ser_raw, V2.ser_source, V2.ser_pubkey, V2.ser_secpPk,
      V2.ser_xonly, V2.ser_ctrl, V2.ser_sig, V2.ser_tapSig, V2.ser_hash, V2.ser_xonlyLeaf, V2.ser_leafScript, V2.ser_tapOrigin, V2.ser_tapTree, encVar_eq, encVec_eq, unsignedTx_eq, List.append_assoc, PropKey.toKey, encProp, List.singleton_append, List.cons_append, List.nil_append] using h60
    · have h60 := Spec.V0.InputPair.sighashType (i := i) h
      simpa only [bare, V2.ser_u32, V2.ser_time, V2.ser_height, V2.ser_version, V2.ser_amount, V2.ser_tx, V2.ser_txOut, V2.ser_witness, V2.ser_raw, V2.ser_source, V2.ser_pubkey, V2.ser_secpPk,
      V2.ser_xonly, V2.ser_ctrl, V2.ser_sig, V2.ser_tapSig, V2.ser_hash, V2.ser_xonlyLeaf, V2.ser_leafScript, V2.ser_tapOrigin, V2.ser_tapTree, encVar_eq, encVec_eq, unsignedTx_eq, List.append_assoc, PropKey.toKey, encProp, List.singleton_append, List.cons_append, List.nil_append] using h60
    · have h60 := Spec.V0.InputPair.redeemScript (i := i) h
      simpa only [bare, V2.ser_u32, V2.ser_time, V2.ser_height, V2.ser_version, V2.ser_amount, V2.ser_tx, V2.ser_txOut, V2.ser_witness, V2.ser_raw, V2.ser_source, V2.ser_pubkey, V2.ser_secpPk,
      V2.ser_xonly, V2.ser_ctrl, V2.ser_sig, V2.ser_tapSig, V2.ser_hash, V2.ser_xonlyLeaf, V2.ser_leafScript, V2.ser_tapOrigin, V2.ser_tapTree, encVar_eq, encVec_eq, unsignedTx_eq, List.append_assoc, PropKey.toKey, encProp, List.singleton_append, List.cons_append, List.nil_append] using h60
    · have h60 := Spec.V0.InputPair.witnessScript (i := i) h
      simpa only [bare, V2.ser_u32, V2.ser_time, V2.ser_height, V2.ser_version, V2.ser_amount, V2.ser_tx, V2.ser_txOut, V2.ser_witness, V2.ser_raw, V2.ser_source, V2.ser_pubkey, V2.ser_secpPk,
      V2.ser_xonly, V2.ser_ctrl, V2.ser_sig, V2.ser_tapSig, V2.ser_hash, V2.ser_xonlyLeaf, V2.ser_leafScript, V2.ser_tapOrigin, V2.ser_tapTree, encVar_eq, encVec_eq, unsignedTx_eq, List.append_assoc, PropKey.toKey, encProp, List.singleton_append, List.cons_append, List.nil_append] using h60
    · have h60 := Spec.V0.InputPair.bip32Derivation (i := i) h
      simpa only [bare, V2.ser_u32, V2.ser_time, V2.ser_height, V2.ser_version, V2.ser_amount, V2.ser_tx, V2.ser_txOut, V2.ser_witness, V2.ser_raw, V2.ser_source, V2.ser_pubkey, V2.ser_secpPk,
      V2.ser_xonly, V2.ser_ctrl, V2.ser_sig, V2.ser_tapSig, V2.ser_hash, V2.ser_xonlyLeaf, V2.ser_leafScript, V2.ser_tapOrigin, V2.ser_tapTree, encVar_eq, encVec_eq, unsignedTx_eq, List.append_assoc, PropKey.toKey, encProp, List.singleton_append, List.cons_append, List.nil_append] using h60
    · have h60 := Spec.V0.InputPair.finalScriptSig (i := i) h
      simpa only [bare, V2.ser_u32, V2.ser_time, V2.ser_height, V2.ser_version, V2.ser_amount, V2.ser_tx, V2.ser_txOut, V2.ser_witness, V2.ser_raw, V2.ser_source, V2.ser_pubkey, V2.ser_secpPk,
      V2.ser_xonly, V2.ser_ctrl, V2.ser_sig, V2.ser_tapSig, V2.ser_hash, V2.ser_xonlyLeaf, V2.ser_leafScript, V2.ser_tapOrigin, V2.ser_tapTree, encVar_eq, encVec_eq, unsignedTx_eq, List.append_assoc, PropKey.toKey, encProp, List.singleton_append, List.cons_append, List.nil_append] using h60
    · have h60 := Spec.V0.InputPair.finalScriptWitness (i := i) h
      simpa only [bare, V2.ser_u32, V2.ser_time, V2.ser_height, V2.ser_version, V2.ser_amount, V2.ser_tx, V2.ser_txOut, V2.ser_witness, V2.ser_raw, V2.ser_source, V2.ser_pubkey, V2.ser_secpPk,
      V2.ser_xonly, V2.ser_ctrl, V2.ser_sig, V2.ser_tapSig, V2.ser_hash, V2.ser_xonlyLeaf, V2.ser_leafScript, V2.ser_tapOrigin, V2.ser_tapTree, encVar_eq, encVec_eq, unsignedTx_eq, List.append_assoc, PropKey.toKey, encProp, List.singleton_append, List.cons_append, List.nil_append] using h60
    · have h60 := Spec.V0.InputPair.ripemd160 (i := i) h
      simpa only [bare, V2.ser_u32, V2.ser_time, V2.ser_height, V2.ser_version, V2.ser_amount, V2.ser_tx, V2.ser_txOut, V2.ser_witness, V2.ser_raw, V2.ser_source, V2.ser_pubkey, V2.ser_secpPk,
      V2.ser_xonly, V2.ser_ctrl, V2.ser_sig, V2.ser_tapSig, V2.ser_hash, V2.ser_xonlyLeaf, V2.ser_leafScript, V2.ser_tapOrigin, V2.ser_tapTree, encVar_eq, encVec_eq, unsignedTx_eq, List.append_assoc, PropKey.toKey, encProp, List.singleton_append, List.cons_append, List.nil_append] using h60
    · have h60 := Spec.V0.InputPair.sha256 (i := i) h
      simpa only [bare, V2.ser_u32, V2.ser_time, V2.ser_height, V2.ser_version, V2.ser_amount, V2.ser_tx, V2.ser_txOut, V2.ser_witness, V2.ser_raw, V2.ser_source, V2.ser_pubkey, V2.ser_secpPk,
      V2.ser_xonly, V2.ser_ctrl, V2.ser_sig, V2.ser_tapSig, V2.ser_hash, V2.ser_xonlyLeaf, V2.ser_leafScript, V2.ser_tapOrigin, V2.ser_tapTree, encVar_eq, encVec_eq, unsignedTx_eq, List.append_assoc, PropKey.toKey, encProp, List.singleton_append, List.cons_append, List.nil_append] using h60
    · have h60 := Spec.V0.InputPair.hash160 (i := i) h
      simpa only [bare, V2.ser_u32, V2.ser_time, V2.ser_height, V2.ser_version, V2.ser_amount, V2.ser_tx, V2.ser_txOut, V2.ser_witness, V2.ser_raw, V2.ser_source, V2.ser_pubkey, V2.ser_secpPk,
      V2.ser_xonly, V2.ser_ctrl, V2.ser_sig, V2.ser_tapSig, V2.ser_hash, V2.ser_xonlyLeaf, V2.ser_leafScript, V2.ser_tapOrigin, V2.ser_tapTree, encVar_eq, encVec_eq, unsignedTx_eq, List.append_assoc, PropKey.toKey, encProp, List.singleton_append, List.cons_append, List.nil_append] using h60
    · have h60 := Spec.V0.InputPair.hash256 (i := i) h
      simpa only [bare, V2.ser_u32, V2.ser_time, V2.ser_height, V2.ser_version, V2.ser_amount, V2.ser_tx, V2.ser_txOut, V2.ser_witness, V2.ser_raw, V2.ser_source, V2.ser_pubkey, V2.ser_secpPk,
      V2.ser_xonly, V2.ser_ctrl, V2.ser_sig, V2.ser_tapSig, V2.ser_hash, V2.ser_xonlyLeaf, V2.ser_leafScript, V2.ser_tapOrigin, V2.ser_tapTree, encVar_eq, encVec_eq, unsignedTx_eq, List.append_assoc, PropKey.toKey, encProp, List.singleton_append, List.cons_append, List.nil_append] using h60
    · have h60 := Spec.V0.InputPair.tapKeySig (i := i) h
      simpa only [bare, V2.ser_u32, V2.ser_time, V2.ser_height, V2.ser_version, V2.ser_amount, V2.ser_tx, V2.ser_txOut, V2.ser_witness, V2.ser_raw, V2.ser_source, V2.ser_pubkey, V2.ser_secpPk,
      V2.ser_xonly, V2.ser_ctrl, V2.ser_sig, V2.ser_tapSig, V2.ser_hash, V2.ser_xonlyLeaf, V2.ser_leafScript, V2.ser_tapOrigin, V2.ser_tapTree, encVar_eq, encVec_eq, unsignedTx_eq, List.append_assoc, PropKey.toKey, encProp, List.singleton_append, List.cons_append, List.nil_append] using h60
    · have h60 := Spec.V0.InputPair.tapScriptSig (i := i) h
      simpa only [bare, V2.ser_u32, V2.ser_time, V2.ser_height, V2.ser_version, V2.ser_amount, V2.ser_tx, V2.ser_txOut, V2.ser_witness, V2.ser_raw, V2.ser_source, V2.ser_pubkey, V2.ser_secpPk,
      V2.ser_xonly, V2.ser_ctrl, V2.ser_sig, V2.ser_tapSig, V2.ser_hash, V2.ser_xonlyLeaf, V2.ser_leafScript, V2.ser_tapOrigin, V2.ser_tapTree, encVar_eq, encVec_eq, unsignedTx_eq, List.append_assoc, PropKey.toKey, encProp, List.singleton_append, List.cons_append, List.nil_append] using h60
    · have h60 := Spec.V0.InputPair.tapLeafScript (i := i) h
      simpa only [bare, V2.ser_u32, V2.ser_time, V2.ser_height, V2.ser_version, V2.ser_amount, V2.ser_tx, V2.ser_txOut, V2.ser_witness, V2.ser_raw, V2.ser_source, V2.ser_pubkey, V2.ser_secpPk,
      V2.ser_xonly, V2.ser_ctrl, V2.ser_sig, V2.ser_tapSig, V2.ser_hash, V2.ser_xonlyLeaf, V2.ser_leafScript, V2.ser_tapOrigin, V2.ser_tapTree, encVar_eq, encVec_eq, unsignedTx_eq, List.append_assoc, PropKey.toKey, encProp, List.singleton_append, List.cons_append, List.nil_append] using h60
    · have h60 := Spec.V0.InputPair.tapBip32Derivation (i := i) h
      simpa only [bare, V2.ser_u32, V2.ser_time, V2.ser_height, V2.ser_version, V2.ser_amount, V2.ser_tx, V2.ser_txOut, V2.ser_witness, V2.ser_raw, V2.ser_source, V2.ser_pubkey, V2.ser_secpPk,
      V2.ser_xonly, V2.ser_ctrl, V2.ser_sig, V2.ser_tapSig, V2.ser_hash, V2.ser_xonlyLeaf, V2.ser_leafScript, V2.ser_tapOrigin, V2.ser_tapTree, encVar_eq, encVec_eq, unsignedTx_eq, List.append_assoc, PropKey.toKey, encProp, List.singleton_append, List.cons_append, List.nil_append] using h60
    · have h60 := Spec.V0.InputPair.tapInternalKey (i := i) h
      simpa only [bare, V2.ser_u32, V2.ser_time, V2.ser_height, V2.ser_version, V2.ser_amount, V2.ser_tx, V2.ser_txOut, V2.ser_witness, V2.ser_raw, V2.ser_source, V2.ser_pubkey, V2.ser_secpPk,
      V2.ser_xonly, V2.ser_ctrl, V2.ser_sig, V2.ser_tapSig, V2.ser_hash, V2.ser_xonlyLeaf, V2.ser_leafScript, V2.ser_tapOrigin, V2.ser_tapTree, encVar_eq, encVec_eq, unsignedTx_eq, List.append_assoc, PropKey.toKey, encProp, List.singleton_append, List.cons_append, List.nil_append] using h60
    · have h60 := Spec.V0.InputPair.tapMerkleRoot (i := i) h
      simpa only [bare, V2.ser_u32, V2.ser_time, V2.ser_height, V2.ser_version, V2.ser_amount, V2.ser_tx, V2.ser_txOut, V2.ser_witness, V2.ser_raw, V2.ser_source, V2.ser_pubkey, V2.ser_secpPk,
      V2.ser_xonly, V2.ser_ctrl, V2.ser_sig, V2.ser_tapSig, V2.ser_hash, V2.ser_xonlyLeaf, V2.ser_leafScript, V2.ser_tapOrigin, V2.ser_tapTree, encVar_eq, encVec_eq, unsignedTx_eq, List.append_assoc, PropKey.toKey, encProp, List.singleton_append, List.cons_append, List.nil_append] using h60
    · have h60 := Spec.V0.InputPair.proprietary (i := i) h
      simpa only [bare, V2.ser_u32, V2.ser_time, V2.ser_height, V2.ser_version, V2.ser_amount, V2.ser_tx, V2.ser_txOut, V2.ser_witness, V2.ser_raw, V2.ser_source, V2.ser_pubkey, V2.ser_secpPk,
      V2.ser_xonly, V2.ser_ctrl, V2.ser_sig, V2.ser_tapSig, V2.ser_hash, V2.ser_xonlyLeaf, V2.ser_leafScript, V2.ser_tapOrigin, V2.ser_tapTree, encVar_eq, encVec_eq, unsignedTx_eq, List.append_assoc, PropKey.toKey, encProp, List.singleton_append, List.cons_append, List.nil_append] using h60
    · have h60 := Spec.V0.InputPair.unknown (i := i) h
      simpa only [bare, V2.ser_u32, V2.ser_time, V2.ser_height, V2.ser_version, V2.ser_amount, V2.ser_tx, V2.ser_txOut, V2.ser_witness, V2.ser_raw, V2.ser_source, V2.ser_pubkey, V2.ser_secpPk,
      V2.ser_xonly, V2.ser_ctrl, V2.ser_sig, V2.ser_tapSig, V2.ser_hash, V2.ser_xonlyLeaf, V2.ser_leafScript, V2.ser_tapOrigin, V2.ser_tapTree, encVar_eq, encVec_eq, unsignedTx_eq, List.append_assoc, PropKey.toKey, encProp, List.singleton_append, List.cons_append, List.nil_append] using h60
  · obtain ⟨⟨t, kd⟩, val⟩   := q
    intro h
    cases h with
    | nonWitnessUtxo h => exact .inl (⟨_, h, by pairEq⟩)
    | witnessUtxo h => exact .inr (.inl (⟨_, h, by pairEq⟩))
    | partialSig h => exact .inr (.inr (.inl (⟨_, _, h, by pairEq⟩)))
    | sighashType h => exact .inr (.inr (.inr (.inl (⟨_, h, by pairEq⟩))))
    | redeemScript h => exact .inr (.inr (.inr (.inr (.inl (⟨_, h, by pairEq⟩)))))
    | witnessScript h => exact .inr (.inr (.inr (.inr (.inr (.inl (⟨_, h, by pairEq⟩))))))
    | bip32Derivation h => exact .inr (.inr (.inr (.inr (.inr (.inr (.inl (⟨_, _, h, by pairEq⟩)))))))
    | finalScriptSig h => exact .inr (.inr (.inr (.inr (.inr (.inr (.inr (.inl (⟨_, h, by pairEq⟩))))))))
    | finalScriptWitness h => exact .inr (.inr (.inr (.inr (.inr (.inr (.inr (.inr (.inl (⟨_, h, by pairEq⟩)))))))))
    | ripemd160 h => exact .inr (.inr (.inr (.inr (.inr (.inr (.inr (.inr (.inr (.inl (⟨_, _, h, by pairEq⟩))))))))))
    | sha256 h => exact .inr (.inr (.inr (.inr (.inr (.inr (.inr (.inr (.inr (.inr (.inl (⟨_, _, h, by pairEq⟩)))))))))))
    | hash160 h => exact .inr (.inr (.inr (.inr (.inr (.inr (.inr (.inr (.inr (.inr (.inr (.inl (⟨_, _, h, by pairEq⟩))))))))))))
    | hash256 h => exact .inr (.inr (.inr (.inr (.inr (.inr (.inr (.inr (.inr (.inr (.inr (.inr (.inl (⟨_, _, h, by pairEq⟩)))))))))))))
    | tapKeySig h => exact .inr (.inr (.inr (.inr (.inr (.inr (.inr (.inr (.inr (.inr (.inr (.inr (.inr (.inl (⟨_, h, by pairEq⟩))))))))))))))
    | tapScriptSig h => exact .inr (.inr (.inr (.inr (.inr (.inr (.inr (.inr (.inr (.inr (.inr (.inr (.inr (.inr (.inl (⟨_, _, h, by pairEq⟩)))))))))))))))
    | tapLeafScript h => exact .inr (.inr (.inr (.inr (.inr (.inr (.inr (.inr (.inr (.inr (.inr (.inr (.inr (.inr (.inr (.inl (⟨_, _, h, by pairEq⟩))))))))))))))))
    | tapBip32Derivation h => exact .inr (.inr (.inr (.inr (.inr (.inr (.inr (.inr (.inr (.inr (.inr (.inr (.inr (.inr (.inr (.inr (.inl (⟨_, _, h, by pairEq⟩)))))))))))))))))
    | tapInternalKey h => exact .inr (.inr (.inr (.inr (.inr (.inr (.inr (.inr (.inr (.inr (.inr (.inr (.inr (.inr (.inr (.inr (.inr (.inl (⟨_, h, by pairEq⟩))))))))))))))))))
    | tapMerkleRoot h => exact .inr (.inr (.inr (.inr (.inr (.inr (.inr (.inr (.inr (.inr (.inr (.inr (.inr (.inr (.inr (.inr (.inr (.inr (.inl (⟨_, h, by pairEq⟩)))))))))))))))))))
    | proprietary h => exact .inr (.inr (.inr (.inr (.inr (.inr (.inr (.inr (.inr (.inr (.inr (.inr (.inr (.inr (.inr (.inr (.inr (.inr (.inr (.inl (⟨_, _, h, by pairEq⟩))))))))))))))))))))
    | unknown h => exact .inr (.inr (.inr (.inr (.inr (.inr (.inr (.inr (.inr (.inr (.inr (.inr (.inr (.inr (.inr (.inr (.inr (.inr (.inr (.inr (⟨_, _, h, by pairEq⟩))))))))))))))))))))

/-- C60 for PSBT v0. The pairs of an output map are exactly those the format defines for its fields. -/
theorem C60_v0_output_pairs (o : Output L) (q : Pair) : q ∈ o.getPairs ↔ Spec.V0.OutputPair o q.key.ty q.key.key q.value := by
  unfold Output.getPairs
  simp only [List.flatten_cons, List.flatten_nil, List.append_nil, List.mem_append, List.mem_singleton, V2.mem_emitOpt, V2.mem_emitMap,
    V2.mem_emitSp, V2.mem_emitProp, V2.mem_emitUnknown, V2.mem_emitXpub, mem_emitVersion, V2.mem_emitSpInfo, V2.mem_emitSpLabel]
  constructor
  · rintro (⟨v, h, rfl⟩ | ⟨v, h, rfl⟩ | ⟨k, v, h, rfl⟩ | ⟨v, h, rfl⟩ | ⟨v, h, rfl⟩ | ⟨k, v, h, rfl⟩ | ⟨k, v, h, rfl⟩ | ⟨k, v, h, rfl⟩)
    · have h60 := Spec.V0.OutputPair.redeemScript (o := o) h
      simpa only [bare, V2.ser_u32, V2.ser_time, V2.ser_height, V2.ser_version, V2.ser_amount, V2.ser_tx, V2.ser_txOut, V2.ser_witness, V2.ser_raw, V2.ser_source, V2.ser_pubkey, V2.ser_secpPk,
      V2.ser_xonly, V2.ser_ctrl, V2.ser_sig, V2.ser_tapSig, V2.ser_hash, V2.ser_xonlyLeaf, V2.ser_leafScript, V2.ser_tapOrigin, V2.ser_tapTree, encVar_eq, encVec_eq, unsignedTx_eq, List.append_assoc, PropKey.toKey, encProp, List.singleton_append, List.cons_append, List.nil_append] using h60
    · have h60 := Spec.V0.OutputPair.witnessScript (o := o) h
      simpa only [bare, V2.ser_u32, V2.ser_time, V2.ser_height, V2.ser_version, V2.ser_amount, V2.ser_tx, V2.ser_txOut, V2.ser_witness, V2.ser_raw, V2.ser_source, V2.ser_pubkey, V2.ser_secpPk,
      V2.ser_xonly, V2.ser_ctrl, V2.ser_sig, V2.ser_tapSig, V2.ser_hash, V2.ser_xonlyLeaf, V2.ser_leafScript, V2.ser_tapOrigin, V2.ser_tapTree, encVar_eq, encVec_eq, unsignedTx_eq, List.append_assoc, PropKey.toKey, encProp, List.singleton_append, List.cons_append, List.nil_append] using h60
    · have h60 := Spec.V0.OutputPair.bip32Derivation (o := o) h
      simpa only [bare, V2.ser_u32, V2.ser_time, V2.ser_height, V2.ser_version, V2.ser_amount, V2.ser_tx, V2.ser_txOut, V2.ser_witness, V2.ser_raw, V2.ser_source, V2.ser_pubkey, V2.ser_secpPk,
      V2.ser_xonly, V2.ser_ctrl, V2.ser_sig, V2.ser_tapSig, V2.ser_hash, V2.ser_xonlyLeaf, V2.ser_leafScript, V2.ser_tapOrigin, V2.ser_tapTree, encVar_eq, encVec_eq, unsignedTx_eq, List.append_assoc, PropKey.toKey, encProp, List.singleton_append, List.cons_append, List.nil_append] using h60
    · have h60 := Spec.V0.OutputPair.tapInternalKey (o := o) h
      simpa only [bare, V2.ser_u32, V2.ser_time, V2.ser_height, V2.ser_version, V2.ser_amount, V2.ser_tx, V2.ser_txOut, V2.ser_witness, V2.ser_raw, V2.ser_source, V2.ser_pubkey, V2.ser_secpPk,
      V2.ser_xonly, V2.ser_ctrl, V2.ser_sig, V2.ser_tapSig, V2.ser_hash, V2.ser_xonlyLeaf, V2.ser_leafScript, V2.ser_tapOrigin, V2.ser_tapTree, encVar_eq, encVec_eq, unsignedTx_eq, List.append_assoc, PropKey.toKey, encProp, List.singleton_append, List.cons_append, List.nil_append] using h60
    · have h60 := Spec.V0.OutputPair.tapTree (o := o) h
      simpa only [bare, V2.ser_u32, V2.ser_time, V2.ser_height, V2.ser_version, V2.ser_amount, V2.ser_tx, V2.ser_txOut, V2.ser_witness, V2.ser_raw, V2.ser_source, V2.ser_pubkey, V2.ser_secpPk,
      V2.ser_xonly, V2.ser_ctrl, V2.ser_sig, V2.ser_tapSig, V2.ser_hash, V2.ser_xonlyLeaf, V2.ser_leafScript, V2.ser_tapOrigin, V2.ser_tapTree, encVar_eq, encVec_eq, unsignedTx_eq, List.append_assoc, PropKey.toKey, encProp, List.singleton_append, List.cons_append, List.nil_append] using h60
    · have h60 := Spec.V0.OutputPair.tapBip32Derivation (o := o) h
      simpa only [bare, V2.ser_u32, V2.ser_time, V2.ser_height, V2.ser_version, V2.ser_amount, V2.ser_tx, V2.ser_txOut, V2.ser_witness, V2.ser_raw, V2.ser_source, V2.ser_pubkey, V2.ser_secpPk,
      V2.ser_xonly, V2.ser_ctrl, V2.ser_sig, V2.ser_tapSig, V2.ser_hash, V2.ser_xonlyLeaf, V2.ser_leafScript, V2.ser_tapOrigin, V2.ser_tapTree, encVar_eq, encVec_eq, unsignedTx_eq, List.append_assoc, PropKey.toKey, encProp, List.singleton_append, List.cons_append, List.nil_append] using h60
    · have h60 := Spec.V0.OutputPair.proprietary (o := o) h
      simpa only [bare, V2.ser_u32, V2.ser_time, V2.ser_height, V2.ser_version, V2.ser_amount, V2.ser_tx, V2.ser_txOut, V2.ser_witness, V2.ser_raw, V2.ser_source, V2.ser_pubkey, V2.ser_secpPk,
      V2.ser_xonly, V2.ser_ctrl, V2.ser_sig, V2.ser_tapSig, V2.ser_hash, V2.ser_xonlyLeaf, V2.ser_leafScript, V2.ser_tapOrigin, V2.ser_tapTree, encVar_eq, encVec_eq, unsignedTx_eq, List.append_assoc, PropKey.toKey, encProp, List.singleton_append, List.cons_append, List.nil_append] using h60
    · have h60 := Spec.V0.OutputPair.unknown (o := o) h
      simpa only [bare, V2.ser_u32, V2.ser_time, V2.ser_height, V2.ser_version, V2.ser_amount, V2.ser_tx, V2.ser_txOut, V2.ser_witness, V2.ser_raw, V2.ser_source, V2.ser_pubkey, V2.ser_secpPk,
      V2.ser_xonly, V2.ser_ctrl, V2.ser_sig, V2.ser_tapSig, V2.ser_hash, V2.ser_xonlyLeaf, V2.ser_leafScript, V2.ser_tapOrigin, V2.ser_tapTree, encVar_eq, encVec_eq, unsignedTx_eq, List.append_assoc, PropKey.toKey, encProp, List.singleton_append, List.cons_append, List.nil_append] using h60
  · obtain ⟨⟨t, kd⟩, val⟩   := q
    intro h
    cases h with
    | redeemScript h => exact .inl (⟨_, h, by pairEq⟩)
    | witnessScript h => exact .inr (.inl (⟨_, h, by pairEq⟩))
    | bip32Derivation h => exact .inr (.inr (.inl (⟨_, _, h, by pairEq⟩)))
    | tapInternalKey h => exact .inr (.inr (.inr (.inl (⟨_, h, by pairEq⟩))))
    | tapTree h => exact .inr (.inr (.inr (.inr (.inl (⟨_, h, by pairEq⟩)))))
    | tapBip32Derivation h => exact .inr (.inr (.inr (.inr (.inr (.inl (⟨_, _, h, by pairEq⟩))))))
    | proprietary h => exact .inr (.inr (.inr (.inr (.inr (.inr (.inl (⟨_, _, h, by pairEq⟩)))))))
    | unknown h => exact .inr (.inr (.inr (.inr (.inr (.inr (.inr (⟨_, _, h, by pairEq⟩)))))))

/-- C60 for PSBT v0. A PSBT is written as the magic bytes `psbt`, 0xFF, and its maps one after the other: the global map,
the inputs in order, the outputs in order; each map is its pairs and a zero byte. -/
theorem C60_v0_bytes (p : Psbt L) : p.serialize =
    [0x70, 0x73, 0x62, 0x74, 0xff] ++
    (p.getPairs :: (p.inputs.map Input.getPairs ++ p.outputs.map Output.getPairs)).flatMap Spec.mapBytes := by
  rw [mapBytes_fun]
  simp [Psbt.serialize, V2.MAGIC, List.flatMap_append, List.flatMap_map, List.append_assoc]

/-- C60 for PSBT v0. And the other way round: whatever byte string is read successfully describes a PSBT whose own bytes are
the format's bytes for it. -/
theorem C60_v0_read {b : Bytes} {p : Psbt L} (h : Psbt.deserialize L b = .ok p) :
    Psbt.deserialize L ([0x70, 0x73, 0x62, 0x74, 0xff] ++
      (p.getPairs :: (p.inputs.map Input.getPairs ++ p.outputs.map Output.getPairs)).flatMap Spec.mapBytes) = .ok p := by
  rw [← C60_v0_bytes]
  exact C46_parse_stable h

example : ∃ b, Psbt.deserialize (Demo.lib false) b = .ok demo := ⟨demo.serialize, demo_roundtrip⟩
example : Spec.V0.GlobalPair demo 0x50 [] [1, 2, 3] :=
  (C60_v0_global_pairs demo ⟨⟨0x50, []⟩, [1, 2, 3]⟩).mp (by decide +kernel)

end Psbt.V0
