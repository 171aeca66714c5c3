/- The v2 input map as a slot system. -/
import Verif.Lemmas.Kinds
namespace Psbt.V2
open Psbt

/-- The type of each field. -/
abbrev InF (L : Lib) : InSlot → Type
  | .previousTxid => Hash32
  | .outputIndex => UInt32
  | .sequence => Option UInt32
  | .minTime => Option Time
  | .minHeight => Option Height
  | .nonWitnessUtxo => Option Tx
  | .witnessUtxo => Option TxOut
  | .partialSigs => BMap L.pubkey.T (EcdsaSig L)
  | .sighashType => Option UInt32
  | .redeemScript => Option Bytes
  | .witnessScript => Option Bytes
  | .bip32 => BMap L.secpPk.T KeySource
  | .finalScriptSig => Option Bytes
  | .finalScriptWitness => Option (List Bytes)
  | .ripemd160 => BMap (FixedBytes 20) Bytes
  | .sha256 => BMap (FixedBytes 32) Bytes
  | .hash160 => BMap (FixedBytes 20) Bytes
  | .hash256 => BMap (FixedBytes 32) Bytes
  | .tapKeySig => Option TapSig
  | .tapScriptSigs => BMap (L.xonly.T × Hash32) TapSig
  | .tapScripts => BMap L.ctrl.T (Bytes × LeafVersion)
  | .tapKeyOrigins => BMap L.xonly.T (List Hash32 × KeySource)
  | .tapInternalKey => Option L.xonly.T
  | .tapMerkleRoot => Option Hash32
  | .spEcdh => BMap L.compressed.T L.compressed.T
  | .spDleq => BMap L.compressed.T (FixedBytes 64)
  | .proprietary => BMap PropKey Bytes
  | .unknown => BMap RawKey Bytes

def inGet (L : Lib) : (s : InSlot) → Input L → InF L s
  | .previousTxid, i => i.previousTxid
  | .outputIndex, i => i.spentOutputIndex
  | .sequence, i => i.sequence
  | .minTime, i => i.minTime
  | .minHeight, i => i.minHeight
  | .nonWitnessUtxo, i => i.nonWitnessUtxo
  | .witnessUtxo, i => i.witnessUtxo
  | .partialSigs, i => i.partialSigs
  | .sighashType, i => i.sighashType
  | .redeemScript, i => i.redeemScript
  | .witnessScript, i => i.witnessScript
  | .bip32, i => i.bip32Derivations
  | .finalScriptSig, i => i.finalScriptSig
  | .finalScriptWitness, i => i.finalScriptWitness
  | .ripemd160, i => i.ripemd160Preimages
  | .sha256, i => i.sha256Preimages
  | .hash160, i => i.hash160Preimages
  | .hash256, i => i.hash256Preimages
  | .tapKeySig, i => i.tapKeySig
  | .tapScriptSigs, i => i.tapScriptSigs
  | .tapScripts, i => i.tapScripts
  | .tapKeyOrigins, i => i.tapKeyOrigins
  | .tapInternalKey, i => i.tapInternalKey
  | .tapMerkleRoot, i => i.tapMerkleRoot
  | .spEcdh, i => i.spEcdhShares
  | .spDleq, i => i.spDleqProofs
  | .proprietary, i => i.proprietaries
  | .unknown, i => i.unknowns

def inSet (L : Lib) : (s : InSlot) → InF L s → Input L → Input L
  | .previousTxid, f, i => { i with previousTxid := f }
  | .outputIndex, f, i => { i with spentOutputIndex := f }
  | .sequence, f, i => { i with sequence := f }
  | .minTime, f, i => { i with minTime := f }
  | .minHeight, f, i => { i with minHeight := f }
  | .nonWitnessUtxo, f, i => { i with nonWitnessUtxo := f }
  | .witnessUtxo, f, i => { i with witnessUtxo := f }
  | .partialSigs, f, i => { i with partialSigs := f }
  | .sighashType, f, i => { i with sighashType := f }
  | .redeemScript, f, i => { i with redeemScript := f }
  | .witnessScript, f, i => { i with witnessScript := f }
  | .bip32, f, i => { i with bip32Derivations := f }
  | .finalScriptSig, f, i => { i with finalScriptSig := f }
  | .finalScriptWitness, f, i => { i with finalScriptWitness := f }
  | .ripemd160, f, i => { i with ripemd160Preimages := f }
  | .sha256, f, i => { i with sha256Preimages := f }
  | .hash160, f, i => { i with hash160Preimages := f }
  | .hash256, f, i => { i with hash256Preimages := f }
  | .tapKeySig, f, i => { i with tapKeySig := f }
  | .tapScriptSigs, f, i => { i with tapScriptSigs := f }
  | .tapScripts, f, i => { i with tapScripts := f }
  | .tapKeyOrigins, f, i => { i with tapKeyOrigins := f }
  | .tapInternalKey, f, i => { i with tapInternalKey := f }
  | .tapMerkleRoot, f, i => { i with tapMerkleRoot := f }
  | .spEcdh, f, i => { i with spEcdhShares := f }
  | .spDleq, f, i => { i with spDleqProofs := f }
  | .proprietary, f, i => { i with proprietaries := f }
  | .unknown, f, i => { i with unknowns := f }

def inStep (L : Lib) : (s : InSlot) → InF L s → Pair → Except InsErr (InF L s)
  | .previousTxid => insTxid
  | .outputIndex => insVout
  | .sequence => insOpt u32Codec
  | .minTime => insOpt timeCodec
  | .minHeight => insOpt heightCodec
  | .nonWitnessUtxo => insOpt txCodec
  | .witnessUtxo => insOpt txOutCodec
  | .partialSigs => insMap (pubkeyCodec L) (ecdsaSigCodec L)
  | .sighashType => insOpt u32Codec
  | .redeemScript => insOpt rawCodec
  | .witnessScript => insOpt rawCodec
  | .bip32 => insMap (secpPkCodec L) keySourceCodec
  | .finalScriptSig => insOpt rawCodec
  | .finalScriptWitness => insOpt witnessCodec
  | .ripemd160 => insHash L.ripemd160 .ripemd
  | .sha256 => insHash L.sha256 .sha256
  | .hash160 => insHash L.hash160 .hash160
  | .hash256 => insHash L.sha256d .hash256
  | .tapKeySig => insOpt tapSigCodec
  | .tapScriptSigs => insMap (xonlyLeafCodec L) tapSigCodec
  | .tapScripts => insMap (ctrlCodec L) leafScriptCodec
  | .tapKeyOrigins => insMap (xonlyCodec L) tapOriginCodec
  | .tapInternalKey => insOpt (xonlyCodec L)
  | .tapMerkleRoot => insOpt (hashCodec 32)
  | .spEcdh => insSp L L.compressed.parse 33
  | .spDleq => insSp L dleq? 64
  | .proprietary => insProp
  | .unknown => insUnknown

def inEmit (L : Lib) : (s : InSlot) → InF L s → List Pair
  | .previousTxid => fun f => [bare PSBT_IN_PREVIOUS_TXID f.1]
  | .outputIndex => fun f => [bare PSBT_IN_OUTPUT_INDEX (u32Codec.ser f)]
  | .sequence => emitOpt PSBT_IN_SEQUENCE u32Codec
  | .minTime => emitOpt PSBT_IN_REQUIRED_TIME_LOCKTIME timeCodec
  | .minHeight => emitOpt PSBT_IN_REQUIRED_HEIGHT_LOCKTIME heightCodec
  | .nonWitnessUtxo => emitOpt PSBT_IN_NON_WITNESS_UTXO txCodec
  | .witnessUtxo => emitOpt PSBT_IN_WITNESS_UTXO txOutCodec
  | .partialSigs => emitMap PSBT_IN_PARTIAL_SIG (pubkeyCodec L) (ecdsaSigCodec L)
  | .sighashType => emitOpt PSBT_IN_SIGHASH_TYPE u32Codec
  | .redeemScript => emitOpt PSBT_IN_REDEEM_SCRIPT rawCodec
  | .witnessScript => emitOpt PSBT_IN_WITNESS_SCRIPT rawCodec
  | .bip32 => emitMap PSBT_IN_BIP32_DERIVATION (secpPkCodec L) keySourceCodec
  | .finalScriptSig => emitOpt PSBT_IN_FINAL_SCRIPTSIG rawCodec
  | .finalScriptWitness => emitOpt PSBT_IN_FINAL_SCRIPTWITNESS witnessCodec
  | .ripemd160 => emitMap PSBT_IN_RIPEMD160 (hashCodec 20) rawCodec
  | .sha256 => emitMap PSBT_IN_SHA256 (hashCodec 32) rawCodec
  | .hash160 => emitMap PSBT_IN_HASH160 (hashCodec 20) rawCodec
  | .hash256 => emitMap PSBT_IN_HASH256 (hashCodec 32) rawCodec
  | .tapKeySig => emitOpt PSBT_IN_TAP_KEY_SIG tapSigCodec
  | .tapScriptSigs => emitMap PSBT_IN_TAP_SCRIPT_SIG (xonlyLeafCodec L) tapSigCodec
  | .tapScripts => emitMap PSBT_IN_TAP_LEAF_SCRIPT (ctrlCodec L) leafScriptCodec
  | .tapKeyOrigins => emitMap PSBT_IN_TAP_BIP32_DERIVATION (xonlyCodec L) tapOriginCodec
  | .tapInternalKey => emitOpt PSBT_IN_TAP_INTERNAL_KEY (xonlyCodec L)
  | .tapMerkleRoot => emitOpt PSBT_IN_TAP_MERKLE_ROOT (hashCodec 32)
  | .spEcdh => emitSp L PSBT_IN_SP_ECDH_SHARE Foreign.T.bytes
  | .spDleq => emitSp L PSBT_IN_SP_DLEQ Subtype.val
  | .proprietary => emitProp
  | .unknown => emitUnknown

def inOrder : List InSlot :=
  [.previousTxid, .outputIndex, .sequence, .minTime, .minHeight, .nonWitnessUtxo, .witnessUtxo, .partialSigs,
   .sighashType, .redeemScript, .witnessScript, .bip32, .finalScriptSig, .finalScriptWitness, .ripemd160, .sha256,
   .hash160, .hash256, .tapKeySig, .tapScriptSigs, .tapScripts, .tapKeyOrigins, .tapInternalKey, .tapMerkleRoot,
   .spEcdh, .spDleq, .proprietary, .unknown]

theorem inOrder_nodup : inOrder.Nodup := by decide
theorem mem_inOrder (s : InSlot) : s ∈ inOrder := by cases s <;> decide

def inSys (L : Lib) : SlotSys (Input L) InSlot InsErr where
  F := InF L
  get := inGet L
  set := inSet L
  get_set s f m := by cases s <;> rfl
  get_set_ne s t f m h := by
    cases t <;> cases s <;> first | rfl | exact absurd rfl h
  ext m m' h := by
    obtain ⟨⟩ := m
    obtain ⟨⟩ := m'
    have h1 := h .previousTxid; have h2 := h .outputIndex; have h3 := h .sequence; have h4 := h .minTime
    have h5 := h .minHeight; have h6 := h .nonWitnessUtxo; have h7 := h .witnessUtxo; have h8 := h .partialSigs
    have h9 := h .sighashType; have h10 := h .redeemScript; have h11 := h .witnessScript; have h12 := h .bip32
    have h13 := h .finalScriptSig; have h14 := h .finalScriptWitness; have h15 := h .ripemd160
    have h16 := h .sha256; have h17 := h .hash160; have h18 := h .hash256; have h19 := h .tapKeySig
    have h20 := h .tapScriptSigs; have h21 := h .tapScripts; have h22 := h .tapKeyOrigins
    have h23 := h .tapInternalKey; have h24 := h .tapMerkleRoot; have h25 := h .spEcdh; have h26 := h .spDleq
    have h27 := h .proprietary; have h28 := h .unknown
    simp only [inGet] at *
    subst_vars
    rfl
  slotOf p := inSlot L.sp p.key.ty
  step := inStep L

theorem in_ins (L : Lib) : Input.insertPair (L := L) = (inSys L).ins := by
  funext i p
  unfold Input.insertPair SlotSys.ins
  simp only [inSys]
  generalize inSlot L.sp p.key.ty = s
  cases s <;> rfl

theorem in_pairs (L : Lib) (i : Input L) : i.getPairs = (inSys L).pairs inOrder (inEmit L) i := by
  rfl

/-- What each field of a decoded input satisfies. -/
def InInv (L : Lib) : (s : InSlot) → InF L s → Prop
  | .ripemd160 => fun f => (∀ p ∈ inEmit L .ripemd160 f, PairFits p) ∧ ∀ k v, f.get k = some v → L.ripemd160 v = k
  | .sha256 => fun f => (∀ p ∈ inEmit L .sha256 f, PairFits p) ∧ ∀ k v, f.get k = some v → L.sha256 v = k
  | .hash160 => fun f => (∀ p ∈ inEmit L .hash160 f, PairFits p) ∧ ∀ k v, f.get k = some v → L.hash160 v = k
  | .hash256 => fun f => (∀ p ∈ inEmit L .hash256 f, PairFits p) ∧ ∀ k v, f.get k = some v → L.sha256d v = k
  | .spEcdh => fun f => (∀ p ∈ inEmit L .spEcdh f, PairFits p) ∧ (L.sp = false → f = BMap.empty)
  | .spDleq => fun f => (∀ p ∈ inEmit L .spDleq f, PairFits p) ∧ (L.sp = false → f = BMap.empty)
  | .proprietary => fun f => (∀ p ∈ inEmit L .proprietary f, PairFits p) ∧ ∀ k v, f.get k = some v → PropFits k
  | .unknown => fun f =>
    (∀ p ∈ inEmit L .unknown f, PairFits p) ∧ ∀ k v, f.get k = some v → inSlot L.sp k.ty = .unknown
  | s => fun f => ∀ p ∈ inEmit L s f, PairFits p

theorem isSentinel_txid (isSlot : Pair → Prop) : IsSentinel zeroTxid isSlot insTxid (parseVal (hashCodec 32)) := by
  intro f p f' _
  rw [parseVal_some]
  simp only [insTxid]
  split
  · rename_i h; simp [h]
  · rename_i h
    simp only [ne_eq, Decidable.not_not] at h
    simp [h, mapErr_ok]

theorem isSentinel_vout (isSlot : Pair → Prop) : IsSentinel U32_MAX isSlot insVout (parseVal u32Codec) := by
  intro f p f' _
  rw [parseVal_some]
  simp only [insVout]
  split
  · rename_i h; simp [h]
  · rename_i h
    simp only [ne_eq, Decidable.not_not] at h
    simp [h, mapErr_ok]

theorem lawful_txid {isSlot : Pair → Prop} (hs : ∀ v, isSlot (bare PSBT_IN_PREVIOUS_TXID v)) :
    LawfulSlot isSlot insTxid zeroTxid (fun f => [bare PSBT_IN_PREVIOUS_TXID f.1])
      (fun f => ∀ p ∈ [bare PSBT_IN_PREVIOUS_TXID f.1], PairFits p) := by
  apply (isSentinel_txid isSlot).lawful (emit1 := fun f => bare PSBT_IN_PREVIOUS_TXID f.1)
  · exact pairFits_bare_short _ (by rw [zeroTxid.2]; decide)
  · intro p v _ _ _
    exact pairFits_bare_short _ (by rw [v.2]; decide)
  · intro v _
    exact ⟨hs _, parseVal_some.mpr (hashCodec_deser_ok.mpr rfl)⟩

theorem lawful_vout {isSlot : Pair → Prop} (hs : ∀ v, isSlot (bare PSBT_IN_OUTPUT_INDEX v)) :
    LawfulSlot isSlot insVout U32_MAX (fun f => [bare PSBT_IN_OUTPUT_INDEX (u32Codec.ser f)])
      (fun f => ∀ p ∈ [bare PSBT_IN_OUTPUT_INDEX (u32Codec.ser f)], PairFits p) := by
  apply (isSentinel_vout isSlot).lawful (emit1 := fun f => bare PSBT_IN_OUTPUT_INDEX (u32Codec.ser f))
  · exact pairFits_bare_short _ (by rw [u32_ser_length]; decide)
  · intro p v _ _ _
    exact pairFits_bare_short _ (by rw [u32_ser_length]; decide)
  · intro v _
    exact ⟨hs _, parseVal_some.mpr (lawful_u32.rt v (by rw [u32_ser_length]; decide))⟩

theorem xonlyLeaf_ne (L : Lib) (k : L.xonly.T × Hash32) : (xonlyLeafCodec L).ser k ≠ [] := by
  obtain ⟨k, h⟩ := k
  simp only [xonlyLeafCodec, ne_eq, List.append_eq_nil_iff, not_and]
  intro h1
  exact absurd h1 (Foreign.bytes_ne_nil k)

theorem sp_slot_true {L : Lib} {t : UInt8} (s : InSlot) (h : inSlot true t = s) :
    L.sp = true → ∀ k v, inSlot L.sp (Pair.mk ⟨t, k⟩ v).key.ty = s := by
  intro hsp k v; rw [hsp]; exact h

theorem in_no_sp : ∀ t : UInt8, inSlot false t ≠ .spEcdh ∧ inSlot false t ≠ .spDleq :=
  forall_u8 (by decide +kernel)

theorem in_lawful (L : Lib) (s : InSlot) :
    LawfulSlot (fun p => (inSys L).slotOf p = s) ((inSys L).step s) ((inSys L).get s (Input.placeholder L))
      (inEmit L s) (InInv L s) := by
  have hb : ∀ t s', t ≠ PSBT_IN_SP_ECDH_SHARE → t ≠ PSBT_IN_SP_DLEQ → inSlot false t = s' →
      ∀ v, (inSys L).slotOf (bare t v) = s' := by
    intro t s' h1 h2 h v
    simp only [inSys, bare]
    rw [← h]; unfold inSlot; simp [h1, h2]
  have hk : ∀ t s', t ≠ PSBT_IN_SP_ECDH_SHARE → t ≠ PSBT_IN_SP_DLEQ → inSlot false t = s' →
      ∀ k v, (inSys L).slotOf ⟨⟨t, k⟩, v⟩ = s' := by
    intro t s' h1 h2 h k v
    simp only [inSys]
    rw [← h]; unfold inSlot; simp [h1, h2]
  cases s with
  | previousTxid => exact lawful_txid (hb _ _ (by decide) (by decide) (by decide))
  | outputIndex => exact lawful_vout (hb _ _ (by decide) (by decide) (by decide))
  | sequence => exact lawful_insOpt' lawful_u32 _ (hb _ _ (by decide) (by decide) (by decide))
  | minTime => exact lawful_insOpt' lawful_time _ (hb _ _ (by decide) (by decide) (by decide))
  | minHeight => exact lawful_insOpt' lawful_height _ (hb _ _ (by decide) (by decide) (by decide))
  | nonWitnessUtxo => exact lawful_insOpt' lawful_tx _ (hb _ _ (by decide) (by decide) (by decide))
  | witnessUtxo => exact lawful_insOpt' lawful_txOut _ (hb _ _ (by decide) (by decide) (by decide))
  | partialSigs =>
    exact lawful_insMap' (lawful_foreign _ _) (lawful_ecdsaSig L) Foreign.bytes_ne_nil _
      (hk _ _ (by decide) (by decide) (by decide))
  | sighashType => exact lawful_insOpt' lawful_u32 _ (hb _ _ (by decide) (by decide) (by decide))
  | redeemScript => exact lawful_insOpt' lawful_raw _ (hb _ _ (by decide) (by decide) (by decide))
  | witnessScript => exact lawful_insOpt' lawful_raw _ (hb _ _ (by decide) (by decide) (by decide))
  | bip32 =>
    exact lawful_insMap' (lawful_foreign _ _) lawful_keySource Foreign.bytes_ne_nil _
      (hk _ _ (by decide) (by decide) (by decide))
  | finalScriptSig => exact lawful_insOpt' lawful_raw _ (hb _ _ (by decide) (by decide) (by decide))
  | finalScriptWitness => exact lawful_insOpt' lawful_witness _ (hb _ _ (by decide) (by decide) (by decide))
  | ripemd160 => exact lawful_insHash (by decide) _ _ _ (hk _ _ (by decide) (by decide) (by decide))
  | sha256 => exact lawful_insHash (by decide) _ _ _ (hk _ _ (by decide) (by decide) (by decide))
  | hash160 => exact lawful_insHash (by decide) _ _ _ (hk _ _ (by decide) (by decide) (by decide))
  | hash256 => exact lawful_insHash (by decide) _ _ _ (hk _ _ (by decide) (by decide) (by decide))
  | tapKeySig => exact lawful_insOpt' lawful_tapSig _ (hb _ _ (by decide) (by decide) (by decide))
  | tapScriptSigs =>
    exact lawful_insMap' (lawful_xonlyLeaf L) lawful_tapSig (xonlyLeaf_ne L) _
      (hk _ _ (by decide) (by decide) (by decide))
  | tapScripts =>
    exact lawful_insMap' (lawful_foreign _ _) lawful_leafScript Foreign.bytes_ne_nil _
      (hk _ _ (by decide) (by decide) (by decide))
  | tapKeyOrigins =>
    exact lawful_insMap' (lawful_foreign _ _) lawful_tapOrigin Foreign.bytes_ne_nil _
      (hk _ _ (by decide) (by decide) (by decide))
  | tapInternalKey => exact lawful_insOpt' (lawful_foreign _ _) _ (hb _ _ (by decide) (by decide) (by decide))
  | tapMerkleRoot => exact lawful_insOpt' (lawful_hash 32) _ (hb _ _ (by decide) (by decide) (by decide))
  | spEcdh =>
    exact lawful_insSp L 33 (fun b v h => Foreign.bytes_length_le h) (Foreign.parse_bytes _) _
      (sp_slot_true (t := PSBT_IN_SP_ECDH_SHARE) .spEcdh (by decide)) (fun h p e => (in_no_sp p.key.ty).1 (by rw [← h]; exact e))
  | spDleq =>
    exact lawful_insSp L 64 (fun b v h => by rw [dleq?_some] at h; rw [h]; exact Nat.le_refl _)
      (fun v => dleq?_some.mpr rfl) _
      (sp_slot_true (t := PSBT_IN_SP_DLEQ) .spDleq (by decide)) (fun h p e => (in_no_sp p.key.ty).2 (by rw [← h]; exact e))
  | proprietary => exact lawful_prop (isKeyed_insProp _) (hk _ _ (by decide) (by decide) (by decide))
  | unknown => exact lawful_unknown (isT := fun t => inSlot L.sp t = .unknown)

/-- Pairs that do not carry one of the two placeholder values. -/
def InQ (p : Pair) : Prop :=
  (p.key.ty = PSBT_IN_PREVIOUS_TXID → p.value ≠ zeroTxid.1) ∧
  (p.key.ty = PSBT_IN_OUTPUT_INDEX → p.value ≠ u32Codec.ser U32_MAX)

theorem inSlot_txid : ∀ sp t, inSlot sp t = .previousTxid → t = PSBT_IN_PREVIOUS_TXID :=
  fun sp => forall_u8 (by cases sp <;> decide +kernel)

theorem inSlot_vout : ∀ sp t, inSlot sp t = .outputIndex → t = PSBT_IN_OUTPUT_INDEX :=
  fun sp => forall_u8 (by cases sp <;> decide +kernel)

theorem in_comm (L : Lib) (s : InSlot) :
    CommSlot (fun p => InQ p ∧ (inSys L).slotOf p = s) ((inSys L).step s) := by
  cases s with
  | previousTxid =>
    apply (isSentinel_txid _).comm
    intro p hQ hs h
    rw [parseVal_some, hashCodec_deser_ok] at h
    exact hQ.1 (inSlot_txid _ _ hs) h
  | outputIndex =>
    apply (isSentinel_vout _).comm
    intro p hQ hs h
    rw [parseVal_some] at h
    exact hQ.2 (inSlot_vout _ _ hs) (u32Codec_exact h)
  | sequence => exact (isOpt_insOpt _ _).comm
  | minTime => exact (isOpt_insOpt _ _).comm
  | minHeight => exact (isOpt_insOpt _ _).comm
  | nonWitnessUtxo => exact (isOpt_insOpt _ _).comm
  | witnessUtxo => exact (isOpt_insOpt _ _).comm
  | partialSigs => exact (isKeyed_insMap _ _ _).comm parseMap_key
  | sighashType => exact (isOpt_insOpt _ _).comm
  | redeemScript => exact (isOpt_insOpt _ _).comm
  | witnessScript => exact (isOpt_insOpt _ _).comm
  | bip32 => exact (isKeyed_insMap _ _ _).comm parseMap_key
  | finalScriptSig => exact (isOpt_insOpt _ _).comm
  | finalScriptWitness => exact (isOpt_insOpt _ _).comm
  | ripemd160 => exact (isKeyed_insHash _ _ _).comm parseHash_key
  | sha256 => exact (isKeyed_insHash _ _ _).comm parseHash_key
  | hash160 => exact (isKeyed_insHash _ _ _).comm parseHash_key
  | hash256 => exact (isKeyed_insHash _ _ _).comm parseHash_key
  | tapKeySig => exact (isOpt_insOpt _ _).comm
  | tapScriptSigs => exact (isKeyed_insMap _ _ _).comm parseMap_key
  | tapScripts => exact (isKeyed_insMap _ _ _).comm parseMap_key
  | tapKeyOrigins => exact (isKeyed_insMap _ _ _).comm parseMap_key
  | tapInternalKey => exact (isOpt_insOpt _ _).comm
  | tapMerkleRoot => exact (isOpt_insOpt _ _).comm
  | spEcdh => exact (isKeyed_insSp _ _ _ _).comm parseSp_key
  | spDleq => exact (isKeyed_insSp _ _ _ _).comm parseSp_key
  | proprietary => exact (isKeyed_insProp _).comm parseProp_key
  | unknown => exact (isKeyed_insUnknown _).comm parseUnknown_key

end Psbt.V2
