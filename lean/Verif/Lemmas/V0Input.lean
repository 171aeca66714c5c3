/- The v0 input map as a slot system. -/
import Verif.Lemmas.V2Input
import Verif.Model.V0.Input
namespace Psbt.V0
open Psbt

/-- The type of each field. -/
abbrev InF (L : Lib) : InSlot → Type
  | .nonWitnessUtxo => Option Tx
  | .witnessUtxo => Option TxOut
  | .partialSigs => BMap L.pubkey.T (EcdsaSig L)
  | .sighashType => Option UInt32
  | .redeemScript => Option Bytes
  | .witnessScript => Option Bytes
  | .bip32 => BMap L.secpPk.T KeySource
  | .finalScriptSig => Option Bytes
  | .finalScriptWitness => Option (List Bytes)
  | .ripemd160 => BMap (FixedBytes 20) Bytes
  | .sha256 => BMap (FixedBytes 32) Bytes
  | .hash160 => BMap (FixedBytes 20) Bytes
  | .hash256 => BMap (FixedBytes 32) Bytes
  | .tapKeySig => Option TapSig
  | .tapScriptSigs => BMap (L.xonly.T × Hash32) TapSig
  | .tapScripts => BMap L.ctrl.T (Bytes × LeafVersion)
  | .tapKeyOrigins => BMap L.xonly.T (List Hash32 × KeySource)
  | .tapInternalKey => Option L.xonly.T
  | .tapMerkleRoot => Option Hash32
  | .proprietary => BMap PropKey Bytes
  | .unknown => BMap RawKey Bytes
  | .excluded => Unit

def inGet (L : Lib) : (s : InSlot) → Input L → InF L s
  | .nonWitnessUtxo, i => i.nonWitnessUtxo
  | .witnessUtxo, i => i.witnessUtxo
  | .partialSigs, i => i.partialSigs
  | .sighashType, i => i.sighashType
  | .redeemScript, i => i.redeemScript
  | .witnessScript, i => i.witnessScript
  | .bip32, i => i.bip32Derivation
  | .finalScriptSig, i => i.finalScriptSig
  | .finalScriptWitness, i => i.finalScriptWitness
  | .ripemd160, i => i.ripemd160Preimages
  | .sha256, i => i.sha256Preimages
  | .hash160, i => i.hash160Preimages
  | .hash256, i => i.hash256Preimages
  | .tapKeySig, i => i.tapKeySig
  | .tapScriptSigs, i => i.tapScriptSigs
  | .tapScripts, i => i.tapScripts
  | .tapKeyOrigins, i => i.tapKeyOrigins
  | .tapInternalKey, i => i.tapInternalKey
  | .tapMerkleRoot, i => i.tapMerkleRoot
  | .proprietary, i => i.proprietary
  | .unknown, i => i.unknown
  | .excluded, _ => ()

def inSet (L : Lib) : (s : InSlot) → InF L s → Input L → Input L
  | .nonWitnessUtxo, f, i => { i with nonWitnessUtxo := f }
  | .witnessUtxo, f, i => { i with witnessUtxo := f }
  | .partialSigs, f, i => { i with partialSigs := f }
  | .sighashType, f, i => { i with sighashType := f }
  | .redeemScript, f, i => { i with redeemScript := f }
  | .witnessScript, f, i => { i with witnessScript := f }
  | .bip32, f, i => { i with bip32Derivation := f }
  | .finalScriptSig, f, i => { i with finalScriptSig := f }
  | .finalScriptWitness, f, i => { i with finalScriptWitness := f }
  | .ripemd160, f, i => { i with ripemd160Preimages := f }
  | .sha256, f, i => { i with sha256Preimages := f }
  | .hash160, f, i => { i with hash160Preimages := f }
  | .hash256, f, i => { i with hash256Preimages := f }
  | .tapKeySig, f, i => { i with tapKeySig := f }
  | .tapScriptSigs, f, i => { i with tapScriptSigs := f }
  | .tapScripts, f, i => { i with tapScripts := f }
  | .tapKeyOrigins, f, i => { i with tapKeyOrigins := f }
  | .tapInternalKey, f, i => { i with tapInternalKey := f }
  | .tapMerkleRoot, f, i => { i with tapMerkleRoot := f }
  | .proprietary, f, i => { i with proprietary := f }
  | .unknown, f, i => { i with unknown := f }
  | .excluded, _, i => i

def inStep (L : Lib) : (s : InSlot) → InF L s → Pair → Except Err (InF L s)
  | .nonWitnessUtxo => insOpt txCodec
  | .witnessUtxo => insOpt txOutCodec
  | .partialSigs => insMap (pubkeyCodec L) (ecdsaSigCodec L)
  | .sighashType => insOpt u32Codec
  | .redeemScript => insOpt rawCodec
  | .witnessScript => insOpt rawCodec
  | .bip32 => insMap (secpPkCodec L) keySourceCodec
  | .finalScriptSig => insOpt rawCodec
  | .finalScriptWitness => insOpt witnessCodec
  | .ripemd160 => insHash L.ripemd160 .ripemd
  | .sha256 => insHash L.sha256 .sha256
  | .hash160 => insHash L.hash160 .hash160
  | .hash256 => insHash L.sha256d .hash256
  | .tapKeySig => insOpt tapSigCodec
  | .tapScriptSigs => insMap (xonlyLeafCodec L) tapSigCodec
  | .tapScripts => insMap (ctrlCodec L) leafScriptCodec
  | .tapKeyOrigins => insMap (xonlyCodec L) tapOriginCodec
  | .tapInternalKey => insOpt (xonlyCodec L)
  | .tapMerkleRoot => insOpt (hashCodec 32)
  | .proprietary => insProp
  | .unknown => insUnknown
  | .excluded => fun _ p => .error (.excludedKey p.key.ty)

def inEmit (L : Lib) : (s : InSlot) → InF L s → List Pair
  | .nonWitnessUtxo => emitOpt PSBT_IN_NON_WITNESS_UTXO txCodec
  | .witnessUtxo => emitOpt PSBT_IN_WITNESS_UTXO txOutCodec
  | .partialSigs => emitMap PSBT_IN_PARTIAL_SIG (pubkeyCodec L) (ecdsaSigCodec L)
  | .sighashType => emitOpt PSBT_IN_SIGHASH_TYPE u32Codec
  | .redeemScript => emitOpt PSBT_IN_REDEEM_SCRIPT rawCodec
  | .witnessScript => emitOpt PSBT_IN_WITNESS_SCRIPT rawCodec
  | .bip32 => emitMap PSBT_IN_BIP32_DERIVATION (secpPkCodec L) keySourceCodec
  | .finalScriptSig => emitOpt PSBT_IN_FINAL_SCRIPTSIG rawCodec
  | .finalScriptWitness => emitOpt PSBT_IN_FINAL_SCRIPTWITNESS witnessCodec
  | .ripemd160 => emitMap PSBT_IN_RIPEMD160 (hashCodec 20) rawCodec
  | .sha256 => emitMap PSBT_IN_SHA256 (hashCodec 32) rawCodec
  | .hash160 => emitMap PSBT_IN_HASH160 (hashCodec 20) rawCodec
  | .hash256 => emitMap PSBT_IN_HASH256 (hashCodec 32) rawCodec
  | .tapKeySig => emitOpt PSBT_IN_TAP_KEY_SIG tapSigCodec
  | .tapScriptSigs => emitMap PSBT_IN_TAP_SCRIPT_SIG (xonlyLeafCodec L) tapSigCodec
  | .tapScripts => emitMap PSBT_IN_TAP_LEAF_SCRIPT (ctrlCodec L) leafScriptCodec
  | .tapKeyOrigins => emitMap PSBT_IN_TAP_BIP32_DERIVATION (xonlyCodec L) tapOriginCodec
  | .tapInternalKey => emitOpt PSBT_IN_TAP_INTERNAL_KEY (xonlyCodec L)
  | .tapMerkleRoot => emitOpt PSBT_IN_TAP_MERKLE_ROOT (hashCodec 32)
  | .proprietary => emitProp
  | .unknown => emitUnknown
  | .excluded => fun _ => []

def inOrder : List InSlot :=
  [.nonWitnessUtxo, .witnessUtxo, .partialSigs, .sighashType, .redeemScript, .witnessScript, .bip32, .finalScriptSig, .finalScriptWitness, .ripemd160, .sha256, 
   .hash160, .hash256, .tapKeySig, .tapScriptSigs, .tapScripts, .tapKeyOrigins, .tapInternalKey, .tapMerkleRoot, .proprietary, .unknown, .excluded]

theorem inOrder_nodup : inOrder.Nodup := by decide
theorem mem_inOrder (s : InSlot) : s ∈ inOrder := by cases s <;> decide

def inSys (L : Lib) : SlotSys (Input L) InSlot Err where
  F := InF L
  get := inGet L
  set := inSet L
  get_set s f m := by cases s <;> rfl
  get_set_ne s t f m h := by
    cases t <;> cases s <;> first | rfl | exact absurd rfl h
  ext m m' h := by
    obtain ⟨⟩ := m
    obtain ⟨⟩ := m'
    have h0 := h .nonWitnessUtxo
    have h1 := h .witnessUtxo
    have h2 := h .partialSigs
    have h3 := h .sighashType
    have h4 := h .redeemScript
    have h5 := h .witnessScript
    have h6 := h .bip32
    have h7 := h .finalScriptSig
    have h8 := h .finalScriptWitness
    have h9 := h .ripemd160
    have h10 := h .sha256
    have h11 := h .hash160
    have h12 := h .hash256
    have h13 := h .tapKeySig
    have h14 := h .tapScriptSigs
    have h15 := h .tapScripts
    have h16 := h .tapKeyOrigins
    have h17 := h .tapInternalKey
    have h18 := h .tapMerkleRoot
    have h19 := h .proprietary
    have h20 := h .unknown
    simp only [inGet] at *
    subst_vars
    rfl
  slotOf p := inSlot p.key.ty
  step := inStep L

theorem in_ins (L : Lib) : Input.insertPair (L := L) = (inSys L).ins := by
  funext i p
  unfold Input.insertPair SlotSys.ins
  simp only [inSys]
  generalize inSlot p.key.ty = s
  cases s <;> rfl

theorem in_pairs (L : Lib) (i : Input L) : i.getPairs = (inSys L).pairs inOrder (inEmit L) i := by
  simp [Input.getPairs, SlotSys.pairs, inOrder, inEmit, inSys, inGet]

/-- What each field of a decoded map satisfies. -/
def InInv (L : Lib) : (s : InSlot) → InF L s → Prop
  | .ripemd160 => fun f => (∀ p ∈ inEmit L .ripemd160 f, PairFits p) ∧ ∀ k v, f.get k = some v → L.ripemd160 v = k
  | .sha256 => fun f => (∀ p ∈ inEmit L .sha256 f, PairFits p) ∧ ∀ k v, f.get k = some v → L.sha256 v = k
  | .hash160 => fun f => (∀ p ∈ inEmit L .hash160 f, PairFits p) ∧ ∀ k v, f.get k = some v → L.hash160 v = k
  | .hash256 => fun f => (∀ p ∈ inEmit L .hash256 f, PairFits p) ∧ ∀ k v, f.get k = some v → L.sha256d v = k
  | .proprietary => fun f => (∀ p ∈ inEmit L .proprietary f, PairFits p) ∧ ∀ k v, f.get k = some v → PropFits k
  | .unknown => fun f =>
    (∀ p ∈ inEmit L .unknown f, PairFits p) ∧ ∀ k v, f.get k = some v → inSlot k.ty = .unknown
  | .excluded => fun f => f = ()
  | s => fun f => ∀ p ∈ inEmit L s f, PairFits p

theorem in_lawful (L : Lib) (s : InSlot) :
    LawfulSlot (fun p => (inSys L).slotOf p = s) ((inSys L).step s) ((inSys L).get s (Input.default L))
      (inEmit L s) (InInv L s) := by
  have hk : ∀ t s', inSlot t = s' → ∀ k v, (inSys L).slotOf ⟨⟨t, k⟩, v⟩ = s' := fun t s' h k v => h
  have hb : ∀ t s', inSlot t = s' → ∀ v, (inSys L).slotOf (bare t v) = s' := fun t s' h v => h
  cases s with
  | nonWitnessUtxo => exact lawful_insOpt' lawful_tx _ (hb _ _ (by decide))
  | witnessUtxo => exact lawful_insOpt' lawful_txOut _ (hb _ _ (by decide))
  | partialSigs => exact lawful_insMap' (lawful_foreign _ _) (lawful_ecdsaSig L) Foreign.bytes_ne_nil _ (hk _ _ (by decide))
  | sighashType => exact lawful_insOpt' lawful_u32 _ (hb _ _ (by decide))
  | redeemScript => exact lawful_insOpt' lawful_raw _ (hb _ _ (by decide))
  | witnessScript => exact lawful_insOpt' lawful_raw _ (hb _ _ (by decide))
  | bip32 => exact lawful_insMap' (lawful_foreign _ _) lawful_keySource Foreign.bytes_ne_nil _ (hk _ _ (by decide))
  | finalScriptSig => exact lawful_insOpt' lawful_raw _ (hb _ _ (by decide))
  | finalScriptWitness => exact lawful_insOpt' lawful_witness _ (hb _ _ (by decide))
  | ripemd160 => exact lawful_insHash (by decide) _ _ _ (hk _ _ (by decide))
  | sha256 => exact lawful_insHash (by decide) _ _ _ (hk _ _ (by decide))
  | hash160 => exact lawful_insHash (by decide) _ _ _ (hk _ _ (by decide))
  | hash256 => exact lawful_insHash (by decide) _ _ _ (hk _ _ (by decide))
  | tapKeySig => exact lawful_insOpt' lawful_tapSig _ (hb _ _ (by decide))
  | tapScriptSigs => exact lawful_insMap' (lawful_xonlyLeaf L) lawful_tapSig (V2.xonlyLeaf_ne L) _ (hk _ _ (by decide))
  | tapScripts => exact lawful_insMap' (lawful_foreign _ _) lawful_leafScript Foreign.bytes_ne_nil _ (hk _ _ (by decide))
  | tapKeyOrigins => exact lawful_insMap' (lawful_foreign _ _) lawful_tapOrigin Foreign.bytes_ne_nil _ (hk _ _ (by decide))
  | tapInternalKey => exact lawful_insOpt' (lawful_foreign _ _) _ (hb _ _ (by decide))
  | tapMerkleRoot => exact lawful_insOpt' (lawful_hash 32) _ (hb _ _ (by decide))
  | proprietary => exact lawful_prop (isKeyed_insProp _) (hk _ _ (by decide))
  | unknown => exact lawful_unknown (isT := fun t => inSlot t = .unknown)
  | excluded => exact lawful_never (fun f p f' _ h => by cases h)

theorem in_comm (L : Lib) (s : InSlot) : CommSlot (fun p => True ∧ (inSys L).slotOf p = s) ((inSys L).step s) := by
  cases s with
  | nonWitnessUtxo => exact (isOpt_insOpt _ _).comm
  | witnessUtxo => exact (isOpt_insOpt _ _).comm
  | partialSigs => exact (isKeyed_insMap _ _ _).comm parseMap_key
  | sighashType => exact (isOpt_insOpt _ _).comm
  | redeemScript => exact (isOpt_insOpt _ _).comm
  | witnessScript => exact (isOpt_insOpt _ _).comm
  | bip32 => exact (isKeyed_insMap _ _ _).comm parseMap_key
  | finalScriptSig => exact (isOpt_insOpt _ _).comm
  | finalScriptWitness => exact (isOpt_insOpt _ _).comm
  | ripemd160 => exact (isKeyed_insHash _ _ _).comm parseHash_key
  | sha256 => exact (isKeyed_insHash _ _ _).comm parseHash_key
  | hash160 => exact (isKeyed_insHash _ _ _).comm parseHash_key
  | hash256 => exact (isKeyed_insHash _ _ _).comm parseHash_key
  | tapKeySig => exact (isOpt_insOpt _ _).comm
  | tapScriptSigs => exact (isKeyed_insMap _ _ _).comm parseMap_key
  | tapScripts => exact (isKeyed_insMap _ _ _).comm parseMap_key
  | tapKeyOrigins => exact (isKeyed_insMap _ _ _).comm parseMap_key
  | tapInternalKey => exact (isOpt_insOpt _ _).comm
  | tapMerkleRoot => exact (isOpt_insOpt _ _).comm
  | proprietary => exact (isKeyed_insProp _).comm parseProp_key
  | unknown => exact (isKeyed_insUnknown _).comm parseUnknown_key
  | excluded => exact comm_never (fun f p f' _ h => by cases h)

end Psbt.V0
