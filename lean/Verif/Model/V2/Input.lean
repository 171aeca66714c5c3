/- The PSBT v2 input map: src/v2/map/input.rs. -/
import Verif.Model.V2.Common
namespace Psbt.V2
open Psbt

/-- `Input`, src/v2/map/input.rs:45-140. `PsbtSighashType`, `Sequence`: their `u32`. `Witness`: its elements. The two
silent-payment maps exist in Rust only with the feature; the model keeps them empty without it. -/
structure Input (L : Lib) where
  previousTxid : Hash32
  spentOutputIndex : UInt32
  sequence : Option UInt32
  minTime : Option Time
  minHeight : Option Height
  nonWitnessUtxo : Option Tx
  witnessUtxo : Option TxOut
  partialSigs : BMap L.pubkey.T (EcdsaSig L)
  sighashType : Option UInt32
  redeemScript : Option Bytes
  witnessScript : Option Bytes
  bip32Derivations : BMap L.secpPk.T KeySource
  finalScriptSig : Option Bytes
  finalScriptWitness : Option (List Bytes)
  ripemd160Preimages : BMap (FixedBytes 20) Bytes
  sha256Preimages : BMap (FixedBytes 32) Bytes
  hash160Preimages : BMap (FixedBytes 20) Bytes
  hash256Preimages : BMap (FixedBytes 32) Bytes
  tapKeySig : Option TapSig
  tapScriptSigs : BMap (L.xonly.T × Hash32) TapSig
  tapScripts : BMap L.ctrl.T (Bytes × LeafVersion)
  tapKeyOrigins : BMap L.xonly.T (List Hash32 × KeySource)
  tapInternalKey : Option L.xonly.T
  tapMerkleRoot : Option Hash32
  spEcdhShares : BMap L.compressed.T L.compressed.T
  spDleqProofs : BMap L.compressed.T (FixedBytes 64)
  proprietaries : BMap PropKey Bytes
  unknowns : BMap RawKey Bytes
  deriving DecidableEq

/-- `Txid::all_zeros()`. -/
def zeroTxid : Hash32 := ⟨List.replicate 32 0, by simp⟩

/-- `u32::MAX`. -/
def U32_MAX : UInt32 := 0xFFFFFFFF

/-- `Input::new`, src/v2/map/input.rs:144-177. -/
def Input.new (L : Lib) (o : OutPoint) : Input L where
  previousTxid := o.txid
  spentOutputIndex := o.vout
  sequence := none
  minTime := none
  minHeight := none
  nonWitnessUtxo := none
  witnessUtxo := none
  partialSigs := .empty
  sighashType := none
  redeemScript := none
  witnessScript := none
  bip32Derivations := .empty
  finalScriptSig := none
  finalScriptWitness := none
  ripemd160Preimages := .empty
  sha256Preimages := .empty
  hash160Preimages := .empty
  hash256Preimages := .empty
  tapKeySig := none
  tapScriptSigs := .empty
  tapScripts := .empty
  tapKeyOrigins := .empty
  tapInternalKey := none
  tapMerkleRoot := none
  spEcdhShares := .empty
  spDleqProofs := .empty
  proprietaries := .empty
  unknowns := .empty

/-- Which field a key type of the input map belongs to: the match arms of src/v2/map/input.rs:430-597. -/
inductive InSlot where
  | previousTxid | outputIndex | sequence | minTime | minHeight | nonWitnessUtxo | witnessUtxo | partialSigs
  | sighashType | redeemScript | witnessScript | bip32 | finalScriptSig | finalScriptWitness
  | ripemd160 | sha256 | hash160 | hash256 | tapKeySig | tapScriptSigs | tapScripts | tapKeyOrigins
  | tapInternalKey | tapMerkleRoot | spEcdh | spDleq | proprietary | unknown
  deriving DecidableEq, Repr

/-- The match of src/v2/map/input.rs:430-597; the silent-payment arms exist only with the feature. -/
def inSlot (sp : Bool) (t : UInt8) : InSlot :=
  if t = PSBT_IN_PREVIOUS_TXID then .previousTxid
  else if t = PSBT_IN_OUTPUT_INDEX then .outputIndex
  else if t = PSBT_IN_SEQUENCE then .sequence
  else if t = PSBT_IN_REQUIRED_TIME_LOCKTIME then .minTime
  else if t = PSBT_IN_REQUIRED_HEIGHT_LOCKTIME then .minHeight
  else if t = PSBT_IN_NON_WITNESS_UTXO then .nonWitnessUtxo
  else if t = PSBT_IN_WITNESS_UTXO then .witnessUtxo
  else if t = PSBT_IN_PARTIAL_SIG then .partialSigs
  else if t = PSBT_IN_SIGHASH_TYPE then .sighashType
  else if t = PSBT_IN_REDEEM_SCRIPT then .redeemScript
  else if t = PSBT_IN_WITNESS_SCRIPT then .witnessScript
  else if t = PSBT_IN_BIP32_DERIVATION then .bip32
  else if t = PSBT_IN_FINAL_SCRIPTSIG then .finalScriptSig
  else if t = PSBT_IN_FINAL_SCRIPTWITNESS then .finalScriptWitness
  else if t = PSBT_IN_RIPEMD160 then .ripemd160
  else if t = PSBT_IN_SHA256 then .sha256
  else if t = PSBT_IN_HASH160 then .hash160
  else if t = PSBT_IN_HASH256 then .hash256
  else if t = PSBT_IN_TAP_KEY_SIG then .tapKeySig
  else if t = PSBT_IN_TAP_SCRIPT_SIG then .tapScriptSigs
  else if t = PSBT_IN_TAP_LEAF_SCRIPT then .tapScripts
  else if t = PSBT_IN_TAP_BIP32_DERIVATION then .tapKeyOrigins
  else if t = PSBT_IN_TAP_INTERNAL_KEY then .tapInternalKey
  else if t = PSBT_IN_TAP_MERKLE_ROOT then .tapMerkleRoot
  else if sp = true ∧ t = PSBT_IN_SP_ECDH_SHARE then .spEcdh
  else if sp = true ∧ t = PSBT_IN_SP_DLEQ then .spDleq
  else if t = PSBT_IN_PROPRIETARY then .proprietary
  else .unknown

/-- src/v2/map/input.rs:431-437: duplicates are detected by comparing with the placeholder; key data is not looked at. -/
def insTxid (t : Hash32) (p : Pair) : Except InsErr Hash32 :=
  if t ≠ zeroTxid then .error (.duplicateKey p.key) else mapErr .deser ((hashCodec 32).deser p.value)

/-- src/v2/map/input.rs:438-444. -/
def insVout (v : UInt32) (p : Pair) : Except InsErr UInt32 :=
  if v ≠ U32_MAX then .error (.duplicateKey p.key) else mapErr .deser (u32Codec.deser p.value)

/-- `Input::insert_pair`, src/v2/map/input.rs:427-601. -/
def Input.insertPair {L : Lib} (i : Input L) (p : Pair) : Except InsErr (Input L) :=
  match inSlot L.sp p.key.ty with
  | .previousTxid => do let f ← insTxid i.previousTxid p; .ok { i with previousTxid := f }
  | .outputIndex => do let f ← insVout i.spentOutputIndex p; .ok { i with spentOutputIndex := f }
  | .sequence => do let f ← insOpt u32Codec i.sequence p; .ok { i with sequence := f }
  | .minTime => do let f ← insOpt timeCodec i.minTime p; .ok { i with minTime := f }
  | .minHeight => do let f ← insOpt heightCodec i.minHeight p; .ok { i with minHeight := f }
  | .nonWitnessUtxo => do let f ← insOpt txCodec i.nonWitnessUtxo p; .ok { i with nonWitnessUtxo := f }
  | .witnessUtxo => do let f ← insOpt txOutCodec i.witnessUtxo p; .ok { i with witnessUtxo := f }
  | .partialSigs => do
    let f ← insMap (pubkeyCodec L) (ecdsaSigCodec L) i.partialSigs p; .ok { i with partialSigs := f }
  | .sighashType => do let f ← insOpt u32Codec i.sighashType p; .ok { i with sighashType := f }
  | .redeemScript => do let f ← insOpt rawCodec i.redeemScript p; .ok { i with redeemScript := f }
  | .witnessScript => do let f ← insOpt rawCodec i.witnessScript p; .ok { i with witnessScript := f }
  | .bip32 => do
    let f ← insMap (secpPkCodec L) keySourceCodec i.bip32Derivations p; .ok { i with bip32Derivations := f }
  | .finalScriptSig => do let f ← insOpt rawCodec i.finalScriptSig p; .ok { i with finalScriptSig := f }
  | .finalScriptWitness => do
    let f ← insOpt witnessCodec i.finalScriptWitness p; .ok { i with finalScriptWitness := f }
  | .ripemd160 => do
    let f ← insHash L.ripemd160 .ripemd i.ripemd160Preimages p; .ok { i with ripemd160Preimages := f }
  | .sha256 => do let f ← insHash L.sha256 .sha256 i.sha256Preimages p; .ok { i with sha256Preimages := f }
  | .hash160 => do let f ← insHash L.hash160 .hash160 i.hash160Preimages p; .ok { i with hash160Preimages := f }
  | .hash256 => do let f ← insHash L.sha256d .hash256 i.hash256Preimages p; .ok { i with hash256Preimages := f }
  | .tapKeySig => do let f ← insOpt tapSigCodec i.tapKeySig p; .ok { i with tapKeySig := f }
  | .tapScriptSigs => do
    let f ← insMap (xonlyLeafCodec L) tapSigCodec i.tapScriptSigs p; .ok { i with tapScriptSigs := f }
  | .tapScripts => do let f ← insMap (ctrlCodec L) leafScriptCodec i.tapScripts p; .ok { i with tapScripts := f }
  | .tapKeyOrigins => do
    let f ← insMap (xonlyCodec L) tapOriginCodec i.tapKeyOrigins p; .ok { i with tapKeyOrigins := f }
  | .tapInternalKey => do let f ← insOpt (xonlyCodec L) i.tapInternalKey p; .ok { i with tapInternalKey := f }
  | .tapMerkleRoot => do let f ← insOpt (hashCodec 32) i.tapMerkleRoot p; .ok { i with tapMerkleRoot := f }
  | .spEcdh => do let f ← insSp L L.compressed.parse 33 i.spEcdhShares p; .ok { i with spEcdhShares := f }
  | .spDleq => do let f ← insSp L dleq? 64 i.spDleqProofs p; .ok { i with spDleqProofs := f }
  | .proprietary => do let f ← insProp i.proprietaries p; .ok { i with proprietaries := f }
  | .unknown => do let f ← insUnknown i.unknowns p; .ok { i with unknowns := f }

/-- The placeholder input decoding starts from, src/v2/map/input.rs:397-398. -/
def Input.placeholder (L : Lib) : Input L := Input.new L ⟨zeroTxid, U32_MAX⟩

/-- `Input::decode`, src/v2/map/input.rs:395-425. Returns the input and the unread bytes. -/
def Input.decode (L : Lib) (b : Bytes) : Except DecErr (Input L × Bytes) := do
  let (i, r) ← decodeMap (fun i p => mapErr .insertPair (Input.insertPair i p)) .deserPair (Input.placeholder L) b
  if i.previousTxid = zeroTxid then .error .missingPreviousTxid
  else if i.spentOutputIndex = U32_MAX then .error .missingSpentOutputIndex
  else if L.sp = true ∧ i.spEcdhShares.isEmpty ≠ i.spDleqProofs.isEmpty then .error .fieldMismatch
  else .ok (i, r)

/-- `Input::get_pairs`, src/v2/map/input.rs:660-787. -/
def Input.getPairs {L : Lib} (i : Input L) : List Pair :=
  List.flatten [
    [bare PSBT_IN_PREVIOUS_TXID i.previousTxid.1],
    [bare PSBT_IN_OUTPUT_INDEX (u32Codec.ser i.spentOutputIndex)],
    emitOpt PSBT_IN_SEQUENCE u32Codec i.sequence,
    emitOpt PSBT_IN_REQUIRED_TIME_LOCKTIME timeCodec i.minTime,
    emitOpt PSBT_IN_REQUIRED_HEIGHT_LOCKTIME heightCodec i.minHeight,
    emitOpt PSBT_IN_NON_WITNESS_UTXO txCodec i.nonWitnessUtxo,
    emitOpt PSBT_IN_WITNESS_UTXO txOutCodec i.witnessUtxo,
    emitMap PSBT_IN_PARTIAL_SIG (pubkeyCodec L) (ecdsaSigCodec L) i.partialSigs,
    emitOpt PSBT_IN_SIGHASH_TYPE u32Codec i.sighashType,
    emitOpt PSBT_IN_REDEEM_SCRIPT rawCodec i.redeemScript,
    emitOpt PSBT_IN_WITNESS_SCRIPT rawCodec i.witnessScript,
    emitMap PSBT_IN_BIP32_DERIVATION (secpPkCodec L) keySourceCodec i.bip32Derivations,
    emitOpt PSBT_IN_FINAL_SCRIPTSIG rawCodec i.finalScriptSig,
    emitOpt PSBT_IN_FINAL_SCRIPTWITNESS witnessCodec i.finalScriptWitness,
    emitMap PSBT_IN_RIPEMD160 (hashCodec 20) rawCodec i.ripemd160Preimages,
    emitMap PSBT_IN_SHA256 (hashCodec 32) rawCodec i.sha256Preimages,
    emitMap PSBT_IN_HASH160 (hashCodec 20) rawCodec i.hash160Preimages,
    emitMap PSBT_IN_HASH256 (hashCodec 32) rawCodec i.hash256Preimages,
    emitOpt PSBT_IN_TAP_KEY_SIG tapSigCodec i.tapKeySig,
    emitMap PSBT_IN_TAP_SCRIPT_SIG (xonlyLeafCodec L) tapSigCodec i.tapScriptSigs,
    emitMap PSBT_IN_TAP_LEAF_SCRIPT (ctrlCodec L) leafScriptCodec i.tapScripts,
    emitMap PSBT_IN_TAP_BIP32_DERIVATION (xonlyCodec L) tapOriginCodec i.tapKeyOrigins,
    emitOpt PSBT_IN_TAP_INTERNAL_KEY (xonlyCodec L) i.tapInternalKey,
    emitOpt PSBT_IN_TAP_MERKLE_ROOT (hashCodec 32) i.tapMerkleRoot,
    emitSp L PSBT_IN_SP_ECDH_SHARE Foreign.T.bytes i.spEcdhShares,
    emitSp L PSBT_IN_SP_DLEQ Subtype.val i.spDleqProofs,
    emitProp i.proprietaries,
    emitUnknown i.unknowns]

end Psbt.V2
