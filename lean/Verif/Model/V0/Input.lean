/- The PSBT v0 input map: src/v0/bitcoin/map/input.rs. -/
import Verif.Model.V0.Common
namespace Psbt.V0
open Psbt

/-- `Input`, src/v0/bitcoin/map/input.rs:75-140. `PsbtSighashType`: its `u32`. `Witness`: its elements. -/
structure Input (L : Lib) where
  nonWitnessUtxo : Option Tx
  witnessUtxo : Option TxOut
  partialSigs : BMap L.pubkey.T (EcdsaSig L)
  sighashType : Option UInt32
  redeemScript : Option Bytes
  witnessScript : Option Bytes
  bip32Derivation : BMap L.secpPk.T KeySource
  finalScriptSig : Option Bytes
  finalScriptWitness : Option (List Bytes)
  ripemd160Preimages : BMap (FixedBytes 20) Bytes
  sha256Preimages : BMap (FixedBytes 32) Bytes
  hash160Preimages : BMap (FixedBytes 20) Bytes
  hash256Preimages : BMap (FixedBytes 32) Bytes
  tapKeySig : Option TapSig
  tapScriptSigs : BMap (L.xonly.T × Hash32) TapSig
  tapScripts : BMap L.ctrl.T (Bytes × LeafVersion)
  tapKeyOrigins : BMap L.xonly.T (List Hash32 × KeySource)
  tapInternalKey : Option L.xonly.T
  tapMerkleRoot : Option Hash32
  proprietary : BMap PropKey Bytes
  unknown : BMap RawKey Bytes
  deriving DecidableEq

/-- `Input::default()`: derived, every field empty (src/v0/bitcoin/map/input.rs:75). -/
def Input.default (L : Lib) : Input L where
  nonWitnessUtxo := none
  witnessUtxo := none
  partialSigs := .empty
  sighashType := none
  redeemScript := none
  witnessScript := none
  bip32Derivation := .empty
  finalScriptSig := none
  finalScriptWitness := none
  ripemd160Preimages := .empty
  sha256Preimages := .empty
  hash160Preimages := .empty
  hash256Preimages := .empty
  tapKeySig := none
  tapScriptSigs := .empty
  tapScripts := .empty
  tapKeyOrigins := .empty
  tapInternalKey := none
  tapMerkleRoot := none
  proprietary := .empty
  unknown := .empty

/-- Which field a key type belongs to: the match arms of src/v0/bitcoin/map/input.rs:169-299; `excluded` are the PSBT v2 types. -/
inductive InSlot where
  | nonWitnessUtxo | witnessUtxo | partialSigs | sighashType | redeemScript | witnessScript | bip32
  | finalScriptSig | finalScriptWitness | ripemd160 | sha256 | hash160 | hash256 | tapKeySig | tapScriptSigs
  | tapScripts | tapKeyOrigins | tapInternalKey | tapMerkleRoot | proprietary | unknown | excluded
  deriving DecidableEq, Repr

/-- The match of src/v0/bitcoin/map/input.rs:169-299. -/
def inSlot (t : UInt8) : InSlot :=
  if t = PSBT_IN_NON_WITNESS_UTXO then .nonWitnessUtxo
  else if t = PSBT_IN_WITNESS_UTXO then .witnessUtxo
  else if t = PSBT_IN_PARTIAL_SIG then .partialSigs
  else if t = PSBT_IN_SIGHASH_TYPE then .sighashType
  else if t = PSBT_IN_REDEEM_SCRIPT then .redeemScript
  else if t = PSBT_IN_WITNESS_SCRIPT then .witnessScript
  else if t = PSBT_IN_BIP32_DERIVATION then .bip32
  else if t = PSBT_IN_FINAL_SCRIPTSIG then .finalScriptSig
  else if t = PSBT_IN_FINAL_SCRIPTWITNESS then .finalScriptWitness
  else if t = PSBT_IN_RIPEMD160 then .ripemd160
  else if t = PSBT_IN_SHA256 then .sha256
  else if t = PSBT_IN_HASH160 then .hash160
  else if t = PSBT_IN_HASH256 then .hash256
  else if t = PSBT_IN_TAP_KEY_SIG then .tapKeySig
  else if t = PSBT_IN_TAP_SCRIPT_SIG then .tapScriptSigs
  else if t = PSBT_IN_TAP_LEAF_SCRIPT then .tapScripts
  else if t = PSBT_IN_TAP_BIP32_DERIVATION then .tapKeyOrigins
  else if t = PSBT_IN_TAP_INTERNAL_KEY then .tapInternalKey
  else if t = PSBT_IN_TAP_MERKLE_ROOT then .tapMerkleRoot
  else if t = PSBT_IN_PROPRIETARY then .proprietary
  else if t = PSBT_IN_PREVIOUS_TXID ∨ t = PSBT_IN_OUTPUT_INDEX ∨ t = PSBT_IN_SEQUENCE
      ∨ t = PSBT_IN_REQUIRED_TIME_LOCKTIME ∨ t = PSBT_IN_REQUIRED_HEIGHT_LOCKTIME then .excluded
  else .unknown

/-- `Input::insert_pair`, src/v0/bitcoin/map/input.rs:166-303. -/
def Input.insertPair {L : Lib} (i : Input L) (p : Pair) : Except Err (Input L) :=
  match inSlot p.key.ty with
  | .nonWitnessUtxo => do let f ← insOpt txCodec i.nonWitnessUtxo p; .ok { i with nonWitnessUtxo := f }
  | .witnessUtxo => do let f ← insOpt txOutCodec i.witnessUtxo p; .ok { i with witnessUtxo := f }
  | .partialSigs => do
    let f ← insMap (pubkeyCodec L) (ecdsaSigCodec L) i.partialSigs p; .ok { i with partialSigs := f }
  | .sighashType => do let f ← insOpt u32Codec i.sighashType p; .ok { i with sighashType := f }
  | .redeemScript => do let f ← insOpt rawCodec i.redeemScript p; .ok { i with redeemScript := f }
  | .witnessScript => do let f ← insOpt rawCodec i.witnessScript p; .ok { i with witnessScript := f }
  | .bip32 => do
    let f ← insMap (secpPkCodec L) keySourceCodec i.bip32Derivation p; .ok { i with bip32Derivation := f }
  | .finalScriptSig => do let f ← insOpt rawCodec i.finalScriptSig p; .ok { i with finalScriptSig := f }
  | .finalScriptWitness => do
    let f ← insOpt witnessCodec i.finalScriptWitness p; .ok { i with finalScriptWitness := f }
  | .ripemd160 => do
    let f ← insHash L.ripemd160 .ripemd i.ripemd160Preimages p; .ok { i with ripemd160Preimages := f }
  | .sha256 => do let f ← insHash L.sha256 .sha256 i.sha256Preimages p; .ok { i with sha256Preimages := f }
  | .hash160 => do let f ← insHash L.hash160 .hash160 i.hash160Preimages p; .ok { i with hash160Preimages := f }
  | .hash256 => do let f ← insHash L.sha256d .hash256 i.hash256Preimages p; .ok { i with hash256Preimages := f }
  | .tapKeySig => do let f ← insOpt tapSigCodec i.tapKeySig p; .ok { i with tapKeySig := f }
  | .tapScriptSigs => do
    let f ← insMap (xonlyLeafCodec L) tapSigCodec i.tapScriptSigs p; .ok { i with tapScriptSigs := f }
  | .tapScripts => do let f ← insMap (ctrlCodec L) leafScriptCodec i.tapScripts p; .ok { i with tapScripts := f }
  | .tapKeyOrigins => do
    let f ← insMap (xonlyCodec L) tapOriginCodec i.tapKeyOrigins p; .ok { i with tapKeyOrigins := f }
  | .tapInternalKey => do let f ← insOpt (xonlyCodec L) i.tapInternalKey p; .ok { i with tapInternalKey := f }
  | .tapMerkleRoot => do let f ← insOpt (hashCodec 32) i.tapMerkleRoot p; .ok { i with tapMerkleRoot := f }
  | .proprietary => do let f ← insProp i.proprietary p; .ok { i with proprietary := f }
  | .unknown => do let f ← insUnknown i.unknown p; .ok { i with unknown := f }
  | .excluded => .error (.excludedKey p.key.ty)

/-- `Input::decode`, src/v0/bitcoin/macros.rs:59-77. Returns the map and the unread bytes. -/
def Input.decode (L : Lib) (b : Bytes) : Except Err (Input L × Bytes) :=
  decodeMap Input.insertPair .ser (Input.default L) b

/-- `Input::get_pairs`, src/v0/bitcoin/map/input.rs:337-424. -/
def Input.getPairs {L : Lib} (i : Input L) : List Pair :=
  List.flatten [
    emitOpt PSBT_IN_NON_WITNESS_UTXO txCodec i.nonWitnessUtxo,
    emitOpt PSBT_IN_WITNESS_UTXO txOutCodec i.witnessUtxo,
    emitMap PSBT_IN_PARTIAL_SIG (pubkeyCodec L) (ecdsaSigCodec L) i.partialSigs,
    emitOpt PSBT_IN_SIGHASH_TYPE u32Codec i.sighashType,
    emitOpt PSBT_IN_REDEEM_SCRIPT rawCodec i.redeemScript,
    emitOpt PSBT_IN_WITNESS_SCRIPT rawCodec i.witnessScript,
    emitMap PSBT_IN_BIP32_DERIVATION (secpPkCodec L) keySourceCodec i.bip32Derivation,
    emitOpt PSBT_IN_FINAL_SCRIPTSIG rawCodec i.finalScriptSig,
    emitOpt PSBT_IN_FINAL_SCRIPTWITNESS witnessCodec i.finalScriptWitness,
    emitMap PSBT_IN_RIPEMD160 (hashCodec 20) rawCodec i.ripemd160Preimages,
    emitMap PSBT_IN_SHA256 (hashCodec 32) rawCodec i.sha256Preimages,
    emitMap PSBT_IN_HASH160 (hashCodec 20) rawCodec i.hash160Preimages,
    emitMap PSBT_IN_HASH256 (hashCodec 32) rawCodec i.hash256Preimages,
    emitOpt PSBT_IN_TAP_KEY_SIG tapSigCodec i.tapKeySig,
    emitMap PSBT_IN_TAP_SCRIPT_SIG (xonlyLeafCodec L) tapSigCodec i.tapScriptSigs,
    emitMap PSBT_IN_TAP_LEAF_SCRIPT (ctrlCodec L) leafScriptCodec i.tapScripts,
    emitMap PSBT_IN_TAP_BIP32_DERIVATION (xonlyCodec L) tapOriginCodec i.tapKeyOrigins,
    emitOpt PSBT_IN_TAP_INTERNAL_KEY (xonlyCodec L) i.tapInternalKey,
    emitOpt PSBT_IN_TAP_MERKLE_ROOT (hashCodec 32) i.tapMerkleRoot,
    emitProp i.proprietary,
    emitUnknown i.unknown]

end Psbt.V0
