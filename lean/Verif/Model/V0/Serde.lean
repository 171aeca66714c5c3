/- The derived serde implementations of PSBT v0. Written with a generator from a table of fields. -/
import Verif.Model.Serde
namespace Psbt.V0

/-- The names of the fields of `Input`, src/v0/bitcoin/map/input.rs:76-139. -/
def Input.fieldNames : List String :=
  ["non_witness_utxo", "witness_utxo", "partial_sigs", "sighash_type", "redeem_script", "witness_script", "bip32_derivation", "final_script_sig", "final_script_witness", "ripemd160_preimages", "sha256_preimages", "hash160_preimages", "hash256_preimages", "tap_key_sig", "tap_script_sigs", "tap_scripts", "tap_key_origins", "tap_internal_key", "tap_merkle_root", "proprietary", "unknown"]

/-- Derived `Serialize` and `Deserialize` of `Input`, src/v0/bitcoin/map/input.rs:76-139. -/
def Input.serde {L : Lib} (S : SerdeLib L) : SCodec (Input L) where
  ser f x := structSer f (
    [("non_witness_utxo", (optS S.tx).ser f x.nonWitnessUtxo),
      ("witness_utxo", (optS S.txOut).ser f x.witnessUtxo),
      ("partial_sigs", (mapS S.pubkey S.ecdsaSig).ser f x.partialSigs),
      ("sighash_type", (optS S.sighashType).ser f x.sighashType),
      ("redeem_script", (optS S.script).ser f x.redeemScript),
      ("witness_script", (optS S.script).ser f x.witnessScript),
      ("bip32_derivation", (asSeqS S.secpPk S.keySource).ser f x.bip32Derivation),
      ("final_script_sig", (optS S.script).ser f x.finalScriptSig),
      ("final_script_witness", (optS S.witness).ser f x.finalScriptWitness),
      ("ripemd160_preimages", (byteValuesS S.ripemd160).ser f x.ripemd160Preimages),
      ("sha256_preimages", (byteValuesS S.sha256).ser f x.sha256Preimages),
      ("hash160_preimages", (byteValuesS S.hash160).ser f x.hash160Preimages),
      ("hash256_preimages", (byteValuesS S.sha256d).ser f x.hash256Preimages),
      ("tap_key_sig", (optS S.tapSig).ser f x.tapKeySig),
      ("tap_script_sigs", (asSeqS (pairS S.xonly S.leafHash) S.tapSig).ser f x.tapScriptSigs),
      ("tap_scripts", (asSeqS S.ctrl (pairS S.script S.leafVersion)).ser f x.tapScripts),
      ("tap_key_origins", (asSeqS S.xonly (pairS (vecS S.leafHash) S.keySource)).ser f x.tapKeyOrigins),
      ("tap_internal_key", (optS S.xonly).ser f x.tapInternalKey),
      ("tap_merkle_root", (optS S.nodeHash).ser f x.tapMerkleRoot),
      ("proprietary", (asSeqBytesS propKeyS).ser f x.proprietary),
      ("unknown", (asSeqBytesS rawKeyS).ser f x.unknown)])
  de f v := do
    let fs ← structDe Input.fieldNames v
    let nonWitnessUtxo ← optField S.tx f fs "non_witness_utxo"
    let witnessUtxo ← optField S.txOut f fs "witness_utxo"
    let partialSigs ← reqField (mapS S.pubkey S.ecdsaSig) f fs "partial_sigs"
    let sighashType ← optField S.sighashType f fs "sighash_type"
    let redeemScript ← optField S.script f fs "redeem_script"
    let witnessScript ← optField S.script f fs "witness_script"
    let bip32Derivation ← reqField (asSeqS S.secpPk S.keySource) f fs "bip32_derivation"
    let finalScriptSig ← optField S.script f fs "final_script_sig"
    let finalScriptWitness ← optField S.witness f fs "final_script_witness"
    let ripemd160Preimages ← reqField (byteValuesS S.ripemd160) f fs "ripemd160_preimages"
    let sha256Preimages ← reqField (byteValuesS S.sha256) f fs "sha256_preimages"
    let hash160Preimages ← reqField (byteValuesS S.hash160) f fs "hash160_preimages"
    let hash256Preimages ← reqField (byteValuesS S.sha256d) f fs "hash256_preimages"
    let tapKeySig ← optField S.tapSig f fs "tap_key_sig"
    let tapScriptSigs ← reqField (asSeqS (pairS S.xonly S.leafHash) S.tapSig) f fs "tap_script_sigs"
    let tapScripts ← reqField (asSeqS S.ctrl (pairS S.script S.leafVersion)) f fs "tap_scripts"
    let tapKeyOrigins ← reqField (asSeqS S.xonly (pairS (vecS S.leafHash) S.keySource)) f fs "tap_key_origins"
    let tapInternalKey ← optField S.xonly f fs "tap_internal_key"
    let tapMerkleRoot ← optField S.nodeHash f fs "tap_merkle_root"
    let proprietary ← reqField (asSeqBytesS propKeyS) f fs "proprietary"
    let unknown ← reqField (asSeqBytesS rawKeyS) f fs "unknown"
    some { nonWitnessUtxo, witnessUtxo, partialSigs, sighashType, redeemScript, witnessScript, bip32Derivation, finalScriptSig, finalScriptWitness, ripemd160Preimages, sha256Preimages, hash160Preimages, hash256Preimages, tapKeySig, tapScriptSigs, tapScripts, tapKeyOrigins, tapInternalKey, tapMerkleRoot, proprietary, unknown }

/-- The names of the fields of `Output`, src/v0/bitcoin/map/output.rs:36-59. -/
def Output.fieldNames : List String :=
  ["redeem_script", "witness_script", "bip32_derivation", "tap_internal_key", "tap_tree", "tap_key_origins", "proprietary", "unknown"]

/-- Derived `Serialize` and `Deserialize` of `Output`, src/v0/bitcoin/map/output.rs:36-59. -/
def Output.serde {L : Lib} (S : SerdeLib L) : SCodec (Output L) where
  ser f x := structSer f (
    [("redeem_script", (optS S.script).ser f x.redeemScript),
      ("witness_script", (optS S.script).ser f x.witnessScript),
      ("bip32_derivation", (asSeqS S.secpPk S.keySource).ser f x.bip32Derivation),
      ("tap_internal_key", (optS S.xonly).ser f x.tapInternalKey),
      ("tap_tree", (optS S.tapTree).ser f x.tapTree),
      ("tap_key_origins", (asSeqS S.xonly (pairS (vecS S.leafHash) S.keySource)).ser f x.tapKeyOrigins),
      ("proprietary", (asSeqBytesS propKeyS).ser f x.proprietary),
      ("unknown", (asSeqBytesS rawKeyS).ser f x.unknown)])
  de f v := do
    let fs ← structDe Output.fieldNames v
    let redeemScript ← optField S.script f fs "redeem_script"
    let witnessScript ← optField S.script f fs "witness_script"
    let bip32Derivation ← reqField (asSeqS S.secpPk S.keySource) f fs "bip32_derivation"
    let tapInternalKey ← optField S.xonly f fs "tap_internal_key"
    let tapTree ← optField S.tapTree f fs "tap_tree"
    let tapKeyOrigins ← reqField (asSeqS S.xonly (pairS (vecS S.leafHash) S.keySource)) f fs "tap_key_origins"
    let proprietary ← reqField (asSeqBytesS propKeyS) f fs "proprietary"
    let unknown ← reqField (asSeqBytesS rawKeyS) f fs "unknown"
    some { redeemScript, witnessScript, bip32Derivation, tapInternalKey, tapTree, tapKeyOrigins, proprietary, unknown }

/-- The names of the fields of `Psbt`, src/v0/bitcoin/mod.rs:42-62. -/
def Psbt.fieldNames : List String :=
  ["unsigned_tx", "version", "xpub", "proprietary", "unknown", "inputs", "outputs"]

/-- Derived `Serialize` and `Deserialize` of `Psbt`, src/v0/bitcoin/mod.rs:42-62. -/
def Psbt.serde {L : Lib} (S : SerdeLib L) : SCodec (Psbt L) where
  ser f x := structSer f (
    [("unsigned_tx", S.tx.ser f x.unsignedTx),
      ("version", S.u32.ser f x.version),
      ("xpub", (mapS S.xpub S.keySource).ser f x.xpub),
      ("proprietary", (asSeqBytesS propKeyS).ser f x.proprietary),
      ("unknown", (asSeqBytesS rawKeyS).ser f x.unknown),
      ("inputs", (vecS (Input.serde S)).ser f x.inputs),
      ("outputs", (vecS (Output.serde S)).ser f x.outputs)])
  de f v := do
    let fs ← structDe Psbt.fieldNames v
    let unsignedTx ← reqField S.tx f fs "unsigned_tx"
    let version ← reqField S.u32 f fs "version"
    let xpub ← reqField (mapS S.xpub S.keySource) f fs "xpub"
    let proprietary ← reqField (asSeqBytesS propKeyS) f fs "proprietary"
    let unknown ← reqField (asSeqBytesS rawKeyS) f fs "unknown"
    let inputs ← reqField (vecS (Input.serde S)) f fs "inputs"
    let outputs ← reqField (vecS (Output.serde S)) f fs "outputs"
    some { unsignedTx, version, xpub, proprietary, unknown, inputs, outputs }

end Psbt.V0
