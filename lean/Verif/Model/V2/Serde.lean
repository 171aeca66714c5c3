/- The derived serde implementations of PSBT v2. Written with a generator from a table of fields. -/
import Verif.Model.Serde
namespace Psbt.V2

/-- The names of the fields of `Global`, src/v2/map/global.rs:41-81. Those of silent payments exist with that feature only. -/
def Global.fieldNames (L : Lib) : List String :=
  ["version", "tx_version", "fallback_lock_time", "tx_modifiable_flags", "input_count", "output_count", "xpubs"] ++
  (if L.sp then ["sp_ecdh_shares", "sp_dleq_proofs"] else []) ++
  ["proprietaries", "unknowns"]

/-- Derived `Serialize` and `Deserialize` of `Global`, src/v2/map/global.rs:41-81. -/
def Global.serde {L : Lib} (S : SerdeLib L) : SCodec (Global L) where
  ser f x := structSer f (
    [("version", S.u32.ser f x.version),
      ("tx_version", S.txVersion.ser f x.txVersion),
      ("fallback_lock_time", (optS S.lockTime).ser f x.fallbackLockTime),
      ("tx_modifiable_flags", u8S.ser f x.txModifiableFlags),
      ("input_count", S.usize.ser f x.inputCount),
      ("output_count", S.usize.ser f x.outputCount),
      ("xpubs", (mapS S.xpub S.keySource).ser f x.xpubs)] ++
    (if L.sp then [("sp_ecdh_shares", (asSeqS S.compressed S.compressed).ser f x.spEcdhShares),
      ("sp_dleq_proofs", (asSeqS S.compressed dleqS).ser f x.spDleqProofs)] else []) ++
    [("proprietaries", (asSeqBytesS propKeyS).ser f x.proprietaries),
      ("unknowns", (asSeqBytesS rawKeyS).ser f x.unknowns)])
  de f v := do
    let fs ← structDe (Global.fieldNames L) v
    let version ← reqField S.u32 f fs "version"
    let txVersion ← reqField S.txVersion f fs "tx_version"
    let fallbackLockTime ← optField S.lockTime f fs "fallback_lock_time"
    let txModifiableFlags ← reqField u8S f fs "tx_modifiable_flags"
    let inputCount ← reqField S.usize f fs "input_count"
    let outputCount ← reqField S.usize f fs "output_count"
    let xpubs ← reqField (mapS S.xpub S.keySource) f fs "xpubs"
    let spEcdhShares ← (if L.sp then reqField (asSeqS S.compressed S.compressed) f fs "sp_ecdh_shares" else some .empty)
    let spDleqProofs ← (if L.sp then reqField (asSeqS S.compressed dleqS) f fs "sp_dleq_proofs" else some .empty)
    let proprietaries ← reqField (asSeqBytesS propKeyS) f fs "proprietaries"
    let unknowns ← reqField (asSeqBytesS rawKeyS) f fs "unknowns"
    some { version, txVersion, fallbackLockTime, txModifiableFlags, inputCount, outputCount, xpubs, spEcdhShares, spDleqProofs, proprietaries, unknowns }

/-- The names of the fields of `Input`, src/v2/map/input.rs:44-140. Those of silent payments exist with that feature only. -/
def Input.fieldNames (L : Lib) : List String :=
  ["previous_txid", "spent_output_index", "sequence", "min_time", "min_height", "non_witness_utxo", "witness_utxo", "partial_sigs", "sighash_type", "redeem_script", "witness_script", "bip32_derivations", "final_script_sig", "final_script_witness", "ripemd160_preimages", "sha256_preimages", "hash160_preimages", "hash256_preimages", "tap_key_sig", "tap_script_sigs", "tap_scripts", "tap_key_origins", "tap_internal_key", "tap_merkle_root"] ++
  (if L.sp then ["sp_ecdh_shares", "sp_dleq_proofs"] else []) ++
  ["proprietaries", "unknowns"]

/-- Derived `Serialize` and `Deserialize` of `Input`, src/v2/map/input.rs:44-140. -/
def Input.serde {L : Lib} (S : SerdeLib L) : SCodec (Input L) where
  ser f x := structSer f (
    [("previous_txid", S.txid.ser f x.previousTxid),
      ("spent_output_index", S.u32.ser f x.spentOutputIndex),
      ("sequence", (optS S.sequence).ser f x.sequence),
      ("min_time", (optS S.time).ser f x.minTime),
      ("min_height", (optS S.height).ser f x.minHeight),
      ("non_witness_utxo", (optS S.tx).ser f x.nonWitnessUtxo),
      ("witness_utxo", (optS S.txOut).ser f x.witnessUtxo),
      ("partial_sigs", (mapS S.pubkey S.ecdsaSig).ser f x.partialSigs),
      ("sighash_type", (optS S.sighashType).ser f x.sighashType),
      ("redeem_script", (optS S.script).ser f x.redeemScript),
      ("witness_script", (optS S.script).ser f x.witnessScript),
      ("bip32_derivations", (asSeqS S.secpPk S.keySource).ser f x.bip32Derivations),
      ("final_script_sig", (optS S.script).ser f x.finalScriptSig),
      ("final_script_witness", (optS S.witness).ser f x.finalScriptWitness),
      ("ripemd160_preimages", (byteValuesS S.ripemd160).ser f x.ripemd160Preimages),
      ("sha256_preimages", (byteValuesS S.sha256).ser f x.sha256Preimages),
      ("hash160_preimages", (byteValuesS S.hash160).ser f x.hash160Preimages),
      ("hash256_preimages", (byteValuesS S.sha256d).ser f x.hash256Preimages),
      ("tap_key_sig", (optS S.tapSig).ser f x.tapKeySig),
      ("tap_script_sigs", (asSeqS (pairS S.xonly S.leafHash) S.tapSig).ser f x.tapScriptSigs),
      ("tap_scripts", (asSeqS S.ctrl (pairS S.script S.leafVersion)).ser f x.tapScripts),
      ("tap_key_origins", (asSeqS S.xonly (pairS (vecS S.leafHash) S.keySource)).ser f x.tapKeyOrigins),
      ("tap_internal_key", (optS S.xonly).ser f x.tapInternalKey),
      ("tap_merkle_root", (optS S.nodeHash).ser f x.tapMerkleRoot)] ++
    (if L.sp then [("sp_ecdh_shares", (asSeqS S.compressed S.compressed).ser f x.spEcdhShares),
      ("sp_dleq_proofs", (asSeqS S.compressed dleqS).ser f x.spDleqProofs)] else []) ++
    [("proprietaries", (asSeqBytesS propKeyS).ser f x.proprietaries),
      ("unknowns", (asSeqBytesS rawKeyS).ser f x.unknowns)])
  de f v := do
    let fs ← structDe (Input.fieldNames L) v
    let previousTxid ← reqField S.txid f fs "previous_txid"
    let spentOutputIndex ← reqField S.u32 f fs "spent_output_index"
    let sequence ← optField S.sequence f fs "sequence"
    let minTime ← optField S.time f fs "min_time"
    let minHeight ← optField S.height f fs "min_height"
    let nonWitnessUtxo ← optField S.tx f fs "non_witness_utxo"
    let witnessUtxo ← optField S.txOut f fs "witness_utxo"
    let partialSigs ← reqField (mapS S.pubkey S.ecdsaSig) f fs "partial_sigs"
    let sighashType ← optField S.sighashType f fs "sighash_type"
    let redeemScript ← optField S.script f fs "redeem_script"
    let witnessScript ← optField S.script f fs "witness_script"
    let bip32Derivations ← reqField (asSeqS S.secpPk S.keySource) f fs "bip32_derivations"
    let finalScriptSig ← optField S.script f fs "final_script_sig"
    let finalScriptWitness ← optField S.witness f fs "final_script_witness"
    let ripemd160Preimages ← reqField (byteValuesS S.ripemd160) f fs "ripemd160_preimages"
    let sha256Preimages ← reqField (byteValuesS S.sha256) f fs "sha256_preimages"
    let hash160Preimages ← reqField (byteValuesS S.hash160) f fs "hash160_preimages"
    let hash256Preimages ← reqField (byteValuesS S.sha256d) f fs "hash256_preimages"
    let tapKeySig ← optField S.tapSig f fs "tap_key_sig"
    let tapScriptSigs ← reqField (asSeqS (pairS S.xonly S.leafHash) S.tapSig) f fs "tap_script_sigs"
    let tapScripts ← reqField (asSeqS S.ctrl (pairS S.script S.leafVersion)) f fs "tap_scripts"
    let tapKeyOrigins ← reqField (asSeqS S.xonly (pairS (vecS S.leafHash) S.keySource)) f fs "tap_key_origins"
    let tapInternalKey ← optField S.xonly f fs "tap_internal_key"
    let tapMerkleRoot ← optField S.nodeHash f fs "tap_merkle_root"
    let spEcdhShares ← (if L.sp then reqField (asSeqS S.compressed S.compressed) f fs "sp_ecdh_shares" else some .empty)
    let spDleqProofs ← (if L.sp then reqField (asSeqS S.compressed dleqS) f fs "sp_dleq_proofs" else some .empty)
    let proprietaries ← reqField (asSeqBytesS propKeyS) f fs "proprietaries"
    let unknowns ← reqField (asSeqBytesS rawKeyS) f fs "unknowns"
    some { previousTxid, spentOutputIndex, sequence, minTime, minHeight, nonWitnessUtxo, witnessUtxo, partialSigs, sighashType, redeemScript, witnessScript, bip32Derivations, finalScriptSig, finalScriptWitness, ripemd160Preimages, sha256Preimages, hash160Preimages, hash256Preimages, tapKeySig, tapScriptSigs, tapScripts, tapKeyOrigins, tapInternalKey, tapMerkleRoot, spEcdhShares, spDleqProofs, proprietaries, unknowns }

/-- The names of the fields of `Output`, src/v2/map/output.rs:28-66. Those of silent payments exist with that feature only. -/
def Output.fieldNames (L : Lib) : List String :=
  ["amount", "script_pubkey", "redeem_script", "witness_script", "bip32_derivations", "tap_internal_key", "tap_tree", "tap_key_origins"] ++
  (if L.sp then ["sp_v0_info", "sp_v0_label"] else []) ++
  ["proprietaries", "unknowns"]

/-- Derived `Serialize` and `Deserialize` of `Output`, src/v2/map/output.rs:28-66. -/
def Output.serde {L : Lib} (S : SerdeLib L) : SCodec (Output L) where
  ser f x := structSer f (
    [("amount", S.amount.ser f x.amount),
      ("script_pubkey", S.script.ser f x.scriptPubkey),
      ("redeem_script", (optS S.script).ser f x.redeemScript),
      ("witness_script", (optS S.script).ser f x.witnessScript),
      ("bip32_derivations", (asSeqS S.secpPk S.keySource).ser f x.bip32Derivations),
      ("tap_internal_key", (optS S.xonly).ser f x.tapInternalKey),
      ("tap_tree", (optS S.tapTree).ser f x.tapTree),
      ("tap_key_origins", (asSeqS S.xonly (pairS (vecS S.leafHash) S.keySource)).ser f x.tapKeyOrigins)] ++
    (if L.sp then [("sp_v0_info", (optS (vecS u8S)).ser f x.spV0Info),
      ("sp_v0_label", (optS S.u32).ser f x.spV0Label)] else []) ++
    [("proprietaries", (asSeqBytesS propKeyS).ser f x.proprietaries),
      ("unknowns", (asSeqBytesS rawKeyS).ser f x.unknowns)])
  de f v := do
    let fs ← structDe (Output.fieldNames L) v
    let amount ← reqField S.amount f fs "amount"
    let scriptPubkey ← reqField S.script f fs "script_pubkey"
    let redeemScript ← optField S.script f fs "redeem_script"
    let witnessScript ← optField S.script f fs "witness_script"
    let bip32Derivations ← reqField (asSeqS S.secpPk S.keySource) f fs "bip32_derivations"
    let tapInternalKey ← optField S.xonly f fs "tap_internal_key"
    let tapTree ← optField S.tapTree f fs "tap_tree"
    let tapKeyOrigins ← reqField (asSeqS S.xonly (pairS (vecS S.leafHash) S.keySource)) f fs "tap_key_origins"
    let spV0Info ← (if L.sp then optField (vecS u8S) f fs "sp_v0_info" else some none)
    let spV0Label ← (if L.sp then optField S.u32 f fs "sp_v0_label" else some none)
    let proprietaries ← reqField (asSeqBytesS propKeyS) f fs "proprietaries"
    let unknowns ← reqField (asSeqBytesS rawKeyS) f fs "unknowns"
    some { amount, scriptPubkey, redeemScript, witnessScript, bip32Derivations, tapInternalKey, tapTree, tapKeyOrigins, spV0Info, spV0Label, proprietaries, unknowns }

/-- The names of the fields of `Psbt`, src/v2/mod.rs:498-506. -/
def Psbt.fieldNames : List String :=
  ["global", "inputs", "outputs"]

/-- Derived `Serialize` and `Deserialize` of `Psbt`, src/v2/mod.rs:498-506. -/
def Psbt.serde {L : Lib} (S : SerdeLib L) : SCodec (Psbt L) where
  ser f x := structSer f (
    [("global", (Global.serde S).ser f x.global),
      ("inputs", (vecS (Input.serde S)).ser f x.inputs),
      ("outputs", (vecS (Output.serde S)).ser f x.outputs)])
  de f v := do
    let fs ← structDe Psbt.fieldNames v
    let global ← reqField (Global.serde S) f fs "global"
    let inputs ← reqField (vecS (Input.serde S)) f fs "inputs"
    let outputs ← reqField (vecS (Output.serde S)) f fs "outputs"
    some { global, inputs, outputs }

/-- Derived for `Creator`, `Updater`, `Signer` (src/v2/mod.rs:94-95, 380-381, 433-434), `Finalizer` (src/v2/miniscript/finalize.rs:28-29)
and `Extractor` (src/v2/extract.rs:25-26), each a struct of one unnamed field: the PSBT. -/
def roleSerde {L : Lib} (S : SerdeLib L) : SCodec (Psbt L) := Psbt.serde S

/-- Derived for `Constructor<T>`, src/v2/mod.rs:257-258: the PSBT and a `PhantomData`, which is a unit. -/
def constructorSerde {L : Lib} (S : SerdeLib L) : SCodec (Psbt L) where
  ser f p := .seq [(Psbt.serde S).ser f p, .null]
  de f v := match v with | .seq [p, .null] => (Psbt.serde S).de f p | _ => none

end Psbt.V2
