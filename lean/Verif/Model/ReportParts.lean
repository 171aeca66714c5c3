/-
How failures are reported, continued: the errors of parsing (which a caller of v2 sees only by taking a `DeserializeError` apart) and
those of PSBT v0. The errors of the module `v0::miniscript` implement the deprecated `Error::cause` instead of `Error::source`, so
that they have no source.
-/
import Verif.Model.Report
import Verif.Model.Serde
import Verif.Model.V0.Checks
import Verif.Model.V0.Update
import Verif.Model.V0.Finalize
namespace Psbt

/-- More errors of other crates. Those that have data the model leaves out are one text. -/
structure MoreTexts (L : Lib) extends Texts L where
  consensus : CErr → String
  hash : String
  publicKey : String
  secpPublicKey : String
  ecdsaSig : String
  tapSig : String
  tapTree : String
  lockTime : UInt32 → String
  io : String
  bip32 : String
  keySource : KeySource → String
  xpubBytes : Bytes → String
  txidOf : Tx → String
  taproot : TaprootErr → String
  conversion : V0.ConvErr → String
  /-- The preimage and the hash of a pair that does not match. -/
  preimage : String
  image : String
  /-- The texts that `Error::XPubKey` and `Error::Version` of v0 are made with. -/
  xpubKey : String
  psbtVersion : String

/-- `Display for Key`, src/raw.rs:47-51, src/v0/bitcoin/raw.rs:68-72. -/
def RawKey.text (k : RawKey) : String :=
  "type: 0x" ++ String.ofList (if k.ty.toNat < 16 then [hexLower k.ty.toNat] else [hexLower (k.ty.toNat / 16), hexLower (k.ty.toNat % 16)])
    ++ ", key: " ++ toHex k.key

variable {L : Lib} (T : MoreTexts L)

/-- `serialize::Error`, src/serialize.rs:437-503. -/
def SerErr.failure : SerErr → Failure
  | .notEnoughData => .plain "not enough data to deserialize object"
  | .invalidProprietaryKey => .plain "non-proprietary key type found when proprietary key was expected"
  | .noMorePairs => .plain "no more key-value pairs for this psbt map"
  | .nonStandardSighashType n => .plain s!"non-standard sighash type: {n}"
  | .invalidHash => .because "invalid hash when parsing slice" (.plain T.hash)
  | .consensus e => .because "bitcoin consensus encoding error" (.plain (T.consensus e))
  | .invalidPublicKey => .dropping "invalid public key" (.plain T.publicKey)
  | .invalidSecp256k1PublicKey => .dropping "invalid secp256k1 public key" (.plain T.secpPublicKey)
  | .invalidXOnlyPublicKey => .plain "invalid xonly public key"
  | .invalidEcdsaSignature => .dropping "invalid ECDSA signature" (.plain T.ecdsaSig)
  | .invalidTaprootSignature => .dropping "invalid taproot signature" (.plain T.tapSig)
  | .invalidControlBlock => .plain "invalid control block"
  | .invalidLeafVersion => .plain "invalid leaf version"
  | .taproot s => .plain s!"taproot error -  {s}"
  | .tapTree => .dropping "taproot tree error" (.plain T.tapTree)
  | .partialDataConsumption => .plain "data not consumed entirely when explicitly deserializing"
  | .lockTime n => .because "parsed locktime invalid" (.plain (T.lockTime n))
  | .unsupportedVersion n => .because "unsupported version" (.plain s!"unsupported version, we only support v0 and v2: {n}")
  | .invalidDleqProof got expected => .plain s!"invalid DLEQ proof: got {got} bytes, expected {expected}"

/-- Which of the maps of a PSBT. -/
inductive MapKind where
  | global | input | output
  deriving DecidableEq

/-- `HashPreimageError`, src/v2/map/input.rs:988-1021. The name of the hash function is `stringify!(self)`, which is `self`. -/
def preimageFailure (_ : HashTy) : Failure := .plain s!"invalid hash preimage self {T.preimage} {T.image}"

/-- The three `InsertPairError`, src/v2/map/global.rs:650-717, src/v2/map/input.rs:932-967, src/v2/map/output.rs:408-438. -/
def InsErr.failure (m : MapKind) : InsErr → Failure
  | .duplicateKey k => .plain s!"duplicate key: {k.text}"
  | .invalidKeyDataEmpty k => .plain s!"key should contain data: {k.text}"
  | .invalidKeyDataNotEmpty k => .plain s!"key should not contain data: {k.text}"
  | .deser e => .because "error deserializing raw value" (e.failure T)
  | .consensus e => .because "error consensus deserializing type" (.plain (T.consensus e))
  | .valueWrongLength got want =>
    if m = .global then .plain s!"value (keyvalue pair) wrong length (got, want) {got} {want}"
    else .plain s!"value wrong length (got: {got}, expected: {want})"
  | .keyWrongLength got want => .plain s!"key wrong length (got: {got}, expected: {want})"
  | .wrongVersion v => .plain s!"PSBT_GLOBAL_VERSION: PSBT v2 expects the version to be 2, found: {v}"
  | .xpubInvalidFingerprint => .plain "PSBT_GLOBAL_XPUB: derivation path must be a list of 32 byte varints"
  | .xpubInvalidPath n => .plain s!"PSBT_GLOBAL_XPUB: derivation path must be a list of 32 byte varints: {n}"
  | .bip32 => .because "PSBT_GLOBAL_XPUB: Failed to decode a BIP-32 type" (.plain T.bip32)
  | .duplicateXpub k => .plain s!"PSBT_GLOBAL_XPUB: xpubs must be unique {T.keySource k}"
  | .invalidProprietaryKey => .plain "PSBT_GLOBAL_PROPRIETARY: Invalid proprietary key"
  | .excludedKey t => .plain (V2.excludedMessage L.sp t)
  | .hashPreimage t => .because "invalid hash preimage" (preimageFailure T t)

/-- The three `DecodeError`, src/v2/map/global.rs:564-607, src/v2/map/input.rs:879-907, src/v2/map/output.rs:362-387. -/
def DecErr.failure (m : MapKind) : DecErr → Failure
  | .insertPair e => .because (if m = .input then "error inserting a key-value pair" else "error inserting a pair") (e.failure T m)
  | .deserPair e => .because (if m = .input then "error decoding pair" else "error deserializing a pair") (e.failure T)
  | .missingVersion => .plain "serialized PSBT is missing the version number"
  | .missingTxVersion => .plain "serialized PSBT is missing the transaction version number"
  | .missingInputCount => .plain "serialized PSBT is missing the input count"
  | .missingOutputCount => .plain "serialized PSBT is missing the output count"
  | .fieldMismatch => .plain "ECDH shares and DLEQ proofs must both be present or both absent"
  | .missingPreviousTxid => .plain "input must contain a previous txid"
  | .missingSpentOutputIndex => .plain "input must contain a spent output index"
  | .missingValue => .plain "encoded output is missing a value"
  | .missingScriptPubkey => .plain "encoded output is missing a script pubkey"
  | .labelWithoutInfo => .plain "output has a sp_v0_label without a sp_v0_info"

/-- `GetKeyError`, src/v2/mod.rs:1123-1146, src/v0/bitcoin/mod.rs:863-885. -/
def GetKeyErr.failure : GetKeyErr → Failure
  | .bip32 => .because "a bip23 error" (.plain T.bip32)
  | .notSupported => .plain "the GetKey operation is not supported for this key request"

namespace V0

/-- The variants of `Error` that the field codecs and `raw` produce, src/v0/bitcoin/error.rs:113-216. The last three are not
variants of this type and do not occur. -/
def serFailure : SerErr → Failure
  | .notEnoughData => .because "I/O error" (.plain T.io)
  | .invalidProprietaryKey => .plain "non-proprietary key type found when proprietary key was expected"
  | .noMorePairs => .plain "no more key-value pairs for this psbt map"
  | .nonStandardSighashType n => .plain s!"non-standard sighash type: {n}"
  | .invalidHash => .because "invalid hash when parsing slice" (.plain T.hash)
  | .consensus e => .because "bitcoin consensus encoding error" (.plain (T.consensus e))
  | .invalidPublicKey => .dropping "invalid public key" (.plain T.publicKey)
  | .invalidSecp256k1PublicKey => .dropping "invalid secp256k1 public key" (.plain T.secpPublicKey)
  | .invalidXOnlyPublicKey => .plain "invalid xonly public key"
  | .invalidEcdsaSignature => .dropping "invalid ECDSA signature" (.plain T.ecdsaSig)
  | .invalidTaprootSignature => .dropping "invalid taproot signature" (.plain T.tapSig)
  | .invalidControlBlock => .plain "invalid control block"
  | .invalidLeafVersion => .plain "invalid leaf version"
  | .taproot s => .plain s!"taproot error -  {s}"
  | .tapTree => .dropping "taproot tree error" (.plain T.tapTree)
  | .partialDataConsumption => .plain "data not consumed entirely when explicitly deserializing"
  | .lockTime _ | .unsupportedVersion _ | .invalidDleqProof _ _ => .plain ""

/-- The debug form of `PsbtHash`, src/v0/bitcoin/error.rs:15-22. -/
def hashName : HashTy → String
  | .ripemd => "Ripemd"
  | .sha256 => "Sha256"
  | .hash160 => "Hash160"
  | .hash256 => "Hash256"

/-- `Error`, src/v0/bitcoin/error.rs:113-216. -/
def Err.failure : Err → Failure
  | .invalidMagic => .plain "invalid magic"
  | .missingUtxo => .plain "UTXO information is not present in PSBT"
  | .invalidSeparator => .plain "invalid separator"
  | .psbtUtxoOutOfbounds => .plain "output index is out of bounds of non witness script output array"
  | .invalidKey k => .plain s!"invalid key: {k.text}"
  | .duplicateKey k => .plain s!"duplicate key: {k.text}"
  | .unsignedTxHasScriptSigs => .plain "the unsigned transaction has script sigs"
  | .unsignedTxHasScriptWitnesses => .plain "the unsigned transaction has script witnesses"
  | .mustHaveUnsignedTx => .plain "partially signed transactions must have an unsigned transaction"
  | .unexpectedUnsignedTx e a => .plain s!"different unsigned transaction: expected {T.txidOf e}, actual {T.txidOf a}"
  | .invalidPreimageHashPair t => .plain ("Preimage " ++ T.preimage ++ " does not match " ++ hashName t ++ " hash " ++ T.image)
  | .combineInconsistentKeySources x => .plain s!"combine conflict: {T.xpubBytes x}"
  | .negativeFee => .plain "PSBT has a negative fee which is not allowed"
  | .feeOverflow => .plain "integer overflow in fee calculation"
  | .xpubKey => .plain s!"xpub key error -  {T.xpubKey}"
  | .version => .plain s!"version error {T.psbtVersion}"
  | .partialDataConsumption => .plain "data not consumed entirely when explicitly deserializing"
  | .excludedKey t => .plain (excludedMessage L.sp t)
  | .ser e => serFailure T e
  | .consensus e => .because "bitcoin consensus encoding error" (.plain (T.consensus e))

/-- `PsbtParseError`, src/v0/bitcoin/mod.rs:1179-1200. -/
def parseFailure : TextErr Err → Failure
  | .psbtEncoding e => .because "error in internal PSBT data structure" (e.failure T)
  | .base64Encoding => .because "error in PSBT base64 encoding" (.plain T.base64)

/-- `IndexOutOfBoundsError`, src/v0/bitcoin/mod.rs:1124-1152. -/
def IndexErr.failure : IndexErr → Failure
  | .inputs index length => .plain s!"index {index} is out-of-bounds for PSBT inputs vector length {length}"
  | .txInput index length => .plain s!"index {index} is out-of-bounds for PSBT unsigned tx input vector length {length}"

/-- `SignError`, src/v0/bitcoin/mod.rs:978-1028. -/
def SignErr.failure : SignErr → Failure
  | .index e => .because "index out of bounds" e.failure
  | .invalidSighashType => .plain "invalid sighash type"
  | .missingInputUtxo => .plain "missing input utxo in PBST"
  | .missingRedeemScript => .plain "missing redeem script"
  | .missingSpendUtxo => .plain "missing spend utxo in PSBT"
  | .missingWitnessScript => .plain "missing witness script"
  | .mismatchedAlgoKey => .plain "signing algorithm and key type does not match"
  | .notEcdsa => .plain "attempted to ECDSA sign an non-ECDSA input"
  | .notWpkh => .plain "the scriptPubkey is not a P2WPKH script"
  | .segwitV0Sighash => .because "segwit v0 sighash" (.plain T.segwitV0Sighash)
  | .p2wpkhSighash e => .because "p2wpkh sighash" (.plain (T.p2wpkh e))
  | .taproot e => .because "taproot sighash" (.plain (T.taproot e))
  | .unknownOutputType => .plain "unable to determine the output type"
  | .keyNotFound => .plain "unable to find key"
  | .wrongSigningAlgorithm => .plain "attempt to sign an input with the wrong signing algorithm"
  | .unsupported => .plain "signing request currently unsupported"

/-- `ExtractTxError`, src/v0/bitcoin/mod.rs:1070-1098. -/
def ExtractErr.failure : ExtractErr L → Failure
  | .absurdFeeRate rate _ => .plain s!"An absurdly high fee rate of {T.feeRate rate}"
  | .missingInputValue _ => .plain "One of the inputs lacked value information (witness_utxo or non_witness_utxo)"
  | .sendingTooMuch _ => .plain "Transaction would be invalid due to output value being greater than input value."

/-- `SignerChecksError`, src/v0/mod.rs:141-165. -/
def ChecksErr.failure : ChecksErr → Failure
  | .nonWitnessSig => .plain "witness input will produce a non-witness signature"
  | .nonWitnessUtxoTxidMismatch => .plain "non-witness input has a mismatch between the txid and prevout txid"
  | .witnessAndNonWitnessUtxo => .plain "input has both witness and non-witness utxos"
  | .redeemScriptMismatch => .plain "redeem script hash did not match the hash in the script_pubkey"
  | .missingTxOut => .plain "missing witness_utxo"
  | .witnessScriptMismatchWsh => .plain "native segwit p2wsh script_pubkey did not match witness script hash"
  | .witnessScriptMismatchShWsh => .plain "nested segwit p2wsh script_pubkey did not match redeem script hash"

/-- `InputError`, src/v0/miniscript/mod.rs:150-224. -/
def msFailure : MsInputErr L → Failure
  | .keyErr => .quoting "Key Err: " (.plain T.keyErr)
  | .couldNotSatisfyTr => .plain "Could not satisfy Tr descriptor"
  | .interpreter e => .quoting "Interpreter: " (.plain (T.interp e))
  | .invalidRedeemScript r s => .plain s!"Redeem script {T.script r} does not match the p2sh script {T.script s}"
  | .invalidWitnessScript w s => .plain s!"Witness script {T.script w} does not match the p2wsh script {T.script s}"
  | .miniscript => .quoting "Miniscript Error: " (.plain T.miniscript)
  | .missingRedeemScript => .plain "PSBT is Redeem script"
  | .missingPubkey => .plain "Missing pubkey for a pkh/wpkh"
  | .missingWitnessScript => .plain "PSBT is missing witness script"
  | .missingUtxo => .plain "PSBT is missing both witness and non-witness UTXO"
  | .nonEmptyWitnessScript => .plain "PSBT has non-empty witness script at for legacy input"
  | .nonEmptyRedeemScript => .plain "PSBT has non-empty redeem script at for legacy transactions"
  | .nonStandardSighashType => .quoting "Non-standard sighash type " (.plain T.nonStandard)
  | .wrongSighashFlag required got pk => .plain
      s!"PSBT: signature with key {T.pubkey pk} had sighashflag {T.ecdsaTy got} rather than required {T.ecdsaTy required}"

/-- `Error`, src/v0/miniscript/mod.rs:58-85. -/
def FinErr.failure : FinErr L → Failure
  | .input e n => .quotingFirst (msFailure T e) s!" at index {n}"
  | .missingWitness n => .quotingFirst (.plain "PSBT is missing witness") s!" at index {n}"
  | .wrongInputCount inTx inMap => .plain s!"PSBT had {inTx} inputs in transaction but {inMap} inputs in map"
  | .inputIdxOutOfBounds psbtInp index => .plain s!"psbt input index {index} out of bounds: psbt.inputs.len() {psbtInp}"

/-- `UtxoUpdateError` and `OutputUpdateError`, src/v0/miniscript/mod.rs:1232-1306; `what` is `input` or `output`. -/
def UpdateErr.failure (what : MapKind) : UpdateErr → Failure
  | .indexOutOfBounds index length =>
    .plain s!"index {index}, psbt {if what = .output then "output" else "input"} len: {length}"
  | .missingInputUtxo => .plain "Missing input in unsigned transaction"
  | .missingTxOut => .plain "Missing txout in the unsigned transaction"
  | .derivation e => .quoting "Key derivation error " (.plain (T.conversion e))
  | .utxoCheck => .plain "The input's witness_utxo and/or non_witness_utxo were invalid or missing"
  | .mismatchedScriptPubkey =>
    if what = .output then .plain "The output's script pubkey didn't match the descriptor"
    else .plain "The input's witness_utxo and/or non_witness_utxo had a script pubkey that didn't match the descriptor"

/-- `SighashError`, src/v0/miniscript/mod.rs:1330-1366. -/
def SighashErr.failure : SighashErr → Failure
  | .indexOutOfBounds index length => .plain s!"index {index}, psbt input len: {length}"
  | .missingInputUtxo => .plain "Missing input utxo in pbst"
  | .missingSpendUtxos => .plain "Missing Psbt spend utxos"
  | .invalidSighashType => .plain "Invalid Sighash type"
  | .taproot e => .quoting "sighash taproot: " (.plain (T.taproot e))
  | .p2wpkh e => .quoting "sighash p2wpkh: " (.plain (T.p2wpkh e))
  | .inputsIndex => .quoting "tx inputs index: " (.plain T.segwitV0Sighash)
  | .missingWitnessScript => .plain "Missing Witness Script"
  | .missingRedeemScript => .plain "Missing Redeem Script"

end V0
end Psbt
