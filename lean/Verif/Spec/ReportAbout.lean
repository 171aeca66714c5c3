/- What the message of an error has to mention. -/
import Verif.Spec.ReportCause
namespace Psbt.Spec

/-- The text `w` is in the message of a failure, with `std` and without. -/
def Mentions (f : Failure) (w : String) : Prop := ∀ std s, f.display std = .ok s → Occurs w s

variable {L : Lib} (T : MoreTexts L)

/-! For each error: the thing that is wrong and the values the error carries, the values with what they are. -/

def aboutFunding : FundingErr → List String
  | .outOfBounds vout len => ["out of bounds", "vout " ++ toString vout, "len: " ++ toString len]
  | .missing => ["funding utxo"]
def aboutFee : FeeErr → List String
  | .fundingUtxo _ => ["funding utxo"]
  | .inputOverflow => ["overflow", "input"]
  | .outputOverflow => ["overflow", "output"]
  | .negative => ["negative fee"]
/-- `InputError` of either finalizer. -/
def aboutMsInput : MsInputErr L → List String
  | .keyErr => ["Key"]
  | .couldNotSatisfyTr => ["not satisfy", "Tr"]
  | .interpreter e => ["Interpreter", T.interp e]
  | .invalidRedeemScript r s => ["does not match", "Redeem script " ++ T.script r, "p2sh script " ++ T.script s]
  | .invalidWitnessScript w s => ["does not match", "Witness script " ++ T.script w, "p2wsh script " ++ T.script s]
  | .miniscript => ["Miniscript"]
  | .missingRedeemScript => ["missing", "Redeem script"]
  | .missingPubkey => ["Missing pubkey"]
  | .missingWitnessScript => ["missing", "witness script"]
  | .missingUtxo => ["missing", "witness and non-witness UTXO"]
  | .nonEmptyWitnessScript => ["non-empty witness script"]
  | .nonEmptyRedeemScript => ["non-empty redeem script"]
  | .nonStandardSighashType => ["Non-standard sighash type"]
  | .wrongSighashFlag required got pk =>
    ["key " ++ T.pubkey pk, "had sighashflag " ++ T.ecdsaTy got, "required " ++ T.ecdsaTy required]
def aboutSer : SerErr → List String
  | .notEnoughData => ["not enough data"]
  | .invalidProprietaryKey => ["non-proprietary", "proprietary key was expected"]
  | .noMorePairs => ["no more key-value pairs"]
  | .nonStandardSighashType n => ["non-standard sighash type: " ++ toString n]
  | .invalidHash => ["invalid hash"]
  | .consensus _ => ["consensus"]
  | .invalidPublicKey => ["invalid public key"]
  | .invalidSecp256k1PublicKey => ["invalid secp256k1 public key"]
  | .invalidXOnlyPublicKey => ["invalid xonly public key"]
  | .invalidEcdsaSignature => ["invalid ECDSA signature"]
  | .invalidTaprootSignature => ["invalid taproot signature"]
  | .invalidControlBlock => ["invalid control block"]
  | .invalidLeafVersion => ["invalid leaf version"]
  | .taproot s => ["taproot", s]
  | .tapTree => ["taproot tree"]
  | .partialDataConsumption => ["not consumed entirely"]
  | .lockTime _ => ["locktime invalid"]
  | .unsupportedVersion _ => ["unsupported version"]
  | .invalidDleqProof got want => ["invalid DLEQ proof", "got " ++ toString got, "expected " ++ toString want]
/-- The error of inserting a pair into a v2 map. -/
def aboutInsert : InsErr → List String
  | .duplicateKey k => ["duplicate key: " ++ k.text]
  | .invalidKeyDataEmpty k => ["should contain data: " ++ k.text]
  | .invalidKeyDataNotEmpty k => ["should not contain data: " ++ k.text]
  | .deser _ => ["deserializing", "value"]
  | .consensus _ => ["consensus deserializing"]
  | .valueWrongLength got want => ["value", "wrong length", toString got, toString want]
  | .keyWrongLength got want => ["key wrong length", "got: " ++ toString got, "expected: " ++ toString want]
  | .wrongVersion v => ["PSBT_GLOBAL_VERSION", "found: " ++ toString v]
  | .xpubInvalidFingerprint => ["PSBT_GLOBAL_XPUB", "fingerprint"]
  | .xpubInvalidPath n => ["PSBT_GLOBAL_XPUB", "derivation path", toString n]
  | .bip32 => ["PSBT_GLOBAL_XPUB", "BIP-32"]
  | .duplicateXpub k => ["PSBT_GLOBAL_XPUB", "unique", T.keySource k]
  | .invalidProprietaryKey => ["PSBT_GLOBAL_PROPRIETARY", "Invalid proprietary key"]
  | .excludedKey _ => ["explicitly excluded"]
  | .hashPreimage _ => ["invalid hash preimage"]
/-- The error of decoding a v2 map. -/
def aboutDecode : DecErr → List String
  | .insertPair _ => ["inserting", "pair"]
  | .deserPair _ => ["pair"]
  | .missingVersion => ["PSBT is missing the version number"]
  | .missingTxVersion => ["missing the transaction version number"]
  | .missingInputCount => ["missing the input count"]
  | .missingOutputCount => ["missing the output count"]
  | .fieldMismatch => ["ECDH shares", "DLEQ proofs", "both"]
  | .missingPreviousTxid => ["must contain a previous txid"]
  | .missingSpentOutputIndex => ["must contain a spent output index"]
  | .missingValue => ["missing a value"]
  | .missingScriptPubkey => ["missing a script pubkey"]
  | .labelWithoutInfo => ["sp_v0_label without a sp_v0_info"]
def aboutGetKey : GetKeyErr → List String
  | .bip32 => ["bip32"]
  | .notSupported => ["not supported"]

namespace V2
open Psbt.V2
def aboutIndex : IndexErr → List String
  | .inputs i n => ["out-of-bounds", "index " ++ toString i, "length " ++ toString n]
  | .count i n => ["index " ++ toString i, "input_count " ++ toString n]
def aboutSign : SignErr → List String
  | .index _ => ["index out of bounds"]
  | .invalidSighashType => ["invalid sighash type"]
  | .missingInputUtxo => ["missing input utxo"]
  | .missingRedeemScript => ["missing redeem script"]
  | .fundingUtxo _ => ["funding utxo"]
  | .missingWitnessScript => ["missing witness script"]
  | .mismatchedAlgoKey => ["algorithm and key type does not match"]
  | .notEcdsa => ["non-ECDSA"]
  | .notWpkh => ["not a P2WPKH"]
  | .segwitV0Sighash => ["segwit v0 sighash"]
  | .p2wpkhSighash _ => ["p2wpkh sighash"]
  | .unknownOutputType => ["unable to determine the output type"]
  | .keyNotFound => ["unable to find key"]
  | .wrongSigningAlgorithm => ["wrong signing algorithm"]
  | .unsupported => ["unsupported"]
def aboutNotModifiable : NotModifiable → List String
  | .outputs => ["outputs not modifiable"]
  | .inputs => ["inputs not modifiable"]
def aboutPartialSigs : PartialSigsErr L → List String
  | .nonStandardInput n => ["non-standard sighash type", "input " ++ toString n, "sighash_type"]
  | .nonStandardPartialSig n => ["non-standard sighash type", "input " ++ toString n, "partial_sigs"]
  | .wrongFlag n required got pk =>
    ["wrong sighash flag", "input " ++ toString n, "got: " ++ T.ecdsaTy got, "required: " ++ T.ecdsaTy required, "pubkey: " ++ T.pubkey pk]
def aboutFinalizer : FinalizerErr L → List String
  | .fundingUtxo _ => ["funding UTXO"]
  | .lockTime _ => ["lock time"]
  | .partialSigs _ => ["sighash type"]
def aboutFinalize : FinalizeErr L → List String
  | .finalizeInput n _ => ["failed to finalize input", "index " ++ toString n]
  | .interpreterCheck _ => ["interpreter"]
def aboutExtract : ExtractErr → List String
  | .notFinalized => ["unfinalized"]
  | .lockTime _ => ["lock time"]
def aboutExtractRate : ExtractRateErr → List String
  | .fee _ => ["fee calculation"]
  | .extractTx _ => ["extract"]
  | .feeTooHigh f m => ["fee " ++ T.feeRate f, "greater than max " ++ T.feeRate m]
def aboutGlobalCombine : GlobalCombErr L → List String
  | .version a b => ["different versions", T.version a, T.version b]
  | .txVersion a b => ["different tx versions", T.txVersion a, T.txVersion b]
  | .inconsistentKeySources _ => ["inconsistent key sources"]
def aboutInputCombine : InputCombErr → List String
  | .previousTxid a b => ["different previous txids", T.txid a, T.txid b]
  | .spentOutputIndex a b => ["different spent output", toString a, toString b]
def aboutOutputCombine : OutputCombErr → List String
  | .amount a b => ["different amounts", T.amount a, T.amount b]
  | .scriptPubkey a b => ["different script_pubkeys", T.scriptHex a, T.scriptHex b]
def aboutCombine : CombErr L → List String
  | .global _ => ["combining", "global"]
  | .input _ => ["combining", "input"]
  | .output _ => ["combining", "output"]
end V2

namespace V0
open Psbt.V0
/-- The variants of `SerErr` that `Error` of v0 has. -/
def inV0 : SerErr → Bool
  | .lockTime _ | .unsupportedVersion _ | .invalidDleqProof _ _ => false
  | _ => true
def aboutSer : SerErr → List String
  | .notEnoughData => ["I/O error"]
  | e => Spec.aboutSer e
def aboutErr : Err → List String
  | .invalidMagic => ["invalid magic"]
  | .missingUtxo => ["UTXO information is not present"]
  | .invalidSeparator => ["invalid separator"]
  | .psbtUtxoOutOfbounds => ["output index is out of bounds"]
  | .invalidKey k => ["invalid key: " ++ k.text]
  | .duplicateKey k => ["duplicate key: " ++ k.text]
  | .unsignedTxHasScriptSigs => ["has script sigs"]
  | .unsignedTxHasScriptWitnesses => ["has script witnesses"]
  | .mustHaveUnsignedTx => ["must have an unsigned transaction"]
  | .unexpectedUnsignedTx e a => ["different unsigned transaction", "expected " ++ T.txidOf e, "actual " ++ T.txidOf a]
  | .invalidPreimageHashPair t => ["does not match " ++ hashName t]
  | .combineInconsistentKeySources x => ["combine conflict: " ++ T.xpubBytes x]
  | .negativeFee => ["negative fee"]
  | .feeOverflow => ["overflow in fee calculation"]
  | .xpubKey => ["xpub key error"]
  | .version => ["version error"]
  | .partialDataConsumption => ["not consumed entirely"]
  | .excludedKey _ => ["explicitly excluded"]
  | .ser e => aboutSer e
  | .consensus _ => ["consensus"]
def aboutIndex : IndexErr → List String
  | .inputs i n => ["index " ++ toString i ++ " is out-of-bounds for PSBT inputs", "length " ++ toString n]
  | .txInput i n => ["index " ++ toString i ++ " is out-of-bounds for PSBT unsigned tx input", "length " ++ toString n]
def aboutSign : SignErr → List String
  | .index _ => ["index out of bounds"]
  | .invalidSighashType => ["invalid sighash type"]
  | .missingInputUtxo => ["missing input utxo"]
  | .missingRedeemScript => ["missing redeem script"]
  | .missingSpendUtxo => ["missing spend utxo"]
  | .missingWitnessScript => ["missing witness script"]
  | .mismatchedAlgoKey => ["algorithm and key type does not match"]
  | .notEcdsa => ["non-ECDSA"]
  | .notWpkh => ["not a P2WPKH"]
  | .segwitV0Sighash => ["segwit v0 sighash"]
  | .p2wpkhSighash _ => ["p2wpkh sighash"]
  | .taproot _ => ["taproot sighash"]
  | .unknownOutputType => ["unable to determine the output type"]
  | .keyNotFound => ["unable to find key"]
  | .wrongSigningAlgorithm => ["wrong signing algorithm"]
  | .unsupported => ["unsupported"]
def aboutExtract : ExtractErr L → List String
  | .absurdFeeRate rate _ => ["absurdly high fee rate of " ++ T.feeRate rate]
  | .missingInputValue _ => ["lacked value information"]
  | .sendingTooMuch _ => ["output value being greater than input value"]
def aboutChecks : ChecksErr → List String
  | .nonWitnessSig => ["non-witness signature"]
  | .nonWitnessUtxoTxidMismatch => ["mismatch between the txid and prevout txid"]
  | .witnessAndNonWitnessUtxo => ["both witness and non-witness utxos"]
  | .redeemScriptMismatch => ["redeem script hash did not match"]
  | .missingTxOut => ["missing witness_utxo"]
  | .witnessScriptMismatchWsh => ["native segwit p2wsh", "did not match"]
  | .witnessScriptMismatchShWsh => ["nested segwit p2wsh", "did not match"]
def aboutFinalize : FinErr L → List String
  | .input _ n => ["at index " ++ toString n]
  | .missingWitness n => ["missing witness", "at index " ++ toString n]
  | .wrongInputCount inTx inMap => ["PSBT had " ++ toString inTx ++ " inputs in transaction", "but " ++ toString inMap, "inputs in map"]
  | .inputIdxOutOfBounds len index => ["out of bounds", "index " ++ toString index, "psbt.inputs.len() " ++ toString len]
def aboutUpdate (what : MapKind) : UpdateErr → List String
  | .indexOutOfBounds index length => ["index " ++ toString index, "len: " ++ toString length, if what = .output then "output" else "input"]
  | .missingInputUtxo => ["Missing input"]
  | .missingTxOut => ["Missing txout"]
  | .derivation e => ["derivation", T.conversion e]
  | .utxoCheck => ["witness_utxo and/or non_witness_utxo were invalid or missing"]
  | .mismatchedScriptPubkey => ["script pubkey", "didn't match the descriptor", if what = .output then "output" else "input"]
def aboutSighash : SighashErr → List String
  | .indexOutOfBounds index length => ["index " ++ toString index, "len: " ++ toString length]
  | .missingInputUtxo => ["Missing input utxo"]
  | .missingSpendUtxos => ["Missing Psbt spend utxos"]
  | .invalidSighashType => ["Invalid Sighash type"]
  | .taproot e => ["sighash taproot: " ++ T.taproot e]
  | .p2wpkh e => ["sighash p2wpkh: " ++ T.p2wpkh e]
  | .inputsIndex => ["tx inputs index"]
  | .missingWitnessScript => ["Missing Witness Script"]
  | .missingRedeemScript => ["Missing Redeem Script"]
end V0

end Psbt.Spec

namespace Psbt.Spec.V0
open Psbt.V0
/-- Which variant of `Error` of v0 an error is. The model has two forms for two of the variants. -/
def variant : Err → Nat
  | .ser e => e.ctorIdx
  | .partialDataConsumption => SerErr.partialDataConsumption.ctorIdx
  | .consensus e => (SerErr.consensus e).ctorIdx
  | e => 19 + e.ctorIdx
end Psbt.Spec.V0
