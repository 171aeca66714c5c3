/-
How failures are reported: `Display` and `Error::source` of the error types of PSBT v2. Those of the parts of a PSBT that fails to
parse, and those of v0, are in Model/ReportParts.lean.
-/
import Verif.Model.V2.Extract
import Verif.Model.V2.Combine
import Verif.Model.V2.Finalize
import Verif.Model.Text
namespace Psbt

/-- `psbt_global_key_type_value_to_str`, src/consts.rs:120-138. `sp` is the feature `silent-payments`. -/
def globalKeyName (sp : Bool) (v : UInt8) : String :=
  if v = PSBT_GLOBAL_UNSIGNED_TX then "PSBT_GLOBAL_UNSIGNED_TX"
  else if v = PSBT_GLOBAL_XPUB then "PSBT_GLOBAL_XPUB"
  else if v = PSBT_GLOBAL_TX_VERSION then "PSBT_GLOBAL_TX_VERSION"
  else if v = PSBT_GLOBAL_FALLBACK_LOCKTIME then "PSBT_GLOBAL_FALLBACK_LOCKTIME"
  else if v = PSBT_GLOBAL_INPUT_COUNT then "PSBT_GLOBAL_INPUT_COUNT"
  else if v = PSBT_GLOBAL_OUTPUT_COUNT then "PSBT_GLOBAL_OUTPUT_COUNT"
  else if v = PSBT_GLOBAL_TX_MODIFIABLE then "PSBT_GLOBAL_TX_MODIFIABLE"
  else if sp = true ∧ v = PSBT_GLOBAL_SP_ECDH_SHARE then "PSBT_GLOBAL_SP_ECDH_SHARE"
  else if sp = true ∧ v = PSBT_GLOBAL_SP_DLEQ then "PSBT_GLOBAL_SP_DLEQ"
  else if v = PSBT_GLOBAL_VERSION then "PSBT_GLOBAL_VERSION"
  else if v = PSBT_GLOBAL_PROPRIETARY then "PSBT_GLOBAL_PROPRIETARY"
  else "unknown PSBT_GLOBAL_ key type value"
/-- `psbt_in_key_type_value_to_str`, src/consts.rs:140-175. `sp` is the feature `silent-payments`. -/
def inputKeyName (sp : Bool) (v : UInt8) : String :=
  if v = PSBT_IN_NON_WITNESS_UTXO then "PSBT_IN_NON_WITNESS_UTXO"
  else if v = PSBT_IN_WITNESS_UTXO then "PSBT_IN_WITNESS_UTXO"
  else if v = PSBT_IN_PARTIAL_SIG then "PSBT_IN_PARTIAL_SIG"
  else if v = PSBT_IN_SIGHASH_TYPE then "PSBT_IN_SIGHASH_TYPE"
  else if v = PSBT_IN_REDEEM_SCRIPT then "PSBT_IN_REDEEM_SCRIPT"
  else if v = PSBT_IN_WITNESS_SCRIPT then "PSBT_IN_WITNESS_SCRIPT"
  else if v = PSBT_IN_BIP32_DERIVATION then "PSBT_IN_BIP32_DERIVATION"
  else if v = PSBT_IN_FINAL_SCRIPTSIG then "PSBT_IN_FINAL_SCRIPTSIG"
  else if v = PSBT_IN_FINAL_SCRIPTWITNESS then "PSBT_IN_FINAL_SCRIPTWITNESS"
  else if v = PSBT_IN_POR_COMMITMENT then "PSBT_IN_POR_COMMITMENT"
  else if v = PSBT_IN_RIPEMD160 then "PSBT_IN_RIPEMD160"
  else if v = PSBT_IN_SHA256 then "PSBT_IN_SHA256"
  else if v = PSBT_IN_HASH160 then "PSBT_IN_HASH160"
  else if v = PSBT_IN_HASH256 then "PSBT_IN_HASH256"
  else if v = PSBT_IN_PREVIOUS_TXID then "PSBT_IN_PREVIOUS_TXID"
  else if v = PSBT_IN_OUTPUT_INDEX then "PSBT_IN_OUTPUT_INDEX"
  else if v = PSBT_IN_SEQUENCE then "PSBT_IN_SEQUENCE"
  else if v = PSBT_IN_REQUIRED_TIME_LOCKTIME then "PSBT_IN_REQUIRED_TIME_LOCKTIME"
  else if v = PSBT_IN_REQUIRED_HEIGHT_LOCKTIME then "PSBT_IN_REQUIRED_HEIGHT_LOCKTIME"
  else if v = PSBT_IN_TAP_KEY_SIG then "PSBT_IN_TAP_KEY_SIG"
  else if v = PSBT_IN_TAP_SCRIPT_SIG then "PSBT_IN_TAP_SCRIPT_SIG"
  else if v = PSBT_IN_TAP_LEAF_SCRIPT then "PSBT_IN_TAP_LEAF_SCRIPT"
  else if v = PSBT_IN_TAP_BIP32_DERIVATION then "PSBT_IN_TAP_BIP32_DERIVATION"
  else if v = PSBT_IN_TAP_INTERNAL_KEY then "PSBT_IN_TAP_INTERNAL_KEY"
  else if v = PSBT_IN_TAP_MERKLE_ROOT then "PSBT_IN_TAP_MERKLE_ROOT"
  else if sp = true ∧ v = PSBT_IN_SP_ECDH_SHARE then "PSBT_IN_SP_ECDH_SHARE"
  else if sp = true ∧ v = PSBT_IN_SP_DLEQ then "PSBT_IN_SP_DLEQ"
  else if v = PSBT_IN_PROPRIETARY then "PSBT_IN_PROPRIETARY"
  else "unknown PSBT_IN_ key type value"
/-- `psbt_out_key_type_value_to_str`, src/consts.rs:177-195. `sp` is the feature `silent-payments`. -/
def outputKeyName (sp : Bool) (v : UInt8) : String :=
  if v = PSBT_OUT_REDEEM_SCRIPT then "PSBT_OUT_REDEEM_SCRIPT"
  else if v = PSBT_OUT_WITNESS_SCRIPT then "PSBT_OUT_WITNESS_SCRIPT"
  else if v = PSBT_OUT_BIP32_DERIVATION then "PSBT_OUT_BIP32_DERIVATION"
  else if v = PSBT_OUT_AMOUNT then "PSBT_OUT_AMOUNT"
  else if v = PSBT_OUT_SCRIPT then "PSBT_OUT_SCRIPT"
  else if v = PSBT_OUT_TAP_INTERNAL_KEY then "PSBT_OUT_TAP_INTERNAL_KEY"
  else if v = PSBT_OUT_TAP_TREE then "PSBT_OUT_TAP_TREE"
  else if v = PSBT_OUT_TAP_BIP32_DERIVATION then "PSBT_OUT_TAP_BIP32_DERIVATION"
  else if sp = true ∧ v = PSBT_OUT_SP_V0_INFO then "PSBT_OUT_SP_V0_INFO"
  else if sp = true ∧ v = PSBT_OUT_SP_V0_LABEL then "PSBT_OUT_SP_V0_LABEL"
  else if v = PSBT_OUT_PROPRIETARY then "PSBT_OUT_PROPRIETARY"
  else "unknown PSBT_OUT_ key type value"

/-- An error value as `Display` and `Error::source` show it. -/
inductive Failure where
  /-- `write!(f, msg)`, no source. -/
  | plain (msg : String)
  /-- `write_err!(f, msg; e)`, source `e`. -/
  | because (msg : String) (e : Failure)
  /-- `write!(f, "msg{}", e)`, source `e`. -/
  | inside (msg : String) (e : Failure)
  /-- `write!(f, "msg{}", e)`, no source. -/
  | quoting (msg : String) (e : Failure)
  /-- `write!(f, "{}msg", e)`, no source. -/
  | quotingFirst (e : Failure) (msg : String)
  /-- `write_err!(f, msg; e)`, no source. -/
  | dropping (msg : String) (e : Failure)
  /-- `todo!()` for both. -/
  | todo

/-- `Display`. `std` is the feature of this name; `write_err!`, src/error.rs:109-123, appends the cause without it. -/
def Failure.display (std : Bool) : Failure → Out Empty String
  | .plain m => .ok m
  | .because m e | .dropping m e => if std then .ok m else do let s ← e.display std; .ok (m ++ ": " ++ s)
  | .inside m e | .quoting m e => do let s ← e.display std; .ok (m ++ s)
  | .quotingFirst e m => do let s ← e.display std; .ok (s ++ m)
  | .todo => .error (.panic "not yet implemented")

/-- `std::error::Error::source`. -/
def Failure.source : Failure → Out Empty (Option Failure)
  | .plain _ | .quoting _ _ | .quotingFirst _ _ | .dropping _ _ => .ok none
  | .because _ e | .inside _ e => .ok (some e)
  | .todo => .error (.panic "not yet implemented")

/-- The errors of other crates, which are one value each in this model or none, and how values of other crates are shown. -/
structure Texts (L : Lib) where
  base64 : String
  segwitV0Sighash : String
  p2wpkh : P2wpkhErr → String
  interp : InterpErr → String
  keyErr : String
  miniscript : String
  nonStandard : String
  xpub : L.xpub.T → String
  pubkey : L.pubkey.T → String
  ecdsaTy : EcdsaTy → String
  script : Bytes → String
  scriptHex : Bytes → String
  version : V2.Version → String
  txVersion : UInt32 → String
  txid : Hash32 → String
  amount : UInt64 → String
  feeRate : Nat → String

/-- src/error.rs:78-101. -/
def FundingErr.failure : FundingErr → Failure
  | .outOfBounds vout len => .plain s!"vout {vout} out of bounds for tx list len: {len}"
  | .missing => .plain "no funding utxo found"
/-- src/error.rs:37-60. -/
def FeeErr.failure : FeeErr → Failure
  | .fundingUtxo e => .because "funding utxo error for input" e.failure
  | .inputOverflow => .plain "integer overflow in fee calculation adding input"
  | .outputOverflow => .plain "integer overflow in fee calculation adding output"
  | .negative => .plain "PSBT has a negative fee which is not allowed"

/-- src/v2/miniscript/finalize.rs:570-645. -/
def MsInputErr.failure {L : Lib} (T : Texts L) : MsInputErr L → Failure
  | .keyErr => .inside "Key Err: " (.plain T.keyErr)
  | .couldNotSatisfyTr => .plain "Could not satisfy Tr descriptor"
  | .interpreter e => .inside "Interpreter: " (.plain (T.interp e))
  | .invalidRedeemScript r s => .plain s!"Redeem script {T.script r} does not match the p2sh script {T.script s}"
  | .invalidWitnessScript w s => .plain s!"Witness script {T.script w} does not match the p2wsh script {T.script s}"
  | .miniscript => .inside "Miniscript Error: " (.plain T.miniscript)
  | .missingRedeemScript => .plain "PSBT is Redeem script"
  | .missingPubkey => .plain "Missing pubkey for a pkh/wpkh"
  | .missingWitnessScript => .plain "PSBT is missing witness script"
  | .missingUtxo => .plain "PSBT is missing both witness and non-witness UTXO"
  | .nonEmptyWitnessScript => .plain "PSBT has non-empty witness script at for legacy input"
  | .nonEmptyRedeemScript => .plain "PSBT has non-empty redeem script at for legacy transactions"
  | .nonStandardSighashType => .quoting "Non-standard sighash type " (.plain T.nonStandard)
  | .wrongSighashFlag required got pk => .plain
      s!"PSBT: signature with key {T.pubkey pk} had sighashflag {T.ecdsaTy got} rather than required {T.ecdsaTy required}"

namespace V2
variable {L : Lib} (T : Texts L)

/-- `DeserializeError`, src/v2/error.rs:36-43. -/
def DeserErr.failure (_ : DeserErr) : Failure := .todo
/-- `ParsePsbtError`, src/v2/mod.rs:1292-1314. -/
def parseFailure : TextErr DeserErr → Failure
  | .psbtEncoding e => .because "error in internal PSBT data structure" e.failure
  | .base64Encoding => .because "error in PSBT base64 encoding" (.plain T.base64)
/-- src/v2/error.rs:77-104. -/
def IndexErr.failure : IndexErr → Failure
  | .inputs index length => .plain s!"index {index} is out-of-bounds for PSBT inputs vector length {length}"
  | .count n c => .plain s!"index {n} is greater global.input_count {c}"
/-- src/v2/error.rs:142-192. -/
def SignErr.failure : SignErr → Failure
  | .index e => .because "index out of bounds" e.failure
  | .invalidSighashType => .plain "invalid sighash type"
  | .missingInputUtxo => .plain "missing input utxo in PBST"
  | .missingRedeemScript => .plain "missing redeem script"
  | .fundingUtxo e => .because "input funding utxo error" e.failure
  | .missingWitnessScript => .plain "missing witness script"
  | .mismatchedAlgoKey => .plain "signing algorithm and key type does not match"
  | .notEcdsa => .plain "attempted to ECDSA sign an non-ECDSA input"
  | .notWpkh => .plain "the scriptPubkey is not a P2WPKH script"
  | .segwitV0Sighash => .because "segwit v0 sighash" (.plain T.segwitV0Sighash)
  | .p2wpkhSighash e => .because "p2wpkh sighash" (.plain (T.p2wpkh e))
  | .unknownOutputType => .plain "unable to determine the output type"
  | .keyNotFound => .plain "unable to find key"
  | .wrongSigningAlgorithm => .plain "attempt to sign an input with the wrong signing algorithm"
  | .unsupported => .plain "signing request currently unsupported"
/-- src/v2/error.rs:220-283. -/
def NotModifiable.failure : NotModifiable → Failure
  | .outputs => .because "outputs not modifiable" (.plain "PSBT does not have the outputs modifiable flag set")
  | .inputs => .because "inputs not modifiable" (.plain "PSBT does not have the inputs modifiable flag set")
/-- src/v2/error.rs:312-323. -/
def LockTimeErr.failure : LockTimeErr → Failure
  | .conflict => .plain "unable to determine lock time, multiple inputs have conflicting locking requirements"
/-- src/v2/error.rs:356-386. -/
def PartialSigsErr.failure : PartialSigsErr L → Failure
  | .nonStandardInput n => .because s!"non-standard sighash type for input {n} in sighash_type field" (.plain T.nonStandard)
  | .nonStandardPartialSig n => .because s!"non-standard sighash type for input {n} in partial_sigs" (.plain T.nonStandard)
  | .wrongFlag n required got pk => .plain
      s!"wrong sighash flag for input {n} (got: {T.ecdsaTy got}, required: {T.ecdsaTy required}) pubkey: {T.pubkey pk}"
/-- src/v2/miniscript/finalize.rs:386-411. -/
def FinalizerErr.failure : FinalizerErr L → Failure
  | .fundingUtxo e => .because "Finalizer missing funding UTXO" e.failure
  | .lockTime e => .because "finalizer must be able to determine the lock time" e.failure
  | .partialSigs e => .because "Finalizer sighash type error" (e.failure T)
/-- src/v2/map/input.rs:1033-1047. -/
def InputFinalizeErr.failure : InputFinalizeErr → Failure
  | .emptyWitness => .plain "failed to create a final witness"
/-- src/v2/miniscript/finalize.rs:476-498. -/
def FinalizeInputErr.failure : FinalizeInputErr L → Failure
  | .final e => .because "final" (e.failure T)
  | .input e => .because "input" e.failure
/-- `InterpreterCheckError` and `InterpreterCheckInputError`, src/v2/miniscript/mod.rs:154-225. -/
def InterpCheckErr.failure : InterpCheckErr → Failure
  | .lockTime e => .because "interpreter check determine locktime" e.failure
  | .input n .constructor => .because "interpreter check failed for input"
      (.because s!"Interpreter constructor failed for input {n}" (.plain (T.interp .constructor)))
  | .input n .satisfaction => .because "interpreter check failed for input"
      (.because s!"Interpreter satisfaction failed for input {n}" (.plain (T.interp .satisfaction)))
/-- src/v2/miniscript/finalize.rs:439-461. -/
def FinalizeErr.failure : FinalizeErr L → Failure
  | .finalizeInput n e => .because s!"failed to finalize input at index {n}" (e.failure T)
  | .interpreterCheck e => .because "error running the interpreter checks" (e.failure T)
/-- src/v2/extract.rs:137-160. -/
def ExtractErr.failure : ExtractErr → Failure
  | .notFinalized => .plain "attempted to extract tx from an unfinalized PSBT"
  | .lockTime e => .because "extractor must be able to determine the lock time" e.failure
/-- src/v2/extract.rs:225-232. -/
def ExtractTxErr.failure (_ : ExtractTxErr) : Failure := .todo
/-- src/v2/extract.rs:182-206. -/
def ExtractRateErr.failure : ExtractRateErr → Failure
  | .fee e => .because "fee calculation" e.failure
  | .extractTx e => .because "extract" e.failure
  | .feeTooHigh f m => .plain s!"fee {T.feeRate f} is greater than max {T.feeRate m}"
/-- src/v2/map/global.rs:751-781, src/error.rs:12-21. -/
def GlobalCombErr.failure : GlobalCombErr L → Failure
  | .version a b => .plain s!"combine two PSBTs with different versions: {T.version a} {T.version b}"
  | .txVersion a b => .plain s!"combine two PSBTs with different tx versions: {T.txVersion a} {T.txVersion b}"
  | .inconsistentKeySources x => .because "combine with inconsistent key sources"
      (.plain s!"combining PSBT, key-source conflict for xpub {T.xpub x}")
/-- src/v2/map/input.rs:1069-1095. -/
def InputCombErr.failure : InputCombErr → Failure
  | .previousTxid a b => .plain s!"combine two PSBTs with different previous txids: {T.txid a} {T.txid b}"
  | .spentOutputIndex a b => .plain s!"combine two PSBTs with different spent output indecies: {a} {b}"
/-- src/v2/map/output.rs:463-488. -/
def OutputCombErr.failure : OutputCombErr → Failure
  | .amount a b => .plain s!"combine two PSBTs with different amounts: {T.amount a} {T.amount b}"
  | .scriptPubkey a b => .plain s!"combine two PSBTs with different script_pubkeys: {T.scriptHex a} {T.scriptHex b}"
/-- src/v2/mod.rs:1328-1352. -/
def CombErr.failure : CombErr L → Failure
  | .global e => .because "error while combining the global maps" (e.failure T)
  | .input e => .because "error while combining the input maps" (e.failure T)
  | .output e => .because "error while combining the output maps" (e.failure T)

end V2

/-- `ExcludedKey` of v0, src/v0/bitcoin/error.rs:165-169. -/
def V0.excludedMessage (sp : Bool) (t : UInt8) : String :=
  "found a keypair type that is explicitly excluded: " ++ inputKeyName sp t
/-- `ExcludedKey` of v2, src/v2/map/global.rs:681-685. -/
def V2.excludedMessage (sp : Bool) (t : UInt8) : String :=
  "found a keypair type that is explicitly excluded: " ++ globalKeyName sp t

end Psbt
