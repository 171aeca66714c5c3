/- C117: a message says what is wrong. -/
import Verif.Lemmas.ReportAbout
import Verif.Spec.Demo
namespace Psbt
open Psbt.Spec
variable {L : Lib} (T : MoreTexts L)

/-! ### C117, the words -/

/-- C117. The message of a missing funding output, of a fee that cannot be computed, of a value that cannot be read and of a v2 map
that cannot be decoded says what is wrong, with the numbers. -/
theorem C117_parts :
    (∀ e : FundingErr, ∀ w ∈ aboutFunding e, Mentions e.failure w) ∧ (∀ e : FeeErr, ∀ w ∈ aboutFee e, Mentions e.failure w) ∧
    (∀ e : SerErr, ∀ w ∈ aboutSer e, Mentions (e.failure T) w) ∧
    (∀ (m : MapKind) (e : DecErr), ∀ w ∈ aboutDecode e, Mentions (e.failure T m) w) := by
  refine ⟨fun e => ?_, fun e => ?_, fun e => ?_, fun m e => ?_⟩
  · cases e <;> unfold aboutFunding FundingErr.failure <;> mentions
  · cases e <;> unfold aboutFee FeeErr.failure <;> mentions
  · cases e <;> unfold aboutSer SerErr.failure <;> mentions
  · cases m <;> cases e <;> unfold aboutDecode DecErr.failure <;> mentions

/-- C117, for the insertion of a pair into a v2 map: with one exception. -/
theorem C117_insert_partial (m : MapKind) {e : InsErr} (h : e ≠ .xpubInvalidFingerprint) : ∀ w ∈ aboutInsert T e, Mentions (e.failure T m) w := by
  cases e
  case xpubInvalidFingerprint => exact absurd rfl h
  all_goals cases m <;> unfold aboutInsert InsErr.failure <;> (try simp only [if_pos, reduceCtorEq, if_false]) <;> mentions

/-- C117, for `InputError` of both finalizers: with one exception. -/
theorem C117_finalize_input_partial {e : MsInputErr L} (h : e ≠ .missingRedeemScript) :
    (∀ w ∈ aboutMsInput T e, Mentions (e.failure T.toTexts) w) ∧ ∀ w ∈ aboutMsInput T e, Mentions (V0.msFailure T e) w := by
  constructor
  · cases e
    case missingRedeemScript => exact absurd rfl h
    all_goals unfold aboutMsInput MsInputErr.failure <;> mentions
  · cases e
    case missingRedeemScript => exact absurd rfl h
    all_goals unfold aboutMsInput V0.msFailure <;> mentions

/-- C117, for the errors of key providers: with one exception. -/
theorem C117_get_key_partial : ∀ w ∈ aboutGetKey .notSupported, Mentions (GetKeyErr.notSupported.failure T) w := by
  unfold aboutGetKey GetKeyErr.failure <;> mentions

theorem not_mentions {m w : String} (h : ¬ w.toList <:+: m.toList) : ¬ Mentions (.plain m) w :=
  fun hm => h (occurs_list.mp (hm true m rfl))

/-- C117 fails for a fingerprint that cannot be read: the message is about the derivation path. -/
theorem C117_fingerprint_counterexample (m : MapKind) : ¬ Mentions (InsErr.xpubInvalidFingerprint.failure T m) "ingerprint" ∧
    Mentions (InsErr.xpubInvalidFingerprint.failure T m) "derivation path" :=
  ⟨not_mentions (by decide +kernel), mentions_plain (by occ)⟩

/-- C117 fails for a redeem script that is missing: the message is `PSBT is Redeem script`. -/
theorem C117_redeem_script_counterexample : ¬ Mentions ((MsInputErr.missingRedeemScript : MsInputErr L).failure T.toTexts) "issing" ∧
    ¬ Mentions (V0.msFailure T .missingRedeemScript) "issing" :=
  ⟨not_mentions (by decide +kernel), not_mentions (by decide +kernel)⟩

/-- C117 fails for a key that cannot be derived: the message is about `bip23`. -/
theorem C117_bip32_counterexample : ¬ Mentions (GetKeyErr.bip32.failure T) "32" ∧ Mentions (GetKeyErr.bip32.failure T) "bip23" := by
  refine ⟨fun h => ?_, mentions_because (by occ)⟩
  have := occurs_list.mp (h true "a bip23 error" rfl)
  exact absurd this (by decide +kernel)

end Psbt

namespace Psbt.V2
open Psbt.Spec Psbt.Spec.V2
variable {L : Lib} (T : MoreTexts L)

/-- C117. The messages of the roles of PSBT v2 say what is wrong, with the values that differ or do not fit. -/
theorem C117_roles :
    (∀ e : IndexErr, ∀ w ∈ aboutIndex e, Mentions e.failure w) ∧
    (∀ e : SignErr, ∀ w ∈ aboutSign e, Mentions (e.failure T.toTexts) w) ∧
    (∀ e : NotModifiable, ∀ w ∈ aboutNotModifiable e, Mentions e.failure w) ∧
    (∀ e : PartialSigsErr L, ∀ w ∈ aboutPartialSigs T e, Mentions (e.failure T.toTexts) w) ∧
    (∀ e : FinalizerErr L, ∀ w ∈ aboutFinalizer e, Mentions (e.failure T.toTexts) w) ∧
    (∀ e : FinalizeErr L, ∀ w ∈ aboutFinalize e, Mentions (e.failure T.toTexts) w) ∧
    (∀ e : ExtractErr, ∀ w ∈ aboutExtract e, Mentions e.failure w) ∧
    (∀ e : ExtractRateErr, ∀ w ∈ aboutExtractRate T e, Mentions (e.failure T.toTexts) w) ∧
    (∀ e : GlobalCombErr L, ∀ w ∈ aboutGlobalCombine T e, Mentions (e.failure T.toTexts) w) ∧
    (∀ e : InputCombErr, ∀ w ∈ aboutInputCombine T e, Mentions (e.failure T.toTexts) w) ∧
    (∀ e : OutputCombErr, ∀ w ∈ aboutOutputCombine T e, Mentions (e.failure T.toTexts) w) ∧
    (∀ e : CombErr L, ∀ w ∈ aboutCombine e, Mentions (e.failure T.toTexts) w) := by
  refine ⟨?_, ?_, ?_, ?_, ?_, ?_, ?_, ?_, ?_, ?_, ?_, ?_⟩ <;> intro e
  · cases e <;> unfold aboutIndex IndexErr.failure <;> mentions
  · cases e <;> unfold aboutSign SignErr.failure <;> mentions
  · cases e <;> unfold aboutNotModifiable NotModifiable.failure <;> mentions
  · cases e <;> unfold aboutPartialSigs PartialSigsErr.failure <;> mentions
  · cases e <;> unfold aboutFinalizer FinalizerErr.failure <;> mentions
  · cases e <;> unfold aboutFinalize FinalizeErr.failure <;> mentions
  · cases e <;> unfold aboutExtract ExtractErr.failure <;> mentions
  · cases e <;> unfold aboutExtractRate ExtractRateErr.failure <;> mentions
  · cases e <;> unfold aboutGlobalCombine GlobalCombErr.failure <;> mentions
  · cases e <;> unfold aboutInputCombine InputCombErr.failure <;> mentions
  · cases e <;> unfold aboutOutputCombine OutputCombErr.failure <;> mentions
  · cases e <;> unfold aboutCombine CombErr.failure <;> mentions

end Psbt.V2

namespace Psbt.V0
open Psbt.Spec Psbt.Spec.V0
variable {L : Lib} (T : MoreTexts L)

/-- C117. The messages of `Error` of PSBT v0 say what is wrong, … -/
theorem C117_error {e : Err} (he : ∀ s, e = .ser s → inV0 s) : ∀ w ∈ aboutErr T e, Mentions (e.failure T) w := by
  cases e
  case ser s =>
    have := he s rfl
    cases s <;> first | (exact absurd this (by decide)) | (simp only [aboutErr, V0.aboutSer, Spec.aboutSer, Err.failure, serFailure] <;> mentions) | (simp [inV0] at this)
  all_goals unfold aboutErr Err.failure <;> mentions

/-- … and so do those of its roles. -/
theorem C117_roles :
    (∀ e : IndexErr, ∀ w ∈ aboutIndex e, Mentions e.failure w) ∧
    (∀ e : SignErr, ∀ w ∈ aboutSign e, Mentions (e.failure T) w) ∧
    (∀ e : ExtractErr L, ∀ w ∈ aboutExtract T e, Mentions (e.failure T) w) ∧
    (∀ e : ChecksErr, ∀ w ∈ aboutChecks e, Mentions e.failure w) ∧
    (∀ e : FinErr L, ∀ w ∈ aboutFinalize e, Mentions (e.failure T) w) ∧
    (∀ (what : MapKind) (e : UpdateErr), ∀ w ∈ aboutUpdate T what e, Mentions (e.failure T what) w) ∧
    (∀ e : SighashErr, ∀ w ∈ aboutSighash T e, Mentions (e.failure T) w) := by
  refine ⟨?_, ?_, ?_, ?_, ?_, ?_, ?_⟩
  · intro e; cases e <;> unfold aboutIndex IndexErr.failure <;> mentions
  · intro e; cases e <;> unfold aboutSign SignErr.failure <;> mentions
  · intro e; cases e <;> unfold aboutExtract ExtractErr.failure <;> mentions
  · intro e; cases e <;> unfold aboutChecks ChecksErr.failure <;> mentions
  · intro e; cases e <;> unfold aboutFinalize FinErr.failure <;> mentions
  · intro m e; cases m <;> cases e <;> unfold aboutUpdate UpdateErr.failure <;> simp only [reduceCtorEq, if_false, if_true] <;> mentions
  · intro e; cases e <;> unfold aboutSighash SighashErr.failure <;> mentions

end Psbt.V0

/-! ### C117, telling failures apart -/

namespace Psbt
open Psbt.Spec
variable {L : Lib} (T : MoreTexts L)

/-- How the messages begin, in the order of the variants. -/
def serTexts : List String := ["not enough data to deserialize object", "non-proprietary key type found when proprietary key was expected",
  "no more key-value pairs for this psbt map", "non-standard sighash type: ", "invalid hash when parsing slice", "bitcoin consensus encoding error",
  "invalid public key", "invalid secp256k1 public key", "invalid xonly public key", "invalid ECDSA signature", "invalid taproot signature",
  "invalid control block", "invalid leaf version", "taproot error -  ", "taproot tree error",
  "data not consumed entirely when explicitly deserializing", "parsed locktime invalid", "unsupported version", "invalid DLEQ proof: got "]

/-- C117. Two values that cannot be read have the same message only if they cannot be read for the same reason. -/
theorem C117_value_apart {e e' : SerErr} {std : Bool} {s : String} (h : (e.failure T).display std = .ok s)
    (h' : (e'.failure T).display std = .ok s) : e.ctorIdx = e'.ctorIdx :=
  tell_apart (f := fun e => e.failure T) (kind := SerErr.ctorIdx) serTexts (by decide +kernel) (fun e => by cases e <;> begins) h h'

def insTexts (m : MapKind) : List String := ["duplicate key: ", "key should contain data: ", "key should not contain data: ",
  "error deserializing raw value", "error consensus deserializing type",
  if m = .global then "value (keyvalue pair) wrong length (got, want) " else "value wrong length (got: ",
  "key wrong length (got: ", "PSBT_GLOBAL_VERSION: PSBT v2 expects the version to be 2, found: ",
  "PSBT_GLOBAL_XPUB: derivation path must be a list of 32 byte varints", "-", "PSBT_GLOBAL_XPUB: Failed to decode a BIP-32 type",
  "PSBT_GLOBAL_XPUB: xpubs must be unique ", "PSBT_GLOBAL_PROPRIETARY: Invalid proprietary key",
  "found a keypair type that is explicitly excluded: ", "invalid hash preimage"]

/-- A kind for each message, but one for both a fingerprint and a path that cannot be read. -/
def insKind (e : InsErr) : Nat := if e.ctorIdx = 9 then 8 else e.ctorIdx

theorem fingerprint_path (m : MapKind) {n : Nat} {std : Bool} {s : String} (h : (InsErr.xpubInvalidFingerprint.failure T m).display std = .ok s)
    (h' : ((InsErr.xpubInvalidPath n).failure T m).display std = .ok s) : False := by
  have := ok_text (h.trans h'.symm)
  simp [toString] at this

theorem eq_fingerprint {e : InsErr} (h : e.ctorIdx = 8) : e = .xpubInvalidFingerprint := by cases e <;> first | rfl | (exact absurd h nofun)
theorem eq_path {e : InsErr} (h : e.ctorIdx = 9) : ∃ n, e = .xpubInvalidPath n := by
  cases e <;> first | exact ⟨_, rfl⟩ | (exact absurd h nofun)

/-- C117. The same for pairs that cannot be inserted into a v2 map … -/
theorem C117_insert_apart (m : MapKind) {e e' : InsErr} {std : Bool} {s : String} (h : (e.failure T m).display std = .ok s)
    (h' : (e'.failure T m).display std = .ok s) : e.ctorIdx = e'.ctorIdx := by
  have hk : insKind e = insKind e' :=
    tell_apart (f := fun e => e.failure T m) (insTexts m) (by cases m <;> decide +kernel) (fun e => by
      cases e
      case xpubInvalidPath n =>
        refine ⟨_, rfl, begins_plain (": " ++ toString n) ?_⟩
        rw [← String.append_assoc]
        exact congrArg (· ++ toString n) (by decide +kernel)
      all_goals cases m <;> begins) h h'
  unfold insKind at hk
  by_cases h1 : e.ctorIdx = 9 <;> by_cases h2 : e'.ctorIdx = 9
  · rw [h1, h2]
  · rw [if_pos h1, if_neg h2] at hk
    obtain ⟨n, rfl⟩ := eq_path h1
    obtain rfl := eq_fingerprint hk.symm
    exact (fingerprint_path T m h' h).elim
  · rw [if_neg h1, if_pos h2] at hk
    obtain ⟨n, rfl⟩ := eq_path h2
    obtain rfl := eq_fingerprint hk
    exact (fingerprint_path T m h h').elim
  · rwa [if_neg h1, if_neg h2] at hk

def decTexts (m : MapKind) : List String := [if m = .input then "error inserting a key-value pair" else "error inserting a pair",
  if m = .input then "error decoding pair" else "error deserializing a pair", "serialized PSBT is missing the version number",
  "serialized PSBT is missing the transaction version number", "serialized PSBT is missing the input count",
  "serialized PSBT is missing the output count", "ECDH shares and DLEQ proofs must both be present or both absent",
  "input must contain a previous txid", "input must contain a spent output index", "encoded output is missing a value",
  "encoded output is missing a script pubkey", "output has a sp_v0_label without a sp_v0_info"]

/-- … and v2 maps that cannot be decoded. -/
theorem C117_map_apart (m : MapKind) {e e' : DecErr} {std : Bool} {s : String} (h : (e.failure T m).display std = .ok s)
    (h' : (e'.failure T m).display std = .ok s) : e.ctorIdx = e'.ctorIdx :=
  tell_apart (f := fun e => e.failure T m) (kind := DecErr.ctorIdx) (decTexts m) (by cases m <;> decide +kernel)
    (fun e => by cases m <;> cases e <;> begins) h h'

def feeTexts : List String := ["funding utxo error for input", "integer overflow in fee calculation adding input",
  "integer overflow in fee calculation adding output", "PSBT has a negative fee which is not allowed"]
/-- C117. The same for fees … -/
theorem C117_fee_apart {e e' : FeeErr} {std : Bool} {s : String} (h : e.failure.display std = .ok s)
    (h' : e'.failure.display std = .ok s) : e.ctorIdx = e'.ctorIdx :=
  tell_apart (f := fun e => e.failure) (kind := FeeErr.ctorIdx) feeTexts (by decide +kernel) (fun e => by cases e <;> begins) h h'

def msTexts : List String := ["Key Err: ", "Could not satisfy Tr descriptor", "Interpreter: ", "Redeem script ", "Witness script ",
  "Miniscript Error: ", "PSBT is Redeem script", "Missing pubkey for a pkh/wpkh", "PSBT is missing witness script",
  "PSBT is missing both witness and non-witness UTXO", "PSBT has non-empty witness script at for legacy input",
  "PSBT has non-empty redeem script at for legacy transactions", "Non-standard sighash type ", "PSBT: signature with key "]
/-- … and inputs that cannot be finalized, in PSBT v2 … -/
theorem V2.C117_input_apart {e e' : MsInputErr L} {std : Bool} {s : String} (h : (e.failure T.toTexts).display std = .ok s)
    (h' : (e'.failure T.toTexts).display std = .ok s) : e.ctorIdx = e'.ctorIdx :=
  tell_apart (f := fun e => e.failure T.toTexts) (kind := MsInputErr.ctorIdx) msTexts (by decide +kernel) (fun e => by cases e <;> begins) h h'
/-- … and v0. -/
theorem V0.C117_input_apart {e e' : MsInputErr L} {std : Bool} {s : String} (h : (V0.msFailure T e).display std = .ok s)
    (h' : (V0.msFailure T e').display std = .ok s) : e.ctorIdx = e'.ctorIdx :=
  tell_apart (f := V0.msFailure T) (kind := MsInputErr.ctorIdx) msTexts (by decide +kernel) (fun e => by cases e <;> begins) h h'

namespace V2
def signTexts : List String := ["index out of bounds", "invalid sighash type", "missing input utxo in PBST", "missing redeem script",
  "input funding utxo error", "missing witness script", "signing algorithm and key type does not match",
  "attempted to ECDSA sign an non-ECDSA input", "the scriptPubkey is not a P2WPKH script", "segwit v0 sighash", "p2wpkh sighash",
  "unable to determine the output type", "unable to find key", "attempt to sign an input with the wrong signing algorithm",
  "signing request currently unsupported"]
/-- C117. Two inputs of a PSBT v2 that cannot be signed have the same message only if they cannot be for the same reason. -/
theorem C117_sign_apart {e e' : SignErr} {std : Bool} {s : String} (h : (e.failure T.toTexts).display std = .ok s)
    (h' : (e'.failure T.toTexts).display std = .ok s) : e.ctorIdx = e'.ctorIdx :=
  tell_apart (f := fun e => e.failure T.toTexts) (kind := SignErr.ctorIdx) signTexts (by decide +kernel) (fun e => by cases e <;> begins) h h'
end V2

namespace V0
open Psbt.Spec.V0
def signTexts : List String := ["index out of bounds", "invalid sighash type", "missing input utxo in PBST", "missing redeem script",
  "missing spend utxo in PSBT", "missing witness script", "signing algorithm and key type does not match",
  "attempted to ECDSA sign an non-ECDSA input", "the scriptPubkey is not a P2WPKH script", "segwit v0 sighash", "p2wpkh sighash",
  "taproot sighash", "unable to determine the output type", "unable to find key",
  "attempt to sign an input with the wrong signing algorithm", "signing request currently unsupported"]
/-- C117, PSBT v0. The same for signing, … -/
theorem C117_sign_apart {e e' : SignErr} {std : Bool} {s : String} (h : (e.failure T).display std = .ok s)
    (h' : (e'.failure T).display std = .ok s) : e.ctorIdx = e'.ctorIdx :=
  tell_apart (f := fun e => e.failure T) (kind := SignErr.ctorIdx) signTexts (by decide +kernel) (fun e => by cases e <;> begins) h h'

def sighashTexts : List String := ["index ", "Missing input utxo in pbst", "Missing Psbt spend utxos", "Invalid Sighash type",
  "sighash taproot: ", "sighash p2wpkh: ", "tx inputs index: ", "Missing Witness Script", "Missing Redeem Script"]
/-- … signature messages, … -/
theorem C117_sighash_apart {e e' : SighashErr} {std : Bool} {s : String} (h : (e.failure T).display std = .ok s)
    (h' : (e'.failure T).display std = .ok s) : e.ctorIdx = e'.ctorIdx :=
  tell_apart (f := fun e => e.failure T) (kind := SighashErr.ctorIdx) sighashTexts (by decide +kernel) (fun e => by cases e <;> begins) h h'

def checksTexts : List String := ["witness input will produce a non-witness signature",
  "non-witness input has a mismatch between the txid and prevout txid", "input has both witness and non-witness utxos",
  "redeem script hash did not match the hash in the script_pubkey", "missing witness_utxo",
  "native segwit p2wsh script_pubkey did not match witness script hash", "nested segwit p2wsh script_pubkey did not match redeem script hash"]
/-- … the checks of the signer, … -/
theorem C117_checks_apart {e e' : ChecksErr} {std : Bool} {s : String} (h : e.failure.display std = .ok s)
    (h' : e'.failure.display std = .ok s) : e.ctorIdx = e'.ctorIdx :=
  tell_apart (f := fun e => e.failure) (kind := ChecksErr.ctorIdx) checksTexts (by decide +kernel) (fun e => by cases e <;> begins) h h'

def updateTexts (m : MapKind) : List String := ["index ", "Missing input in unsigned transaction", "Missing txout in the unsigned transaction",
  "Key derivation error ", "The input's witness_utxo and/or non_witness_utxo were invalid or missing",
  if m = .output then "The output's script pubkey didn't match the descriptor"
  else "The input's witness_utxo and/or non_witness_utxo had a script pubkey that didn't match the descriptor"]
/-- … updating … -/
theorem C117_update_apart (m : MapKind) {e e' : UpdateErr} {std : Bool} {s : String} (h : (e.failure T m).display std = .ok s)
    (h' : (e'.failure T m).display std = .ok s) : e.ctorIdx = e'.ctorIdx :=
  tell_apart (f := fun e => e.failure T m) (kind := UpdateErr.ctorIdx) (updateTexts m) (by cases m <;> decide +kernel)
    (fun e => by cases m <;> cases e <;> begins) h h'

def errTexts : List String := "I/O error" :: (serTexts.drop 1).take 15 ++ ["-1", "-2", "-3"] ++ ["invalid magic", "UTXO information is not present in PSBT",
  "invalid separator", "output index is out of bounds of non witness script output array", "invalid key: ", "duplicate key: ",
  "the unsigned transaction has script sigs", "the unsigned transaction has script witnesses",
  "partially signed transactions must have an unsigned transaction", "different unsigned transaction: expected ", "Preimage ",
  "combine conflict: ", "PSBT has a negative fee which is not allowed", "integer overflow in fee calculation", "xpub key error -  ",
  "version error ", "-4", "found a keypair type that is explicitly excluded: "]
/-- … and for all variants of `Error`. -/
theorem C117_error_apart {e e' : Err} (he : ∀ s, e = .ser s → inV0 s) (he' : ∀ s, e' = .ser s → inV0 s) {std : Bool} {s : String}
    (h : (e.failure T).display std = .ok s) (h' : (e'.failure T).display std = .ok s) : variant e = variant e' := by
  refine tell_apart (f := fun e : { e : Err // ∀ s, e = .ser s → inV0 s } => e.1.failure T) (kind := fun e => variant e.1) errTexts
    (by decide +kernel) ?_ (e := ⟨e, he⟩) (e' := ⟨e', he'⟩) h h'
  rintro ⟨e, he⟩
  cases e
  case ser s =>
    have := he s rfl
    cases s <;> first | begins | (simp [inV0] at this)
  all_goals begins
end V0

/-! ### Cases that meet the hypotheses -/

example : ((SerErr.nonStandardSighashType 4).failure (sharp (Demo.lib false))).display true = .ok "non-standard sighash type: 4" := by
  decide +kernel
example : Mentions ((V0.Err.duplicateKey ⟨1, [2]⟩).failure (sharp (Demo.lib false))) "duplicate key: type: 0x1, key: 02" := by
  have := V0.C117_error (sharp (Demo.lib false)) (e := .duplicateKey ⟨1, [2]⟩) (by simp) _ (List.mem_singleton.mpr rfl)
  exact this
example : ∀ w ∈ ["missing the input count"], Mentions (DecErr.missingInputCount.failure (sharp (Demo.lib false)) .global) w :=
  (C117_parts (sharp (Demo.lib false))).2.2.2 .global .missingInputCount

end Psbt
