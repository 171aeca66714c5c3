/-
What the finalizers take from rust-miniscript, and the decision code both PSBT versions have a copy of: choosing a
descriptor (src/v2/miniscript/finalize.rs:140-295, src/v0/miniscript/finalizer.rs:144-297) and building a taproot witness
(src/v2/miniscript/finalize.rs:301-373, src/v0/miniscript/finalizer.rs:34-105).
-/
import Verif.Model.Ser
import Verif.Model.Script
namespace Psbt

/-- `absolute::LockTime` of rust-bitcoin: a block height or a time. -/
inductive AbsLock where
  | blocks (h : Height)
  | seconds (t : Time)
  deriving DecidableEq

/-- `relative::LockTime` of rust-bitcoin: a number of blocks, or of units of 512 seconds. -/
inductive RelLock where
  | blocks (n : UInt16)
  | time (n : UInt16)
  deriving DecidableEq

/-- `relative::LockTime::from_sequence` of rust-bitcoin: bit 31 disables the lock, bit 22 selects the unit, the low 16
bits are the amount. -/
def relOfSequence (s : UInt32) : Option RelLock :=
  if s &&& 0x80000000 ≠ 0 then none
  else if s &&& 0x00400000 ≠ 0 then some (.time s.toUInt16)
  else some (.blocks s.toUInt16)

/-- `relative::LockTime::is_implied_by` of rust-bitcoin. -/
def RelLock.isImpliedBy : RelLock → RelLock → Bool
  | .blocks a, .blocks b => decide (a ≤ b)
  | .time a, .time b => decide (a ≤ b)
  | _, _ => false

/-- The answers a `miniscript::Satisfier` gives. `Preimage32`: `FixedBytes 32`. The Rust trait is generic in the key
type; the model has the methods for the two key types used (full keys for ECDSA, x-only keys for taproot). -/
structure Satisfier (L : Lib) where
  tapKeySpendSig : Option TapSig
  tapLeafScriptSig : L.xonly.T → Hash32 → Option TapSig
  rawPkhPk : FixedBytes 20 → Option L.pubkey.T
  tapControlBlocks : BMap L.ctrl.T (Bytes × LeafVersion)
  rawPkhTapLeafScriptSig : FixedBytes 20 → Hash32 → Option (L.xonly.T × TapSig)
  ecdsaSig : L.pubkey.T → Option (EcdsaSig L)
  rawPkhEcdsaSig : FixedBytes 20 → Option (L.pubkey.T × EcdsaSig L)
  after : AbsLock → Bool
  older : RelLock → Bool
  hash160 : FixedBytes 20 → Option (FixedBytes 32)
  sha256 : FixedBytes 32 → Option (FixedBytes 32)
  hash256 : FixedBytes 32 → Option (FixedBytes 32)
  ripemd160 : FixedBytes 20 → Option (FixedBytes 32)

/-- `try_vec_as_preimage32`, src/v2/miniscript/satisfy.rs:119-127, src/v0/miniscript/mod.rs:368-376. -/
def preimage32? (b : Bytes) : Option (FixedBytes 32) := if h : b.length = 32 then some ⟨b, h⟩ else none

/-- `miniscript::Descriptor<PublicKey>` as `get_descriptor` makes them; `M` is the type of miniscripts. -/
inductive Desc (L : Lib) (M : Type) where
  | pk (k : L.pubkey.T)
  | pkh (k : L.pubkey.T)
  | wpkh (k : L.pubkey.T)
  | wsh (m : M)
  | shWsh (m : M)
  | shWpkh (k : L.pubkey.T)
  | sh (m : M)
  | bare (m : M)
  deriving DecidableEq

/-- The script contexts `Segwitv0`, `Legacy` and `BareCtx` of rust-miniscript. -/
inductive MsCtx where
  | segwitv0 | legacy | bare
  deriving DecidableEq

/-- Everything `Interpreter::from_txdata(spk, script_sig, witness, csv, cltv)` followed by
`iter(secp, tx, index, utxos)` is given. -/
structure InterpArgs where
  spk : Bytes
  scriptSig : Bytes
  witness : List Bytes
  csv : UInt32
  cltv : UInt32
  tx : Tx
  index : Nat
  utxos : List TxOut
  deriving DecidableEq

/-- Where the interpreter failed: in `from_txdata`, or in the first failing element of `iter`. -/
inductive InterpErr where
  | constructor
  | satisfaction
  deriving DecidableEq

/-- rust-miniscript, and the hash-to-key functions of rust-bitcoin it is used with. All error values of rust-miniscript
are one error. -/
structure MsLib (L : Lib) where
  /-- `PublicKey::new` of a `secp256k1::PublicKey`. -/
  ofSecp : L.secpPk.T → L.pubkey.T
  /-- `Miniscript<PublicKey, _>`. -/
  Ms : Type
  /-- `Miniscript::parse_with_ext(script, &ExtParams::allow_all())`. -/
  parse : MsCtx → Bytes → Option Ms
  /-- `substitute_raw_pkh`. -/
  substitute : BMap (FixedBytes 20) L.pubkey.T → Ms → Ms
  /-- Do `Descriptor::new_pkh`, `new_wpkh`, … accept? (`new_pk` always does.) -/
  accepts : Desc L Ms → Bool
  /-- `get_satisfaction_mall` (`true`) and `get_satisfaction` (`false`): witness and script sig. -/
  satisfy : Bool → Desc L Ms → Satisfier L → Option (List Bytes × Bytes)
  /-- `Miniscript<XOnlyPublicKey, Tap>`. -/
  TapMs : Type
  tapParse : Bytes → Option TapMs
  tapSubstitute : BMap (FixedBytes 20) L.xonly.T → TapMs → TapMs
  /-- `satisfy_malleable` (`true`) and `satisfy` (`false`). -/
  tapSatisfy : Bool → TapMs → Satisfier L → Option (List Bytes)
  /-- `encode`. -/
  tapEncode : TapMs → Bytes
  /-- The interpreter; `none` means it accepts. -/
  interp : InterpArgs → Option InterpErr

/-- `InputError`, src/v2/miniscript/finalize.rs:509-569, src/v0/miniscript/mod.rs:88-148. One enum for the two; the
variants the code never makes are left out. -/
inductive MsInputErr (L : Lib) where
  | keyErr
  | couldNotSatisfyTr
  | interpreter (e : InterpErr)
  | invalidRedeemScript (redeem p2shExpected : Bytes)
  | invalidWitnessScript (witnessScript p2wshExpected : Bytes)
  | miniscript
  | missingRedeemScript
  | missingPubkey
  | missingWitnessScript
  | missingUtxo
  | nonEmptyWitnessScript
  | nonEmptyRedeemScript
  | nonStandardSighashType
  | wrongSighashFlag (required got : EcdsaTy) (pk : L.pubkey.T)
  deriving DecidableEq

/-- `Script::is_p2pk` of rust-bitcoin: a push of 65 or 33 bytes and CHECKSIG. -/
def isP2pk (s : Bytes) : Bool :=
  s.length == 67 && s[0]? == some 0x41 && s[66]? == some 0xac || s.length == 35 && s[0]? == some 0x21 && s[34]? == some 0xac

/-- `Script::to_p2sh` of rust-bitcoin. -/
def toP2sh (L : Lib) (r : Bytes) : Bytes := [0xa9, 0x14] ++ (L.hash160 r).1 ++ [0x87]
/-- `Script::to_p2wsh` of rust-bitcoin. -/
def toP2wsh (L : Lib) (w : Bytes) : Bytes := [0x00, 0x20] ++ (L.sha256 w).1
/-- `Address::p2pkh(pk, _).script_pubkey()` of rust-bitcoin. -/
def p2pkhOf {L : Lib} (pk : L.pubkey.T) : Bytes := [0x76, 0xa9, 0x14] ++ (L.hash160 pk.bytes).1 ++ [0x88, 0xac]
/-- `CompressedPublicKey::try_from(pk)` and `Address::p2wpkh(&compressed, _).script_pubkey()` of rust-bitcoin. A key is
compressed if its serialisation has 33 bytes. -/
def p2wpkhOf {L : Lib} (pk : L.pubkey.T) : Option Bytes :=
  if pk.bytes.length = 33 then some ([0x00, 0x14] ++ (L.hash160 pk.bytes).1) else none

variable {L : Lib} (M : MsLib L)

/-- The map from key hashes to keys, src/v2/miniscript/finalize.rs:141-153, src/v0/miniscript/finalizer.rs:145-155, from
the keys of all inputs in order; a later key replaces an earlier one with the same hash. -/
def hashMap (keys : List L.secpPk.T) : BMap (FixedBytes 20) L.pubkey.T :=
  keys.foldl (fun m k => m.insert (L.hash160 (M.ofSecp k).bytes) (M.ofSecp k)) .empty

/-- The map from key hashes to x-only keys, src/v2/miniscript/finalize.rs:310-322, src/v0/miniscript/finalizer.rs:41-52. -/
def tapHashMap (keys : List L.xonly.T) : BMap (FixedBytes 20) L.xonly.T :=
  keys.foldl (fun m k => m.insert (L.hash160 k.bytes) k) .empty

/-- A fallible descriptor constructor. -/
def newDesc (d : Desc L M.Ms) : Except (MsInputErr L) (Desc L M.Ms) := if M.accepts d then .ok d else .error .miniscript

/-- `get_descriptor` after the funding script `spk` has been found: src/v2/miniscript/finalize.rs:157-294,
src/v0/miniscript/finalizer.rs:160-296. `sigs` are the partial signatures of the input in order of their keys. -/
def descriptorOf (map : BMap (FixedBytes 20) L.pubkey.T) (sigs : List (L.pubkey.T × EcdsaSig L)) (spk : Bytes)
    (redeemScript witnessScript : Option Bytes) : Except (MsInputErr L) (Desc L M.Ms) :=
  if isP2pk spk then
    match L.pubkey.parse ((spk.take (spk.length - 1)).drop 1) with
    | some pk => .ok (.pk pk)
    | none => .error .keyErr
  else if isP2pkh spk then
    match sigs.find? fun kv => spk == p2pkhOf kv.1 with
    | some (pk, _) => newDesc M (.pkh pk)
    | none => .error .missingPubkey
  else if isP2wpkh spk then
    match sigs.find? fun kv => some spk == p2wpkhOf kv.1 with
    | some (pk, _) => newDesc M (.wpkh pk)
    | none => .error .missingPubkey
  else if isP2wsh spk then
    if redeemScript.isSome then .error .nonEmptyRedeemScript
    else
      match witnessScript with
      | some ws =>
        if toP2wsh L ws ≠ spk then .error (.invalidWitnessScript ws spk)
        else
          match M.parse .segwitv0 ws with
          | some ms => newDesc M (.wsh (M.substitute map ms))
          | none => .error .miniscript
      | none => .error .missingWitnessScript
  else if isP2sh spk then
    match redeemScript with
    | none => .error .missingRedeemScript
    | some rs =>
      if toP2sh L rs ≠ spk then .error (.invalidRedeemScript rs spk)
      else if isP2wsh rs then
        match witnessScript with
        | some ws =>
          if toP2wsh L ws ≠ rs then .error (.invalidWitnessScript ws rs)
          else
            match M.parse .segwitv0 ws with
            | some ms => newDesc M (.shWsh (M.substitute map ms))
            | none => .error .miniscript
        | none => .error .missingWitnessScript
      else if isP2wpkh rs then
        match sigs.find? fun kv => some rs == p2wpkhOf kv.1 with
        | some (pk, _) => newDesc M (.shWpkh pk)
        | none => .error .missingPubkey
      else if witnessScript.isSome then .error .nonEmptyWitnessScript
      else
        match M.parse .legacy rs with
        | some ms => newDesc M (.sh ms)
        | none => .error .miniscript
  else if witnessScript.isSome then .error .nonEmptyWitnessScript
  else if redeemScript.isSome then .error .nonEmptyRedeemScript
  else
    match M.parse .bare spk with
    | some ms => newDesc M (.bare (M.substitute map ms))
    | none => .error .miniscript

/-- `LeafVersion::TapScript`. -/
def TAPSCRIPT : LeafVersion := ⟨0xc0, by decide⟩

/-- `varint_len`, src/v2/miniscript/mod.rs:143, src/v0/miniscript/util.rs:45. -/
def varintLen (n : Nat) : Nat := if n < 0xFD then 1 else if n ≤ 0xFFFF then 3 else if n ≤ 0xFFFFFFFF then 5 else 9

/-- `witness_size` on byte strings, src/v2/miniscript/mod.rs:134-141, src/v0/miniscript/util.rs:36-43. -/
def witnessSize (w : List Bytes) : Nat := (w.map List.length).sum + varintLen w.length

/-- One turn of the loop over the tap scripts, src/v2/miniscript/finalize.rs:336-366, src/v0/miniscript/finalizer.rs:66-99:
the witness for a leaf, if it can be made. -/
def tapCandidate (mall : Bool) (map : BMap (FixedBytes 20) L.xonly.T) (sat : Satisfier L) (cb : L.ctrl.T) (script : Bytes)
    (ver : LeafVersion) : Option (List Bytes) :=
  if ver ≠ TAPSCRIPT then none
  else
    match M.tapParse script with
    | none => none
    | some ms =>
      match M.tapSatisfy mall (M.tapSubstitute map ms) sat with
      | none => none
      | some wit => some (wit ++ [M.tapEncode (M.tapSubstitute map ms)] ++ [cb.bytes])

/-- The loop; `best` is `min_wit` (with its length). -/
def tapLoop (mall : Bool) (map : BMap (FixedBytes 20) L.xonly.T) (sat : Satisfier L) :
    List (L.ctrl.T × Bytes × LeafVersion) → Option (List Bytes × Nat) → Option (List Bytes × Nat)
  | [], best => best
  | (cb, script, ver) :: r, best =>
    match tapCandidate M mall map sat cb script ver with
    | none => tapLoop mall map sat r best
    | some wit =>
      match best with
      | some (w, n) =>
        if witnessSize wit > n then tapLoop mall map sat r (some (w, n))
        else tapLoop mall map sat r (some (wit, witnessSize wit))
      | none => tapLoop mall map sat r (some (wit, witnessSize wit))

/-- `construct_tap_witness`, src/v2/miniscript/finalize.rs:301-373, src/v0/miniscript/finalizer.rs:34-105; `keys` are the
keys the hash map is made from. The assertion panics if the script is not taproot. -/
def constructTapWitness (mall : Bool) (keys : List L.xonly.T) (spk : Bytes) (sat : Satisfier L) :
    Out (MsInputErr L) (List Bytes) :=
  if !isP2tr spk then .error (.panic "assertion failed: spk.is_p2tr()")
  else
    match sat.tapKeySpendSig with
    | some sig => .ok [tapSigCodec.ser sig]
    | none =>
      match tapLoop M mall (tapHashMap keys) sat sat.tapControlBlocks.l none with
      | some (w, _) => .ok w
      | none => .error (.err .couldNotSatisfyTr)

end Psbt
