/- The PSBT v0 output map: src/v0/bitcoin/map/output.rs. -/
import Verif.Model.V0.Common
namespace Psbt.V0
open Psbt

/-- `Output`, src/v0/bitcoin/map/output.rs:36-58. -/
structure Output (L : Lib) where
  redeemScript : Option Bytes
  witnessScript : Option Bytes
  bip32Derivation : BMap L.secpPk.T KeySource
  tapInternalKey : Option L.xonly.T
  tapTree : Option (TapTree L)
  tapKeyOrigins : BMap L.xonly.T (List Hash32 × KeySource)
  proprietary : BMap PropKey Bytes
  unknown : BMap RawKey Bytes
  deriving DecidableEq

/-- `Output::default()`: derived, every field empty (src/v0/bitcoin/map/output.rs:36). -/
def Output.default (L : Lib) : Output L where
  redeemScript := none
  witnessScript := none
  bip32Derivation := .empty
  tapInternalKey := none
  tapTree := none
  tapKeyOrigins := .empty
  proprietary := .empty
  unknown := .empty

/-- Which field a key type belongs to: the match arms of src/v0/bitcoin/map/output.rs:65-114; `excluded` are the PSBT v2 types. -/
inductive OutSlot where
  | redeemScript | witnessScript | bip32 | tapInternalKey | tapTree | tapKeyOrigins | proprietary | unknown
  | excluded
  deriving DecidableEq, Repr

/-- The match of src/v0/bitcoin/map/output.rs:65-114. -/
def outSlot (t : UInt8) : OutSlot :=
  if t = PSBT_OUT_REDEEM_SCRIPT then .redeemScript
  else if t = PSBT_OUT_WITNESS_SCRIPT then .witnessScript
  else if t = PSBT_OUT_BIP32_DERIVATION then .bip32
  else if t = PSBT_OUT_TAP_INTERNAL_KEY then .tapInternalKey
  else if t = PSBT_OUT_TAP_TREE then .tapTree
  else if t = PSBT_OUT_TAP_BIP32_DERIVATION then .tapKeyOrigins
  else if t = PSBT_OUT_PROPRIETARY then .proprietary
  else if t = PSBT_OUT_AMOUNT ∨ t = PSBT_OUT_SCRIPT then .excluded
  else .unknown

/-- `Output::insert_pair`, src/v0/bitcoin/map/output.rs:62-117. -/
def Output.insertPair {L : Lib} (o : Output L) (p : Pair) : Except Err (Output L) :=
  match outSlot p.key.ty with
  | .redeemScript => do let f ← insOpt rawCodec o.redeemScript p; .ok { o with redeemScript := f }
  | .witnessScript => do let f ← insOpt rawCodec o.witnessScript p; .ok { o with witnessScript := f }
  | .bip32 => do
    let f ← insMap (secpPkCodec L) keySourceCodec o.bip32Derivation p; .ok { o with bip32Derivation := f }
  | .tapInternalKey => do let f ← insOpt (xonlyCodec L) o.tapInternalKey p; .ok { o with tapInternalKey := f }
  | .tapTree => do let f ← insOpt (tapTreeCodec L) o.tapTree p; .ok { o with tapTree := f }
  | .tapKeyOrigins => do
    let f ← insMap (xonlyCodec L) tapOriginCodec o.tapKeyOrigins p; .ok { o with tapKeyOrigins := f }
  | .proprietary => do let f ← insProp o.proprietary p; .ok { o with proprietary := f }
  | .unknown => do let f ← insUnknown o.unknown p; .ok { o with unknown := f }
  | .excluded => .error (.excludedKey p.key.ty)

/-- `Output::decode`, src/v0/bitcoin/macros.rs:59-77. Returns the map and the unread bytes. -/
def Output.decode (L : Lib) (b : Bytes) : Except Err (Output L × Bytes) :=
  decodeMap Output.insertPair .ser (Output.default L) b

/-- `Output::get_pairs`, src/v0/bitcoin/map/output.rs:134-170. -/
def Output.getPairs {L : Lib} (o : Output L) : List Pair :=
  List.flatten [
    emitOpt PSBT_OUT_REDEEM_SCRIPT rawCodec o.redeemScript,
    emitOpt PSBT_OUT_WITNESS_SCRIPT rawCodec o.witnessScript,
    emitMap PSBT_OUT_BIP32_DERIVATION (secpPkCodec L) keySourceCodec o.bip32Derivation,
    emitOpt PSBT_OUT_TAP_INTERNAL_KEY (xonlyCodec L) o.tapInternalKey,
    emitOpt PSBT_OUT_TAP_TREE (tapTreeCodec L) o.tapTree,
    emitMap PSBT_OUT_TAP_BIP32_DERIVATION (xonlyCodec L) tapOriginCodec o.tapKeyOrigins,
    emitProp o.proprietary,
    emitUnknown o.unknown]

end Psbt.V0
