/- The PSBT v2 output map: src/v2/map/output.rs. -/
import Verif.Model.V2.Common
namespace Psbt.V2
open Psbt

/-- `Output`, src/v2/map/output.rs:29-66. The silent-payment fields exist in Rust only with the feature; the model
keeps them empty without it. -/
structure Output (L : Lib) where
  amount : UInt64
  scriptPubkey : Bytes
  redeemScript : Option Bytes
  witnessScript : Option Bytes
  bip32Derivations : BMap L.secpPk.T KeySource
  tapInternalKey : Option L.xonly.T
  tapTree : Option (TapTree L)
  tapKeyOrigins : BMap L.xonly.T (List Hash32 × KeySource)
  spV0Info : Option Bytes
  spV0Label : Option UInt32
  proprietaries : BMap PropKey Bytes
  unknowns : BMap RawKey Bytes
  deriving DecidableEq

/-- `Output::new`, src/v2/map/output.rs:70-87. -/
def Output.new (L : Lib) (o : TxOut) : Output L where
  amount := o.value
  scriptPubkey := o.scriptPubkey
  redeemScript := none
  witnessScript := none
  bip32Derivations := .empty
  tapInternalKey := none
  tapTree := none
  tapKeyOrigins := .empty
  spV0Info := none
  spV0Label := none
  proprietaries := .empty
  unknowns := .empty

/-- `Output::tx_out`, src/v2/map/output.rs:104-106. -/
def Output.txOut {L : Lib} (o : Output L) : TxOut := ⟨o.amount, o.scriptPubkey⟩

/-- Which field a key type of the output map belongs to: the match arms of src/v2/map/output.rs:141-232. -/
inductive OutSlot where
  | amount | script | redeemScript | witnessScript | bip32 | tapInternalKey | tapTree | tapKeyOrigins
  | spInfo | spLabel | proprietary | unknown
  deriving DecidableEq, Repr

/-- The match of src/v2/map/output.rs:141-232. -/
def outSlot (sp : Bool) (t : UInt8) : OutSlot :=
  if t = PSBT_OUT_AMOUNT then .amount
  else if t = PSBT_OUT_SCRIPT then .script
  else if t = PSBT_OUT_REDEEM_SCRIPT then .redeemScript
  else if t = PSBT_OUT_WITNESS_SCRIPT then .witnessScript
  else if t = PSBT_OUT_BIP32_DERIVATION then .bip32
  else if t = PSBT_OUT_PROPRIETARY then .proprietary
  else if t = PSBT_OUT_TAP_INTERNAL_KEY then .tapInternalKey
  else if t = PSBT_OUT_TAP_TREE then .tapTree
  else if t = PSBT_OUT_TAP_BIP32_DERIVATION then .tapKeyOrigins
  else if sp = true ∧ t = PSBT_OUT_SP_V0_INFO then .spInfo
  else if sp = true ∧ t = PSBT_OUT_SP_V0_LABEL then .spLabel
  else .unknown

/-- src/v2/map/output.rs:142-148. -/
def insAmount (a : UInt64) (p : Pair) : Except InsErr UInt64 :=
  if a ≠ 0 then .error (.duplicateKey p.key) else mapErr .deser (amountCodec.deser p.value)

/-- src/v2/map/output.rs:149-155. -/
def insSpk (s : Bytes) (p : Pair) : Except InsErr Bytes :=
  if s ≠ [] then .error (.duplicateKey p.key) else mapErr .deser (rawCodec.deser p.value)

/-- src/v2/map/output.rs:198-209. -/
def insSpInfo (o : Option Bytes) (p : Pair) : Except InsErr (Option Bytes) :=
  match o with
  | some _ => .error (.duplicateKey p.key)
  | none =>
    if p.key.key ≠ [] then .error (.invalidKeyDataNotEmpty p.key)
    else if p.value.length ≠ 66 then .error (.valueWrongLength p.value.length 66)
    else .ok (some p.value)

/-- src/v2/map/output.rs:211-224. -/
def insSpLabel (o : Option UInt32) (p : Pair) : Except InsErr (Option UInt32) :=
  match o with
  | some _ => .error (.duplicateKey p.key)
  | none =>
    if p.key.key ≠ [] then .error (.invalidKeyDataNotEmpty p.key)
    else if p.value.length ≠ 4 then .error (.valueWrongLength p.value.length 4)
    else .ok (some (UInt32.ofNat (leDec p.value)))

/-- `Output::insert_pair`, src/v2/map/output.rs:138-236. -/
def Output.insertPair {L : Lib} (o : Output L) (p : Pair) : Except InsErr (Output L) :=
  match outSlot L.sp p.key.ty with
  | .amount => do let f ← insAmount o.amount p; .ok { o with amount := f }
  | .script => do let f ← insSpk o.scriptPubkey p; .ok { o with scriptPubkey := f }
  | .redeemScript => do let f ← insOpt rawCodec o.redeemScript p; .ok { o with redeemScript := f }
  | .witnessScript => do let f ← insOpt rawCodec o.witnessScript p; .ok { o with witnessScript := f }
  | .bip32 => do
    let f ← insMap (secpPkCodec L) keySourceCodec o.bip32Derivations p; .ok { o with bip32Derivations := f }
  | .tapInternalKey => do let f ← insOpt (xonlyCodec L) o.tapInternalKey p; .ok { o with tapInternalKey := f }
  | .tapTree => do let f ← insOpt (tapTreeCodec L) o.tapTree p; .ok { o with tapTree := f }
  | .tapKeyOrigins => do
    let f ← insMap (xonlyCodec L) tapOriginCodec o.tapKeyOrigins p; .ok { o with tapKeyOrigins := f }
  | .spInfo => do let f ← insSpInfo o.spV0Info p; .ok { o with spV0Info := f }
  | .spLabel => do let f ← insSpLabel o.spV0Label p; .ok { o with spV0Label := f }
  | .proprietary => do let f ← insProp o.proprietaries p; .ok { o with proprietaries := f }
  | .unknown => do let f ← insUnknown o.unknowns p; .ok { o with unknowns := f }

/-- The placeholder output decoding starts from, src/v2/map/output.rs:110-111. -/
def Output.placeholder (L : Lib) : Output L := Output.new L ⟨0, []⟩

/-- `Output::decode`, src/v2/map/output.rs:108-136. -/
def Output.decode (L : Lib) (b : Bytes) : Except DecErr (Output L × Bytes) := do
  let (o, r) ← decodeMap (fun o p => mapErr .insertPair (Output.insertPair o p)) .deserPair (Output.placeholder L) b
  if o.amount = 0 then .error .missingValue
  else if L.sp = false ∧ o.scriptPubkey = [] then .error .missingScriptPubkey
  else if L.sp = true ∧ o.spV0Label.isSome ∧ o.spV0Info.isNone then .error .labelWithoutInfo
  else .ok (o, r)

/-- The silent-payment pairs of an output, src/v2/map/output.rs:306-320. -/
def emitSpInfo (L : Lib) (o : Option Bytes) : List Pair :=
  if L.sp then emitOpt PSBT_OUT_SP_V0_INFO rawCodec o else []
def emitSpLabel (L : Lib) (o : Option UInt32) : List Pair :=
  if L.sp then emitOpt PSBT_OUT_SP_V0_LABEL u32Codec o else []

/-- `Output::get_pairs`, src/v2/map/output.rs:268-332. -/
def Output.getPairs {L : Lib} (o : Output L) : List Pair :=
  List.flatten [
    [bare PSBT_OUT_AMOUNT (amountCodec.ser o.amount)],
    [bare PSBT_OUT_SCRIPT o.scriptPubkey],
    emitOpt PSBT_OUT_REDEEM_SCRIPT rawCodec o.redeemScript,
    emitOpt PSBT_OUT_WITNESS_SCRIPT rawCodec o.witnessScript,
    emitMap PSBT_OUT_BIP32_DERIVATION (secpPkCodec L) keySourceCodec o.bip32Derivations,
    emitOpt PSBT_OUT_TAP_INTERNAL_KEY (xonlyCodec L) o.tapInternalKey,
    emitOpt PSBT_OUT_TAP_TREE (tapTreeCodec L) o.tapTree,
    emitMap PSBT_OUT_TAP_BIP32_DERIVATION (xonlyCodec L) tapOriginCodec o.tapKeyOrigins,
    emitSpInfo L o.spV0Info,
    emitSpLabel L o.spV0Label,
    emitProp o.proprietaries,
    emitUnknown o.unknowns]

end Psbt.V2
