/- The PSBT v0: its global map (src/v0/bitcoin/map/global.rs), binary form (src/v0/bitcoin/serialize.rs:43-113) and
creation (src/v0/bitcoin/mod.rs:92-124). -/
import Verif.Model.V0.Input
import Verif.Model.V0.Output
import Verif.Model.V2.Global
import Verif.Model.V2.Psbt
namespace Psbt.V0
open Psbt

/-- `Psbt`, src/v0/bitcoin/mod.rs:43-62. All fields are public in Rust. -/
structure Psbt (L : Lib) where
  unsignedTx : Tx
  version : UInt32
  xpub : BMap L.xpub.T KeySource
  proprietary : BMap PropKey Bytes
  unknown : BMap RawKey Bytes
  inputs : List (Input L)
  outputs : List (Output L)
  deriving DecidableEq

/-- The local variables of `Psbt::decode_global`, src/v0/bitcoin/map/global.rs:88-92. -/
structure GlobalAcc (L : Lib) where
  tx : Option Tx
  version : Option UInt32
  xpub : BMap L.xpub.T KeySource
  proprietary : BMap PropKey Bytes
  unknown : BMap RawKey Bytes
  deriving DecidableEq

/-- All variables at their start values. -/
def GlobalAcc.start (L : Lib) : GlobalAcc L where
  tx := none
  version := none
  xpub := .empty
  proprietary := .empty
  unknown := .empty

/-- Which variable a key type of the global map belongs to: the match arms of src/v0/bitcoin/map/global.rs:97-209. -/
inductive GlSlot where
  | tx | xpub | version | proprietary | excluded | unknown
  deriving DecidableEq, Repr

/-- The match of src/v0/bitcoin/map/global.rs:97-209. -/
def glSlot (t : UInt8) : GlSlot :=
  if t = PSBT_GLOBAL_UNSIGNED_TX then .tx
  else if t = PSBT_GLOBAL_XPUB then .xpub
  else if t = PSBT_GLOBAL_VERSION then .version
  else if t = PSBT_GLOBAL_PROPRIETARY then .proprietary
  else if t = PSBT_GLOBAL_TX_VERSION ∨ t = PSBT_GLOBAL_TX_MODIFIABLE ∨ t = PSBT_GLOBAL_FALLBACK_LOCKTIME
      ∨ t = PSBT_GLOBAL_INPUT_COUNT ∨ t = PSBT_GLOBAL_OUTPUT_COUNT then .excluded
  else .unknown

/-- src/v0/bitcoin/map/global.rs:98-127. -/
def insTx (o : Option Tx) (p : Pair) : Except Err (Option Tx) :=
  if p.key.key = [] then
    match o with
    | none => do
      let (t, r) ← mapErr .consensus (decTxLegacy p.value)
      if r ≠ [] then .error .partialDataConsumption else .ok (some t)
    | some _ => .error (.duplicateKey p.key)
  else .error (.invalidKey p.key)

/-- src/v0/bitcoin/map/global.rs:128-167. -/
def insXpub {L : Lib} (m : BMap L.xpub.T KeySource) (p : Pair) : Except Err (BMap L.xpub.T KeySource) :=
  if p.key.key = [] then .error .xpubKey
  else
    match L.xpub.parse p.key.key with
    | none => .error .xpubKey
    | some x =>
      if h : p.value = [] ∨ p.value.length % 4 ≠ 0 then .error .xpubKey
      else
        match m.get x with
        | some _ => .error .xpubKey
        | none =>
          .ok (m.insert x (⟨p.value.take 4, by
            simp only [not_or, Decidable.not_not] at h
            have := List.length_pos_iff.mpr h.1
            simp; omega⟩, V2.readPath (p.value.drop 4)))

/-- src/v0/bitcoin/map/global.rs:168-194. -/
def insVersion (o : Option UInt32) (p : Pair) : Except Err (Option UInt32) :=
  if p.key.key = [] then
    match o with
    | none =>
      if p.value.length ≠ 4 then .error .version
      else do
        let (v, _) ← mapErr .consensus (decU32 p.value)
        if v ≠ 0 then .error .version else .ok (some v)
    | some _ => .error (.duplicateKey p.key)
  else .error (.invalidKey p.key)

/-- One turn of the loop of `Psbt::decode_global`, src/v0/bitcoin/map/global.rs:96-210. -/
def GlobalAcc.insertPair {L : Lib} (g : GlobalAcc L) (p : Pair) : Except Err (GlobalAcc L) :=
  match glSlot p.key.ty with
  | .tx => do let f ← insTx g.tx p; .ok { g with tx := f }
  | .xpub => do let f ← insXpub g.xpub p; .ok { g with xpub := f }
  | .version => do let f ← insVersion g.version p; .ok { g with version := f }
  | .proprietary => do let f ← insProp g.proprietary p; .ok { g with proprietary := f }
  | .excluded => .error (.excludedKey p.key.ty)
  | .unknown => do let f ← insUnknown g.unknown p; .ok { g with unknown := f }

/-- `Psbt::decode_global`, src/v0/bitcoin/map/global.rs:86-234. The reader is limited to `MAX_VEC_SIZE` bytes
(`r.take(..)`), so the global map must end within them. Returns the unread bytes. -/
def decodeGlobal (L : Lib) (b : Bytes) : Except Err (Psbt L × Bytes) := do
  let (g, r) ← decodeMap GlobalAcc.insertPair .ser (GlobalAcc.start L) (b.take MAX_VEC_SIZE)
  match g.tx with
  | none => .error .mustHaveUnsignedTx
  | some tx =>
    .ok ({
      unsignedTx := tx
      version := g.version.getD 0
      xpub := g.xpub
      proprietary := g.proprietary
      unknown := g.unknown
      inputs := []
      outputs := [] }, r ++ b.drop MAX_VEC_SIZE)

/-- `Psbt::get_pairs`: the global map, src/v0/bitcoin/map/global.rs:36-82. -/
def Psbt.getPairs {L : Lib} (p : Psbt L) : List Pair :=
  List.flatten [
    [bare PSBT_GLOBAL_UNSIGNED_TX (encTxLegacy p.unsignedTx)],
    p.xpub.l.map (fun kv => ⟨⟨PSBT_GLOBAL_XPUB, kv.1.bytes⟩, keySourceCodec.ser kv.2⟩),
    if p.version > 0 then [bare PSBT_GLOBAL_VERSION (u32Codec.ser p.version)] else [],
    emitProp p.proprietary,
    emitUnknown p.unknown]

/-- `Psbt::serialize`, src/v0/bitcoin/serialize.rs:48-67. -/
def Psbt.serialize {L : Lib} (p : Psbt L) : Bytes :=
  V2.MAGIC ++ [0xff] ++ serializeMap p.getPairs
    ++ p.inputs.flatMap (fun i => serializeMap i.getPairs)
    ++ p.outputs.flatMap (fun o => serializeMap o.getPairs)

/-- `Psbt::unsigned_tx_checks`, src/v0/bitcoin/mod.rs:92-104: input by input, first the scriptSig, then the witness. -/
def txInChecks : List TxIn → Except Err Unit
  | [] => .ok ()
  | i :: is =>
    if i.scriptSig ≠ [] then .error .unsignedTxHasScriptSigs
    else if i.witness ≠ [] then .error .unsignedTxHasScriptWitnesses
    else txInChecks is

/-- `Psbt::unsigned_tx_checks`, src/v0/bitcoin/mod.rs:92-104. -/
def Psbt.unsignedTxChecks {L : Lib} (p : Psbt L) : Except Err Unit := txInChecks p.unsignedTx.input

/-- `Psbt::from_unsigned_tx`, src/v0/bitcoin/mod.rs:111-124. -/
def Psbt.fromUnsignedTx (L : Lib) (tx : Tx) : Except Err (Psbt L) := do
  let p : Psbt L := {
    inputs := List.replicate tx.input.length (Input.default L)
    outputs := List.replicate tx.output.length (Output.default L)
    unsignedTx := tx
    xpub := .empty
    version := 0
    proprietary := .empty
    unknown := .empty }
  p.unsignedTxChecks
  .ok p

/-- `Psbt::deserialize`, src/v0/bitcoin/serialize.rs:70-113. `L.inputSize` and `L.outputSize` stand for the sizes of
the v0 map structs here. Bytes after the last map are not looked at. -/
def Psbt.deserialize (L : Lib) (b : Bytes) : Out Err (Psbt L) := do
  if b.take 4 ≠ V2.MAGIC then .error (.err .invalidMagic)
  else if b[4]? ≠ some 0xff then .error (.err .invalidSeparator)
  else
    let (global, d) ← V2.orFail id (decodeGlobal L (b.drop 5))
    V2.orFail id global.unsignedTxChecks
    if capacityOverflow global.unsignedTx.input.length L.inputSize then .error (.panic "capacity overflow")
    else
      let (inputs, d) ← V2.orFail id (V2.decodeN (Input.decode L) global.unsignedTx.input.length d)
      if capacityOverflow global.unsignedTx.output.length L.outputSize then .error (.panic "capacity overflow")
      else
        let (outputs, _) ← V2.orFail id (V2.decodeN (Output.decode L) global.unsignedTx.output.length d)
        .ok { global with inputs, outputs }

end Psbt.V0
