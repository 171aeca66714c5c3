/- Errors and insertions common to the PSBT v2 maps. -/
import Verif.Model.Maps
import Verif.Model.Consts
namespace Psbt

/-- `InsertPairError` of the three v2 maps (src/v2/map/global.rs:615-648, input.rs:913-930, output.rs:393-406). The
three Rust enums overlap; the model has one enum with the union of their variants. -/
inductive InsErr where
  | duplicateKey (k : RawKey)
  | invalidKeyDataEmpty (k : RawKey)
  | invalidKeyDataNotEmpty (k : RawKey)
  | deser (e : SerErr)
  | consensus (e : CErr)
  | valueWrongLength (got want : Nat)
  | keyWrongLength (got want : Nat)
  | wrongVersion (v : UInt32)
  | xpubInvalidFingerprint
  | xpubInvalidPath (n : Nat)
  | bip32
  | duplicateXpub (k : KeySource)
  | invalidProprietaryKey
  | excludedKey (t : UInt8)
  | hashPreimage (t : HashTy)
  deriving DecidableEq

instance : MapErr InsErr where
  dup := .duplicateKey
  keyEmpty := .invalidKeyDataEmpty
  keyNotEmpty := .invalidKeyDataNotEmpty
  deser := .deser
  preimage := .hashPreimage

/-- `DecodeError` of the three v2 maps (src/v2/map/global.rs:543-562, input.rs:863-877, output.rs:347-360), as one
enum. -/
inductive DecErr where
  | insertPair (e : InsErr)
  | deserPair (e : SerErr)
  | missingVersion
  | missingTxVersion
  | missingInputCount
  | missingOutputCount
  | fieldMismatch
  | missingPreviousTxid
  | missingSpentOutputIndex
  | missingValue
  | missingScriptPubkey
  | labelWithoutInfo
  deriving DecidableEq

/-- Silent-payment maps: `v2_impl_psbt_insert_sp_pair!`, src/macros.rs:134-169. The value is parsed before the
duplicate check. `want` is the value length reported on failure. -/
def insSp {V : Type} (L : Lib) (parseV : Bytes → Option V) (want : Nat) (m : BMap L.compressed.T V) (p : Pair) :
    Except InsErr (BMap L.compressed.T V) :=
  if p.key.key = [] then .error (.invalidKeyDataEmpty p.key)
  else
    match L.compressed.parse p.key.key with
    | none => .error (.keyWrongLength p.key.key.length 33)
    | some k =>
      match parseV p.value with
      | none => .error (.valueWrongLength p.value.length want)
      | some v =>
        match m.get k with
        | none => .ok (m.insert k v)
        | some _ => .error (.duplicateKey p.key)

/-- `DleqProof::try_from(&[u8])`, src/v2/dleq.rs:93-101. -/
def dleq? (b : Bytes) : Option (FixedBytes 64) := if h : b.length = 64 then some ⟨b, h⟩ else none

/-- Emission of a silent-payment map (src/v2/map/global.rs:506-526, src/v2/map/input.rs:759-776); nothing without the
feature. -/
def emitSp {V : Type} (L : Lib) (t : UInt8) (ser : V → Bytes) (m : BMap L.compressed.T V) : List Pair :=
  if L.sp then m.l.map fun kv => ⟨⟨t, kv.1.bytes⟩, ser kv.2⟩ else []

end Psbt
