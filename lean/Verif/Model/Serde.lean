/- Serialisation with serde (feature "serde"): src/serde_utils.rs, src/v2/dleq.rs:16-71, and the derived implementations of the raw
keys and of the parts the two versions share. -/
import Verif.Model.V2.Psbt
import Verif.Model.V0.Psbt
namespace Psbt

/-- The data serde hands to a format, and gets from it. Human-readable formats write `None` as `null` and `Some(v)` as `v`, structs
as maps with the names of the fields as keys; others write an explicit option, and structs as their sequence of fields. (Tags,
lengths and integer widths are not modelled, nor formats that differ from this.) -/
inductive SVal where
  | null
  | num (n : Int)
  | str (s : String)
  | bytes (b : Bytes)
  | opt (o : Option SVal)
  | seq (l : List SVal)
  | map (l : List (SVal × SVal))

/-- A format: what `is_human_readable` says, and whether strings are handed to the visitor as part of the input
(`serde_json::from_str`) or not (`serde_json::from_reader`, `from_value`). -/
structure Fmt where
  human : Bool
  borrows : Bool
  deriving DecidableEq

/-- `Serialize` and `Deserialize` of a type. Errors are not told apart. -/
structure SCodec (α : Type) where
  ser : Fmt → α → SVal
  de : Fmt → SVal → Option α

/-- `u8`: serde. -/
def u8S : SCodec UInt8 where
  ser _ a := .num a.toNat
  de _ v := match v with | .num n => if 0 ≤ n ∧ n < 256 then some (UInt8.ofNat n.toNat) else none | _ => none

variable {α β K V : Type}

/-- Every element of a list, or nothing. -/
def mapAll (g : SVal → Option α) : List SVal → Option (List α)
  | [] => some []
  | v :: l => do
    let a ← g v
    let as ← mapAll g l
    some (a :: as)

/-- `Vec<T>`: serde. -/
def vecS (c : SCodec α) : SCodec (List α) where
  ser f l := .seq (l.map (c.ser f))
  de f v := match v with | .seq l => mapAll (c.de f) l | _ => none

/-- `Option<T>`: serde. -/
def optS (c : SCodec α) : SCodec (Option α) where
  ser f o :=
    match o with
    | none => if f.human then .null else .opt none
    | some a => if f.human then c.ser f a else .opt (some (c.ser f a))
  de f v :=
    if f.human then
      match v with
      | .null => some none
      | v => (c.de f v).map some
    else
      match v with
      | .opt none => some none
      | .opt (some v) => (c.de f v).map some
      | _ => none

/-- Tuples of two: serde. -/
def pairS (c : SCodec α) (d : SCodec β) : SCodec (α × β) where
  ser f p := .seq [c.ser f p.1, d.ser f p.2]
  de f v :=
    match v with
    | .seq [a, b] => do
      let a ← c.de f a
      let b ← d.de f b
      some (a, b)
    | _ => none

/-- `ret.insert(key, value)` for every entry, a later entry replacing an earlier one. -/
def insertAll [OrdKey K] [DecidableEq K] (g : SVal → Option K) (h : SVal → Option V) : List (SVal × SVal) → BMap K V → Option (BMap K V)
  | [], m => some m
  | (k, v) :: l, m => do
    let k ← g k
    let v ← h v
    insertAll g h l (m.insert k v)

/-- `BTreeMap<K, V>`: serde. -/
def mapS [OrdKey K] [DecidableEq K] (ck : SCodec K) (cv : SCodec V) : SCodec (BMap K V) where
  ser f m := .map (m.l.map fun kv => (ck.ser f kv.1, cv.ser f kv.2))
  de f v := match v with | .map l => insertAll (ck.de f) (cv.de f) l .empty | _ => none

/-- A lower-case hexadecimal digit. -/
def hexLower (n : Nat) : Char := if n < 10 then Char.ofNat (n + 48) else Char.ofNat (n + 87)
/-- The value of a hexadecimal digit. -/
def hexVal (c : Char) : Option Nat :=
  if 48 ≤ c.toNat ∧ c.toNat ≤ 57 then some (c.toNat - 48)
  else if 97 ≤ c.toNat ∧ c.toNat ≤ 102 then some (c.toNat - 87)
  else if 65 ≤ c.toNat ∧ c.toNat ≤ 70 then some (c.toNat - 55)
  else none

/-- `SerializeBytesAsHex`, src/serde_utils.rs:9-20. -/
def toHex (b : Bytes) : String := String.ofList (b.flatMap fun x => [hexLower (x.toNat / 16), hexLower (x.toNat % 16)])

/-- The loop of `from_hex`. -/
def fromHexL : List Char → Option Bytes
  | [] => some []
  | [_] => none
  | a :: b :: l => do
    let h ← hexVal a
    let w ← hexVal b
    let r ← fromHexL l
    some (UInt8.ofNat (h * 16 + w) :: r)
/-- `FromHex::from_hex` of `Vec<u8>`. -/
def fromHex (s : String) : Option Bytes := fromHexL s.toList

/-- `hex_bytes` for `Vec<u8>`, src/serde_utils.rs:221-281. (A human-readable format that gives bytes instead of a string is not
modelled.) -/
def hexS : SCodec Bytes where
  ser f b := if f.human then .str (toHex b) else (vecS u8S).ser f b
  de f v := if f.human then (match v with | .str s => fromHex s | _ => none) else (vecS u8S).de f v

/-- `btreemap_byte_values`, src/serde_utils.rs:22-85. The value of an entry is read as `&str` (it is the argument of `from_hex`), which
is possible only if the format borrows strings. -/
def byteValuesS [OrdKey K] [DecidableEq K] (ck : SCodec K) : SCodec (BMap K Bytes) where
  ser f m :=
    if f.human then .map (m.l.map fun kv => (ck.ser f kv.1, .str (toHex kv.2))) else (mapS ck (vecS u8S)).ser f m
  de f v :=
    if f.human then
      match v with
      | .map l => insertAll (ck.de f) (fun v => match v with | .str s => if f.borrows then fromHex s else none | _ => none) l .empty
      | _ => none
    else (mapS ck (vecS u8S)).de f v

/-- The loop of the sequence visitors: `while let Some((key, value)) = a.next_element()? { ret.insert(key, value); }`. -/
def insertPairs [OrdKey K] [DecidableEq K] (g : SVal → Option (K × V)) : List SVal → BMap K V → Option (BMap K V)
  | [], m => some m
  | v :: l, m => do
    let kv ← g v
    insertPairs g l (m.insert kv.1 kv.2)

/-- `btreemap_as_seq`, src/serde_utils.rs:87-151. -/
def asSeqS [OrdKey K] [DecidableEq K] (ck : SCodec K) (cv : SCodec V) : SCodec (BMap K V) where
  ser f m := if f.human then .seq (m.l.map ((pairS ck cv).ser f)) else (mapS ck cv).ser f m
  de f v :=
    if f.human then (match v with | .seq l => insertPairs ((pairS ck cv).de f) l .empty | _ => none) else (mapS ck cv).de f v

/-- `btreemap_as_seq_byte_values`, src/serde_utils.rs:153-219: pairs with the value through `hex_bytes`. -/
def asSeqBytesS [OrdKey K] [DecidableEq K] (ck : SCodec K) : SCodec (BMap K Bytes) where
  ser f m := if f.human then .seq (m.l.map ((pairS ck hexS).ser f)) else (mapS ck (vecS u8S)).ser f m
  de f v :=
    if f.human then (match v with | .seq l => insertPairs ((pairS ck hexS).de f) l .empty | _ => none) else (mapS ck (vecS u8S)).de f v

/-- `DleqProof`, src/v2/dleq.rs:16-71. -/
def dleqS : SCodec (FixedBytes 64) where
  ser f p := if f.human then .str (toHex p.1) else .bytes p.1
  de f v :=
    if f.human then
      match v with
      | .str s => do
        let b ← fromHex s
        if h : b.length = 64 then some ⟨b, h⟩ else none
      | _ => none
    else
      match v with
      | .bytes b => if h : b.length = 64 then some ⟨b, h⟩ else none
      | _ => none

/-- Derived `Serialize` of a struct. -/
def structSer (f : Fmt) (fs : List (String × SVal)) : SVal :=
  if f.human then .map (fs.map fun nv => (.str nv.1, nv.2)) else .seq (fs.map (·.2))

/-- The entries of a map whose keys are names of fields; keys that are not strings are an error. -/
def knownFields (names : List String) : List (SVal × SVal) → Option (List (String × SVal))
  | [] => some []
  | (k, v) :: l =>
    match k with
    | .str n => do
      let r ← knownFields names l
      some (if n ∈ names then (n, v) :: r else r)
    | _ => none

/-- Derived `Deserialize` of a struct: from a map, in which other keys are ignored and a field must not occur twice, or from a
sequence, in which every field has to be there. -/
def structDe (names : List String) (v : SVal) : Option (List (String × SVal)) :=
  match v with
  | .map l => do
    let fs ← knownFields names l
    if (fs.map (·.1)).Nodup then some fs else none
  | .seq l => if l.length = names.length then some (names.zip l) else none
  | _ => none

/-- A field: an error if it is missing. -/
def reqField (c : SCodec α) (f : Fmt) (fs : List (String × SVal)) (name : String) : Option α :=
  match fs.lookup name with
  | some v => c.de f v
  | none => none
/-- A field of type `Option` (without `with`): `None` if it is missing. -/
def optField (c : SCodec α) (f : Fmt) (fs : List (String × SVal)) (name : String) : Option (Option α) :=
  match fs.lookup name with
  | some v => (optS c).de f v
  | none => some none

/-- `raw::Key`, src/raw.rs:77-84, src/v0/bitcoin/raw.rs:23-31. -/
def rawKeyS : SCodec RawKey where
  ser f k := structSer f [("type_value", u8S.ser f k.ty), ("key", hexS.ser f k.key)]
  de f v := do
    let fs ← structDe ["type_value", "key"] v
    let ty ← reqField u8S f fs "type_value"
    let key ← reqField hexS f fs "key"
    some ⟨ty, key⟩

/-- `raw::Pair`, src/raw.rs:30-39, src/v0/bitcoin/raw.rs:36-44. -/
def pairRawS : SCodec Pair where
  ser f p := structSer f [("key", rawKeyS.ser f p.key), ("value", hexS.ser f p.value)]
  de f v := do
    let fs ← structDe ["key", "value"] v
    let key ← reqField rawKeyS f fs "key"
    let value ← reqField hexS f fs "value"
    some ⟨key, value⟩

/-- `raw::ProprietaryKey` (with the default subtype `u8`), src/raw.rs:138-152, src/v0/bitcoin/raw.rs:52-66. -/
def propKeyS : SCodec PropKey where
  ser f k := structSer f [("prefix", hexS.ser f k.pre), ("subtype", u8S.ser f k.subtype), ("key", hexS.ser f k.key)]
  de f v := do
    let fs ← structDe ["prefix", "subtype", "key"] v
    let pre ← reqField hexS f fs "prefix"
    let subtype ← reqField u8S f fs "subtype"
    let key ← reqField hexS f fs "key"
    some ⟨pre, subtype, key⟩

/-- The values `serde_json` can write: the keys of maps are strings. -/
inductive Jsonable : SVal → Prop
  | null : Jsonable .null
  | num (n) : Jsonable (.num n)
  | str (s) : Jsonable (.str s)
  | seq {l} : (∀ v ∈ l, Jsonable v) → Jsonable (.seq l)
  | map {l} : (∀ kv ∈ l, ∃ s, kv.1 = .str s) → (∀ kv ∈ l, Jsonable kv.2) → Jsonable (.map l)

/-- What is assumed of the implementations that are not modelled: values are read back from what is written for them; what is written in a
human-readable format is not `null`, and has strings as the keys of maps. -/
structure SCodec.Good (c : SCodec α) : Prop where
  rt : ∀ f a, c.de f (c.ser f a) = some a
  notNull : ∀ (f : Fmt) a, f.human = true → c.ser f a ≠ .null
  json : ∀ (f : Fmt) a, f.human = true → Jsonable (c.ser f a)

/-- Types that human-readable formats write as strings. -/
def SCodec.IsStr (c : SCodec α) : Prop := ∀ (f : Fmt) a, f.human = true → ∃ s, c.ser f a = .str s

/-- The implementations of rust-bitcoin, for the types that occur in PSBTs, and those of serde for `u32` and `usize`. -/
structure SerdeLib (L : Lib) where
  u32 : SCodec UInt32
  usize : SCodec UInt64
  txid : SCodec Hash32
  sequence : SCodec UInt32
  time : SCodec Time
  height : SCodec Height
  tx : SCodec Tx
  txOut : SCodec TxOut
  pubkey : SCodec L.pubkey.T
  ecdsaSig : SCodec (EcdsaSig L)
  script : SCodec Bytes
  secpPk : SCodec L.secpPk.T
  fingerprint : SCodec (FixedBytes 4)
  path : SCodec (List UInt32)
  witness : SCodec (List Bytes)
  ripemd160 : SCodec (FixedBytes 20)
  sha256 : SCodec (FixedBytes 32)
  hash160 : SCodec (FixedBytes 20)
  sha256d : SCodec (FixedBytes 32)
  tapSig : SCodec TapSig
  xonly : SCodec L.xonly.T
  leafHash : SCodec Hash32
  ctrl : SCodec L.ctrl.T
  leafVersion : SCodec LeafVersion
  nodeHash : SCodec Hash32
  compressed : SCodec L.compressed.T
  txVersion : SCodec UInt32
  lockTime : SCodec UInt32
  xpub : SCodec L.xpub.T
  amount : SCodec UInt64
  tapTree : SCodec (TapTree L)

/-- All of them are good, and those that are keys of maps are written as strings. -/
structure SerdeLib.Good {L : Lib} (S : SerdeLib L) : Prop where
  u32 : S.u32.Good
  usize : S.usize.Good
  txid : S.txid.Good
  sequence : S.sequence.Good
  time : S.time.Good
  height : S.height.Good
  tx : S.tx.Good
  txOut : S.txOut.Good
  pubkey : S.pubkey.Good
  ecdsaSig : S.ecdsaSig.Good
  script : S.script.Good
  secpPk : S.secpPk.Good
  fingerprint : S.fingerprint.Good
  path : S.path.Good
  witness : S.witness.Good
  ripemd160 : S.ripemd160.Good
  sha256 : S.sha256.Good
  hash160 : S.hash160.Good
  sha256d : S.sha256d.Good
  tapSig : S.tapSig.Good
  xonly : S.xonly.Good
  leafHash : S.leafHash.Good
  ctrl : S.ctrl.Good
  leafVersion : S.leafVersion.Good
  nodeHash : S.nodeHash.Good
  compressed : S.compressed.Good
  txVersion : S.txVersion.Good
  lockTime : S.lockTime.Good
  xpub : S.xpub.Good
  amount : S.amount.Good
  tapTree : S.tapTree.Good
  pubkeyStr : S.pubkey.IsStr
  ripemd160Str : S.ripemd160.IsStr
  sha256Str : S.sha256.IsStr
  hash160Str : S.hash160.IsStr
  sha256dStr : S.sha256d.IsStr
  xpubStr : S.xpub.IsStr

variable {L : Lib}
/-- `KeySource`. -/
def SerdeLib.keySource (S : SerdeLib L) : SCodec KeySource := pairS S.fingerprint S.path

/-- `PsbtSighashType`, src/sighash_type.rs:16-19. -/
def SerdeLib.sighashType (S : SerdeLib L) : SCodec UInt32 where
  ser f t := structSer f [("inner", S.u32.ser f t)]
  de f v := do
    let fs ← structDe ["inner"] v
    reqField S.u32 f fs "inner"

end Psbt
