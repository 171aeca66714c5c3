/-
The pieces every key-value map of the crate is made of: the insertion macros, the emission macros, the decode loop
and the map serialisation.
-/
import Verif.Model.Raw
namespace Psbt

/-- `HashType`, src/v2/map/input.rs:1006-1017 and src/v0/bitcoin/error.rs. -/
inductive HashTy where
  | ripemd | sha256 | hash160 | hash256
  deriving DecidableEq, Repr

/-- The error constructors shared by the insertion code of all maps. v2 maps use `InsertPairError`, v0 maps use
`v0::bitcoin::Error`. -/
class MapErr (ε : Type) where
  dup : RawKey → ε
  keyEmpty : RawKey → ε
  keyNotEmpty : RawKey → ε
  deser : SerErr → ε
  preimage : HashTy → ε

section
variable {ε : Type} [MapErr ε] {α K V : Type} [OrdKey K] [DecidableEq K]

/-- Unkeyed field: `v2_impl_psbt_insert_pair!`, src/macros.rs:52-63; v0: `impl_psbt_insert_pair!`,
src/v0/bitcoin/macros.rs:88-100. -/
def insOpt (c : Codec α) (o : Option α) (p : Pair) : Except ε (Option α) :=
  if p.key.key = [] then
    match o with
    | none => do
      let v ← mapErr MapErr.deser (c.deser p.value)
      .ok (some v)
    | some _ => .error (MapErr.dup p.key)
  else .error (MapErr.keyNotEmpty p.key)

/-- Keyed field: `v2_impl_psbt_insert_pair!`, src/macros.rs:64-77; v0: src/v0/bitcoin/macros.rs:101-115. -/
def insMap (ck : Codec K) (cv : Codec V) (m : BMap K V) (p : Pair) : Except ε (BMap K V) :=
  if p.key.key = [] then .error (MapErr.keyEmpty p.key)
  else do
    let k ← mapErr MapErr.deser (ck.deser p.key.key)
    match m.get k with
    | none => do
      let v ← mapErr MapErr.deser (cv.deser p.value)
      .ok (m.insert k v)
    | some _ => .error (MapErr.dup p.key)

/-- Hash preimages: `psbt_insert_hash_pair`, src/v2/map/input.rs:791-822; v0: src/v0/bitcoin/map/input.rs:429-457. -/
def insHash {n : Nat} (h : Bytes → FixedBytes n) (ty : HashTy) (m : BMap (FixedBytes n) Bytes) (p : Pair) :
    Except ε (BMap (FixedBytes n) Bytes) :=
  if p.key.key = [] then .error (MapErr.keyEmpty p.key)
  else do
    let k ← mapErr MapErr.deser ((hashCodec n).deser p.key.key)
    match m.get k with
    | none => if h p.value ≠ k then .error (MapErr.preimage ty) else .ok (m.insert k p.value)
    | some _ => .error (MapErr.dup p.key)

/-- Proprietary keys of inputs and outputs: src/v2/map/input.rs:580-589, src/v2/map/output.rs:172-181,
src/v0/bitcoin/map/input.rs:277-285, src/v0/bitcoin/map/output.rs:83-91. -/
def insProp (m : BMap PropKey Bytes) (p : Pair) : Except ε (BMap PropKey Bytes) := do
  let k ← mapErr MapErr.deser (PropKey.ofKey p.key)
  match m.get k with
  | none => .ok (m.insert k p.value)
  | some _ => .error (MapErr.dup p.key)

/-- Unknown keys: src/v2/map/input.rs:591-597, src/v2/map/output.rs:226-232, src/v2/map/global.rs:330-337,
src/v0/bitcoin/map/input.rs:294-299, src/v0/bitcoin/map/output.rs:110-113. -/
def insUnknown (m : BMap RawKey Bytes) (p : Pair) : Except ε (BMap RawKey Bytes) :=
  match m.get p.key with
  | none => .ok (m.insert p.key p.value)
  | some _ => .error (MapErr.dup p.key)

end

section
variable {α K V : Type} [OrdKey K]

/-- A pair with no key data. -/
def bare (t : UInt8) (v : Bytes) : Pair := ⟨⟨t, []⟩, v⟩

/-- `v2_impl_psbt_get_pair!(rv.push(..))`, src/macros.rs:81-92; v0: src/v0/bitcoin/macros.rs:118-129. -/
def emitOpt (t : UInt8) (c : Codec α) (o : Option α) : List Pair :=
  match o with
  | none => []
  | some v => [bare t (c.ser v)]

/-- `v2_impl_psbt_get_pair!(rv.push_map(..))`, src/macros.rs:93-104; v0: src/v0/bitcoin/macros.rs:130-141. -/
def emitMap (t : UInt8) (ck : Codec K) (cv : Codec V) (m : BMap K V) : List Pair :=
  m.l.map fun kv => ⟨⟨t, ck.ser kv.1⟩, cv.ser kv.2⟩

/-- Proprietary pairs: src/v2/map/global.rs:529-531 and its siblings. -/
def emitProp (m : BMap PropKey Bytes) : List Pair := m.l.map fun kv => ⟨kv.1.toKey, kv.2⟩

/-- Unknown pairs: src/v2/map/global.rs:533-535 and its siblings. -/
def emitUnknown (m : BMap RawKey Bytes) : List Pair := m.l.map fun kv => ⟨kv.1, kv.2⟩

end

/-- The decode loop of every map: src/v2/map/global.rs:342-348, src/v2/map/input.rs:400-406,
src/v2/map/output.rs:113-119, src/v0/bitcoin/macros.rs:59-77. `NoMorePairs` ends the map; it is produced after exactly
the one separator byte was read. `fuel` bounds the number of iterations; `decodeMap` supplies the number of bytes
plus one, and each iteration consumes a byte, so the first clause is never reached. -/
def decodeLoop {M ε : Type} (ins : M → Pair → Except ε M) (deserPair : SerErr → ε) :
    Nat → M → Bytes → Except ε (M × Bytes)
  | 0, _, _ => .error (deserPair .notEnoughData)
  | fuel + 1, m, b =>
    match decPair b with
    | .ok (p, r) => do
      let m' ← ins m p
      decodeLoop ins deserPair fuel m' r
    | .error e => if e = .noMorePairs then .ok (m, b.drop 1) else .error (deserPair e)

def decodeMap {M ε : Type} (ins : M → Pair → Except ε M) (deserPair : SerErr → ε) (m : M) (b : Bytes) :
    Except ε (M × Bytes) := decodeLoop ins deserPair (b.length + 1) m b

/-- `Map::serialize_map`, src/v2/map/mod.rs:35-42 and src/v0/bitcoin/map/mod.rs:31-38. -/
def serializeMap (ps : List Pair) : Bytes := ps.flatMap encPair ++ [0]

end Psbt
