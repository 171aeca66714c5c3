/-
Raw key-value pairs: src/raw.rs (and src/v0/bitcoin/raw.rs, the same code).
-/
import Verif.Model.Ser
namespace Psbt

/-- `raw::Key`, src/raw.rs:78-84. -/
structure RawKey where
  ty : UInt8
  key : Bytes
  deriving DecidableEq, Repr

/-- Derived `Ord` of `raw::Key`: type byte first, then the key data. -/
instance : OrdKey RawKey := OrdKey.ofInj (fun k => (k.ty, k.key)) (by
  intro a b h; cases a; cases b; simp_all)

/-- `raw::Pair`, src/raw.rs:31-39. -/
structure Pair where
  key : RawKey
  value : Bytes
  deriving DecidableEq, Repr

/-- `Key::serialize`, src/raw.rs:115-130. -/
def encKey (k : RawKey) : Bytes := encVar (k.key.length + 1) ++ k.ty :: k.key

/-- `Key::decode`, src/raw.rs:87-112. -/
def decKey (b : Bytes) : Except SerErr (RawKey × Bytes) := do
  let (n, r) ← mapErr .consensus (decVar b)
  if n = 0 then .error .noMorePairs
  else if MAX_VEC_SIZE < n - 1 then .error (.consensus .oversized)
  else do
    let (t, r) ← mapErr .consensus (decU8 r)
    let (k, r) ← mapErr .consensus (readN (n - 1) r)
    .ok (⟨t, k⟩, r)

/-- `Pair::serialize`, src/raw.rs:53-61. -/
def encPair (p : Pair) : Bytes := encKey p.key ++ encVec p.value

/-- `Pair::decode`, src/raw.rs:42-44. -/
def decPair (b : Bytes) : Except SerErr (Pair × Bytes) := do
  let (k, r) ← decKey b
  let (v, r) ← mapErr .consensus (decVec r)
  .ok (⟨k, v⟩, r)

/-- `ProprietaryKey`, src/raw.rs:139-152 (with the default subtype `u8`). -/
structure PropKey where
  pre : Bytes
  subtype : UInt8
  key : Bytes
  deriving DecidableEq, Repr

/-- Derived `Ord` of `ProprietaryKey`. -/
instance : OrdKey PropKey := OrdKey.ofInj (fun k => (k.pre, k.subtype, k.key)) (by
  intro a b h; cases a; cases b; simp_all)

/-- `ProprietaryKey::consensus_encode`, src/raw.rs:186-192. -/
def encProp (k : PropKey) : Bytes := encVec k.pre ++ k.subtype :: k.key

/-- `ProprietaryKey::to_key`, src/raw.rs:159. -/
def PropKey.toKey (k : PropKey) : RawKey := ⟨0xFC, encProp k⟩

/-- Limit of src/raw.rs:206. -/
def PROP_KEY_LIMIT : Nat := 1024

/-- `ProprietaryKey::consensus_decode`, src/raw.rs:199-209: the rest, at most 1024 bytes of it. -/
def decProp : Dec PropKey := fun b => do
  let (p, r) ← decVec b
  let (s, r) ← decU8 r
  .ok (⟨p, s, r.take PROP_KEY_LIMIT⟩, r.drop PROP_KEY_LIMIT)

/-- `ProprietaryKey::try_from(Key)`, src/raw.rs:173-179. -/
def PropKey.ofKey (k : RawKey) : Except SerErr PropKey :=
  if k.ty ≠ 0xFC then .error .invalidProprietaryKey
  else mapErr .consensus (consensusDeser decProp k.key)

end Psbt
