/- The PSBT v2 global map: src/v2/map/global.rs. -/
import Verif.Model.V2.Common
namespace Psbt.V2
open Psbt

/-- `Version`, src/version.rs:14-47. The number is private, and every constructor makes it 0 or 2, except for the derived serde
`Deserialize`, which takes any. -/
abbrev Version := UInt32
/-- `V2`. -/
def V2 : Version := 2

/-- `Global`, src/v2/map/global.rs:42-81. `usize` is taken to be 64 bits wide, so the counts are `u64`. The
transaction version is kept as the bit pattern of the `i32`, the lock time as its consensus `u32`. -/
structure Global (L : Lib) where
  version : Version
  txVersion : UInt32
  fallbackLockTime : Option UInt32
  txModifiableFlags : UInt8
  inputCount : UInt64
  outputCount : UInt64
  xpubs : BMap L.xpub.T KeySource
  spEcdhShares : BMap L.compressed.T L.compressed.T
  spDleqProofs : BMap L.compressed.T (FixedBytes 64)
  proprietaries : BMap PropKey Bytes
  unknowns : BMap RawKey Bytes
  deriving DecidableEq

/-- `Global::new`, src/v2/map/global.rs:84-101. -/
def Global.new (L : Lib) : Global L where
  version := V2
  txVersion := 2
  fallbackLockTime := none
  txModifiableFlags := 0
  inputCount := 0
  outputCount := 0
  xpubs := .empty
  spEcdhShares := .empty
  spDleqProofs := .empty
  proprietaries := .empty
  unknowns := .empty

/-- The local variables of `Global::decode`, src/v2/map/global.rs:146-159. The two counts are one field because one
is consulted when the other is read. -/
structure GlobalAcc (L : Lib) where
  version : Option Version
  txVersion : Option UInt32
  fallbackLockTime : Option UInt32
  txModifiableFlags : Option UInt8
  counts : Option UInt64 × Option UInt64
  xpubs : BMap L.xpub.T KeySource
  spEcdhShares : BMap L.compressed.T L.compressed.T
  spDleqProofs : BMap L.compressed.T (FixedBytes 64)
  proprietaries : BMap PropKey Bytes
  unknowns : BMap RawKey Bytes
  deriving DecidableEq

/-- All variables at their start values. -/
def GlobalAcc.start (L : Lib) : GlobalAcc L where
  version := none
  txVersion := none
  fallbackLockTime := none
  txModifiableFlags := none
  counts := (none, none)
  xpubs := .empty
  spEcdhShares := .empty
  spDleqProofs := .empty
  proprietaries := .empty
  unknowns := .empty

/-- Which variable a key type of the global map belongs to: the match arms of src/v2/map/global.rs:163-338. -/
inductive GlSlot where
  | version | txVersion | fallback | counts | txModifiable | xpub | spEcdh | spDleq | proprietary | unsignedTx | unknown
  deriving DecidableEq, Repr

/-- The match of src/v2/map/global.rs:163-338. -/
def glSlot (sp : Bool) (t : UInt8) : GlSlot :=
  if t = PSBT_GLOBAL_VERSION then .version
  else if t = PSBT_GLOBAL_TX_VERSION then .txVersion
  else if t = PSBT_GLOBAL_FALLBACK_LOCKTIME then .fallback
  else if t = PSBT_GLOBAL_INPUT_COUNT then .counts
  else if t = PSBT_GLOBAL_OUTPUT_COUNT then .counts
  else if t = PSBT_GLOBAL_TX_MODIFIABLE then .txModifiable
  else if t = PSBT_GLOBAL_XPUB then .xpub
  else if t = PSBT_GLOBAL_PROPRIETARY then .proprietary
  else if sp = true ∧ t = PSBT_GLOBAL_SP_ECDH_SHARE then .spEcdh
  else if sp = true ∧ t = PSBT_GLOBAL_SP_DLEQ then .spDleq
  else if t = PSBT_GLOBAL_UNSIGNED_TX then .unsignedTx
  else .unknown

/-- Unkeyed global field of a fixed length read by `read`: the shape of src/v2/map/global.rs:185-216 and 247-261. -/
def insFixed {α : Type} (n : Nat) (read : Bytes → Except CErr (α × Bytes)) (o : Option α) (p : Pair) :
    Except InsErr (Option α) :=
  if p.key.key = [] then
    match o with
    | none =>
      if p.value.length ≠ n then .error (.valueWrongLength p.value.length n)
      else do
        let (v, _) ← mapErr .consensus (read p.value)
        .ok (some v)
    | some _ => .error (.duplicateKey p.key)
  else .error (.invalidKeyDataNotEmpty p.key)

/-- src/v2/map/global.rs:164-184. -/
def insVersion (o : Option Version) (p : Pair) : Except InsErr (Option Version) :=
  if p.key.key = [] then
    match o with
    | none =>
      if p.value.length ≠ 4 then .error (.valueWrongLength p.value.length 4)
      else do
        let (v, _) ← mapErr .consensus (decU32 p.value)
        if v ≠ 2 then .error (.wrongVersion v) else .ok (some V2)
    | some _ => .error (.duplicateKey p.key)
  else .error (.invalidKeyDataNotEmpty p.key)

/-- src/v2/map/global.rs:217-246: both arms look at the *output* count to detect duplicates, and read a `VarInt` from
the front of the value without checking that nothing follows. -/
def insCounts (c : Option UInt64 × Option UInt64) (p : Pair) : Except InsErr (Option UInt64 × Option UInt64) :=
  if p.key.key = [] then
    match c.2 with
    | none => do
      let (n, _) ← mapErr .consensus (decVar p.value)
      if p.key.ty = PSBT_GLOBAL_INPUT_COUNT then .ok (some (UInt64.ofNat n), c.2)
      else .ok (c.1, some (UInt64.ofNat n))
    | some _ => .error (.duplicateKey p.key)
  else .error (.invalidKeyDataNotEmpty p.key)

/-- `while let Ok(index) = u32::consensus_decode(..)`, src/v2/map/global.rs:286-288. -/
def readPath : Bytes → List UInt32
  | a :: b :: c :: d :: r => UInt32.ofNat (leDec [a, b, c, d]) :: readPath r
  | _ => []

/-- src/v2/map/global.rs:262-298. -/
def insXpub {L : Lib} (m : BMap L.xpub.T KeySource) (p : Pair) : Except InsErr (BMap L.xpub.T KeySource) :=
  if p.key.key = [] then .error (.invalidKeyDataEmpty p.key)
  else
    match L.xpub.parse p.key.key with
    | none => .error .bip32
    | some x =>
      if p.value = [] then .error (.invalidKeyDataNotEmpty p.key)
      else if h : p.value.length < 4 then .error .xpubInvalidFingerprint
      else if p.value.length % 4 ≠ 0 then .error (.xpubInvalidPath p.value.length)
      else
        match m.get x with
        | some old => .error (.duplicateXpub old)
        | none => .ok (m.insert x (⟨p.value.take 4, by simp at h ⊢; omega⟩, readPath (p.value.drop 4)))

/-- src/v2/map/global.rs:300-314. -/
def insGlobalProp (m : BMap PropKey Bytes) (p : Pair) : Except InsErr (BMap PropKey Bytes) :=
  if p.key.key = [] then .error (.invalidKeyDataEmpty p.key)
  else do
    let k ← mapErr (fun _ => .invalidProprietaryKey) (PropKey.ofKey p.key)
    match m.get k with
    | none => .ok (m.insert k p.value)
    | some _ => .error (.duplicateKey p.key)

/-- The closure `insert_pair`, src/v2/map/global.rs:162-340. -/
def GlobalAcc.insertPair {L : Lib} (g : GlobalAcc L) (p : Pair) : Except InsErr (GlobalAcc L) :=
  match glSlot L.sp p.key.ty with
  | .version => do let f ← insVersion g.version p; .ok { g with version := f }
  | .txVersion => do let f ← insFixed 4 decU32 g.txVersion p; .ok { g with txVersion := f }
  | .fallback => do let f ← insFixed 4 decU32 g.fallbackLockTime p; .ok { g with fallbackLockTime := f }
  | .counts => do let f ← insCounts g.counts p; .ok { g with counts := f }
  | .txModifiable => do let f ← insFixed 1 decU8 g.txModifiableFlags p; .ok { g with txModifiableFlags := f }
  | .xpub => do let f ← insXpub g.xpubs p; .ok { g with xpubs := f }
  | .spEcdh => do let f ← insSp L L.compressed.parse 33 g.spEcdhShares p; .ok { g with spEcdhShares := f }
  | .spDleq => do let f ← insSp L dleq? 64 g.spDleqProofs p; .ok { g with spDleqProofs := f }
  | .proprietary => do let f ← insGlobalProp g.proprietaries p; .ok { g with proprietaries := f }
  | .unsignedTx => .error (.excludedKey p.key.ty)
  | .unknown => do let f ← insUnknown g.unknowns p; .ok { g with unknowns := f }

/-- The checks after the loop, src/v2/map/global.rs:350-388. `usize::try_from(u64)` cannot fail with 64-bit `usize`. -/
def GlobalAcc.finish {L : Lib} (g : GlobalAcc L) : Except DecErr (Global L) := do
  let version ← okOr .missingVersion g.version
  let txVersion ← okOr .missingTxVersion g.txVersion
  let inputCount ← okOr .missingInputCount g.counts.1
  let outputCount ← okOr .missingOutputCount g.counts.2
  if L.sp = true ∧ g.spEcdhShares.isEmpty ≠ g.spDleqProofs.isEmpty then .error .fieldMismatch
  else .ok {
    version, txVersion, inputCount, outputCount
    fallbackLockTime := g.fallbackLockTime
    txModifiableFlags := g.txModifiableFlags.getD 0
    xpubs := g.xpubs, spEcdhShares := g.spEcdhShares, spDleqProofs := g.spDleqProofs
    proprietaries := g.proprietaries, unknowns := g.unknowns }

/-- `Global::decode`, src/v2/map/global.rs:143-389. -/
def Global.decode (L : Lib) (b : Bytes) : Except DecErr (Global L × Bytes) := do
  let (a, r) ← decodeMap (fun g p => mapErr .insertPair (GlobalAcc.insertPair g p)) .deserPair (GlobalAcc.start L) b
  let g ← a.finish
  .ok (g, r)

/-- `Global::get_pairs`, src/v2/map/global.rs:461-538. -/
def Global.getPairs {L : Lib} (g : Global L) : List Pair :=
  List.flatten [
    [bare PSBT_GLOBAL_VERSION (versionCodec.ser g.version)],
    [bare PSBT_GLOBAL_TX_VERSION (u32Codec.ser g.txVersion)],
    emitOpt PSBT_GLOBAL_FALLBACK_LOCKTIME u32Codec g.fallbackLockTime,
    [bare PSBT_GLOBAL_INPUT_COUNT (encVar g.inputCount.toNat)],
    [bare PSBT_GLOBAL_OUTPUT_COUNT (encVar g.outputCount.toNat)],
    [bare PSBT_GLOBAL_TX_MODIFIABLE [g.txModifiableFlags]],
    g.xpubs.l.map (fun kv => ⟨⟨PSBT_GLOBAL_XPUB, kv.1.bytes⟩, keySourceCodec.ser kv.2⟩),
    emitSp L PSBT_GLOBAL_SP_ECDH_SHARE Foreign.T.bytes g.spEcdhShares,
    emitSp L PSBT_GLOBAL_SP_DLEQ Subtype.val g.spDleqProofs,
    emitProp g.proprietaries,
    emitUnknown g.unknowns]

end Psbt.V2
