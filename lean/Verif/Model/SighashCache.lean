/- `bitcoin::sighash::SighashCache` (rust-bitcoin 0.32) as the memory it is: hashes are computed when first needed and kept.
It is created in src/v2/mod.rs:738 and src/v0/bitcoin/mod.rs:308, or by the user for `sighash_ecdsa` and `sighash_msg`. -/
import Verif.Model.Sighash
namespace Psbt

/-- `CommonCache`: single SHA256 hashes. -/
structure CommonCache where
  prevouts : Hash32
  sequences : Hash32
  outputs : Hash32
  deriving DecidableEq

/-- `SegwitCache`: these hashed again. -/
structure SegwitCache where
  prevouts : Hash32
  sequences : Hash32
  outputs : Hash32
  deriving DecidableEq

/-- `TaprootCache`. -/
structure TaprootCache where
  amounts : Hash32
  scriptPubkeys : Hash32
  deriving DecidableEq

/-- `SighashCache`. -/
structure SighashCache where
  tx : Tx
  common : Option CommonCache
  segwit : Option SegwitCache
  taproot : Option TaprootCache
  deriving DecidableEq

namespace SighashCache

/-- `SighashCache::new`. -/
def new (tx : Tx) : SighashCache := ⟨tx, none, none, none⟩

variable (L : Lib)

/-- `common_cache_minimal_borrow`. -/
def commonCache (c : SighashCache) : CommonCache × SighashCache :=
  match c.common with
  | some x => (x, c)
  | none =>
    let x : CommonCache := ⟨L.sha256 (c.tx.input.flatMap fun i => encOutPoint i.previousOutput),
      L.sha256 (c.tx.input.flatMap fun i => encU32 i.sequence), L.sha256 (c.tx.output.flatMap encTxOut)⟩
    (x, { c with common := some x })

/-- `segwit_cache`. -/
def segwitCache (c : SighashCache) : SegwitCache × SighashCache :=
  match c.segwit with
  | some x => (x, c)
  | none =>
    let (y, c) := c.commonCache L
    let x : SegwitCache := ⟨L.sha256 y.prevouts.1, L.sha256 y.sequences.1, L.sha256 y.outputs.1⟩
    (x, { c with segwit := some x })

/-- `taproot_cache`. The outputs spent are looked at only if nothing has been kept. -/
def taprootCache (c : SighashCache) (us : List TxOut) : TaprootCache × SighashCache :=
  match c.taproot with
  | some x => (x, c)
  | none =>
    let x : TaprootCache := ⟨L.sha256 (us.flatMap fun u => encU64 u.value), L.sha256 (us.flatMap fun u => encVec u.scriptPubkey)⟩
    (x, { c with taproot := some x })

/-- `legacy_signature_hash` uses no kept hashes. -/
def legacySighash (c : SighashCache) (index : Nat) (script : Bytes) (ty : EcdsaTy) : Option Hash32 × SighashCache :=
  (Psbt.legacySighash L c.tx index script ty, c)

/-- The hash of all outpoints. -/
def prevoutsHash (c : SighashCache) (acp : Bool) : Hash32 × SighashCache :=
  if acp then (zero32, c)
  else
    let (x, c) := c.segwitCache L
    (x.prevouts, c)

/-- The hash of all sequence numbers. -/
def sequencesHash (c : SighashCache) (base : SigBase) (acp : Bool) : Hash32 × SighashCache :=
  if !acp && base = .all then
    let (x, c) := c.segwitCache L
    (x.sequences, c)
  else (zero32, c)

/-- The hash of the outputs. -/
def outputsHash (c : SighashCache) (index : Nat) (base : SigBase) : Hash32 × SighashCache :=
  if base = .all then
    let (x, c) := c.segwitCache L
    (x.outputs, c)
  else if base = .single then (singleOutputHash L c.tx index, c)
  else (zero32, c)

/-- `p2wsh_signature_hash` with `segwit_v0_encode_signing_data_to`. -/
def segwitSighash (c : SighashCache) (index : Nat) (code : Bytes) (value : UInt64) (ty : EcdsaTy) : Option Hash32 × SighashCache :=
  let (base, acp) := EcdsaTy.split ty
  let (hp, c) := c.prevoutsHash L acp
  let (hs, c) := c.sequencesHash L base acp
  match c.tx.input[index]? with
  | none => (none, c)
  | some inp =>
    let (ho, c) := c.outputsHash L index base
    (some (L.sha256d (encU32 c.tx.version ++ hp.1 ++ hs.1 ++ encOutPoint inp.previousOutput ++ encVec code ++ encU64 value
      ++ encU32 inp.sequence ++ ho.1 ++ encU32 c.tx.lockTime ++ encU32 ty.1.toUInt32)), c)

/-- `p2wpkh_signature_hash`. -/
def p2wpkhSighash (c : SighashCache) (index : Nat) (spk : Bytes) (value : UInt64) (ty : EcdsaTy) :
    Except P2wpkhErr Hash32 × SighashCache :=
  match p2wpkhScriptCode spk with
  | none => (.error .notP2wpkhScript, c)
  | some code =>
    match c.segwitSighash L index code value ty with
    | (none, c) => (.error .sighash, c)
    | (some h, c) => (.ok h, c)

/-- The part about all inputs in `taproot_encode_signing_data_to`. -/
def tapInputsPart (c : SighashCache) (acp : Bool) (q : Prevouts) : Except TaprootErr Bytes × SighashCache :=
  if acp then (.ok [], c)
  else
    let (x, c) := c.commonCache L
    match q with
    | .one _ _ => (.error .prevoutsKind, c)
    | .all us =>
      let (y, c) := c.taprootCache L us
      (.ok (x.prevouts.1 ++ y.amounts.1 ++ y.scriptPubkeys.1 ++ x.sequences.1), c)

/-- The part about all outputs. -/
def tapOutputsPart (c : SighashCache) (base : SigBase) : Bytes × SighashCache :=
  if base = .all then
    let (x, c) := c.commonCache L
    (x.outputs.1, c)
  else ([], c)

/-- `Prevouts::check_all` fails. -/
def wrongSize (tx : Tx) : Prevouts → Bool
  | .all us => decide (us.length ≠ tx.input.length)
  | .one _ _ => false

/-- `taproot_key_spend_signature_hash` and `taproot_script_spend_signature_hash` with `taproot_encode_signing_data_to`. -/
def tapSighash (c : SighashCache) (index : Nat) (q : Prevouts) (leaf : Option Hash32) (ty : TapTy) :
    Except TaprootErr Hash32 × SighashCache :=
  if wrongSize c.tx q then (.error .prevoutsSize, c)
  else
    let (base, acp) := TapTy.split ty
    match c.tapInputsPart L acp q with
    | (.error e, c) => (.error e, c)
    | (.ok ins, c) =>
      let (outs, c) := c.tapOutputsPart L base
      (do
        let inp ← tapInputPart c.tx index acp q
        let out ← tapOutputPart L c.tx index base
        .ok (taggedHash L tapSighashTag ([0x00, ty.1] ++ encU32 c.tx.version ++ encU32 c.tx.lockTime ++ ins ++ outs
          ++ [if leaf.isSome then 0x02 else 0x00] ++ inp ++ out ++ tapLeafPart leaf)), c)

end SighashCache

/-- A computation that uses a cache: its result and the cache afterwards, which is kept also when it fails. -/
def CacheM (ε α : Type) := SighashCache → Out ε α × SighashCache

namespace CacheM
/-- A result that needs no cache. -/
def lift {ε α : Type} (o : Out ε α) : CacheM ε α := fun c => (o, c)
/-- A call of a method of the cache. -/
def call {ε α : Type} (f : SighashCache → α × SighashCache) : CacheM ε α := fun c => (.ok (f c).1, (f c).2)
/-- One after the other. -/
def bind {ε α β : Type} (m : CacheM ε α) (f : α → CacheM ε β) : CacheM ε β := fun c =>
  match m c with
  | (.ok a, c) => f a c
  | (.error e, c) => (.error e, c)
instance {ε : Type} : Monad (CacheM ε) where
  pure a := lift (.ok a)
  bind := bind
/-- Go on with the result, unless it is a panic. -/
def handle {ε ε' α β : Type} (m : CacheM ε α) (f : Except ε α → CacheM ε' β) : CacheM ε' β := fun c =>
  match m c with
  | (.ok a, c) => f (.ok a) c
  | (.error (.err e), c) => f (.error e) c
  | (.error (.panic s), c) => (.error (.panic s), c)
end CacheM

end Psbt
