/-
Consensus encoding used by the crate (rust-bitcoin 0.32 `consensus::encode`): little-endian integers,
compact-size integers (`VarInt`), byte vectors, transactions and witnesses.

rust-bitcoin is a dependency, its source is not in /repo; these definitions model the behaviour the
crate calls at the cited lines.
-/
import Verif.Model.Basic
namespace Psbt

/-- `bitcoin::consensus::encode::Error`, the variants reached through the crate. -/
inductive CErr where
  /-- `Error::Io` with `UnexpectedEof`. -/
  | eof
  /-- `Error::NonMinimalVarInt`. -/
  | nonMinimalVarInt
  /-- `Error::OversizedVectorAllocation`. -/
  | oversized
  /-- `Error::ParseFailed`. -/
  | parseFailed
  /-- `Error::UnsupportedSegwitFlag`. -/
  | unsupportedSegwitFlag (f : UInt8)
  deriving DecidableEq, Repr

/-- A consensus decoder: reads from the front of the remaining bytes. -/
abbrev Dec (α : Type) := Bytes → Except CErr (α × Bytes)

/-- `MAX_VEC_SIZE` (rust-bitcoin), used at src/raw.rs:96. -/
def MAX_VEC_SIZE : Nat := 4000000

/-- Little-endian bytes of `n`, `k` of them (`to_le_bytes`). -/
def leEnc : Nat → Nat → Bytes
  | 0, _ => []
  | k + 1, n => UInt8.ofNat n :: leEnc k (n / 256)

/-- Number with the given little-endian bytes (`from_le_bytes`). -/
def leDec : Bytes → Nat
  | [] => 0
  | b :: r => b.toNat + 256 * leDec r

/-- `Read::read_exact` of `n` bytes. -/
def readN (n : Nat) : Dec Bytes := fun b =>
  if n ≤ b.length then .ok (b.take n, b.drop n) else .error .eof

/-- `u8::consensus_decode`. -/
def decU8 : Dec UInt8
  | [] => .error .eof
  | b :: r => .ok (b, r)

/-- `u32::consensus_encode`. -/
def encU32 (n : UInt32) : Bytes := leEnc 4 n.toNat
/-- `u32::consensus_decode`; also `transaction::Version`, `Sequence`, `LockTime`. -/
def decU32 : Dec UInt32 := fun b => do
  let (x, r) ← readN 4 b
  .ok (UInt32.ofNat (leDec x), r)

/-- `u64::consensus_encode`; also `Amount`. -/
def encU64 (n : UInt64) : Bytes := leEnc 8 n.toNat
/-- `u64::consensus_decode`; also `Amount`. -/
def decU64 : Dec UInt64 := fun b => do
  let (x, r) ← readN 8 b
  .ok (UInt64.ofNat (leDec x), r)

/-- `VarInt(n).consensus_encode` for `n < 2^64`. -/
def encVar (n : Nat) : Bytes :=
  if n < 0xFD then [UInt8.ofNat n]
  else if n ≤ 0xFFFF then 0xFD :: leEnc 2 n
  else if n ≤ 0xFFFFFFFF then 0xFE :: leEnc 4 n
  else 0xFF :: leEnc 8 n

/-- `VarInt::consensus_decode`: non-minimal encodings are an error. -/
def decVar : Dec Nat := fun b => do
  let (h, r) ← decU8 b
  if h = 0xFF then
    let (x, r) ← readN 8 r
    if leDec x < 0x100000000 then .error .nonMinimalVarInt else .ok (leDec x, r)
  else if h = 0xFE then
    let (x, r) ← readN 4 r
    if leDec x < 0x10000 then .error .nonMinimalVarInt else .ok (leDec x, r)
  else if h = 0xFD then
    let (x, r) ← readN 2 r
    if leDec x < 0xFD then .error .nonMinimalVarInt else .ok (leDec x, r)
  else .ok (h.toNat, r)

/-- `Vec<u8>::consensus_encode`. -/
def encVec (v : Bytes) : Bytes := encVar v.length ++ v

/-- `Vec<u8>::consensus_decode_from_finite_reader` (no size limit of its own). -/
def decVecFin : Dec Bytes := fun b => do
  let (n, r) ← decVar b
  readN n r

/-- `Vec<u8>::consensus_decode`: as above but through `take(MAX_VEC_SIZE)`, which bounds the length
prefix and the data together. Used at src/raw.rs:43 and :200. -/
def decVec : Dec Bytes := fun b => do
  let (v, r) ← decVecFin (b.take MAX_VEC_SIZE)
  .ok (v, r ++ b.drop MAX_VEC_SIZE)

/-- Decode `n` items one after the other (the loop in `Vec<T>::consensus_decode`). -/
def decMany {α : Type} (d : Dec α) : Nat → Dec (List α)
  | 0, b => .ok ([], b)
  | n + 1, b => do
    let (x, r) ← d b
    let (xs, r) ← decMany d n r
    .ok (x :: xs, r)

/-- `Vec<T>::consensus_encode`. -/
def encList {α : Type} (e : α → Bytes) (l : List α) : Bytes := encVar l.length ++ l.flatMap e

/-- `Vec<T>::consensus_decode`. -/
def decList {α : Type} (d : Dec α) : Dec (List α) := fun b => do
  let (n, r) ← decVar b
  decMany d n r

/-- `bitcoin::consensus::deserialize`: decode and require that everything was consumed. -/
def consensusDeser {α : Type} (d : Dec α) (b : Bytes) : Except CErr α := do
  let (a, r) ← d b
  if r = [] then .ok a else .error .parseFailed

/-! ### Transactions -/

/-- `bitcoin::Txid` and other 32-byte hashes. -/
abbrev Hash32 := FixedBytes 32

/-- `bitcoin::OutPoint`. -/
structure OutPoint where
  txid : Hash32
  vout : UInt32
  deriving DecidableEq, Repr

/-- `bitcoin::TxIn`. `Sequence` is its consensus `u32`; `Witness` is the list of its elements. -/
structure TxIn where
  previousOutput : OutPoint
  scriptSig : Bytes
  sequence : UInt32
  witness : List Bytes
  deriving DecidableEq, Repr

/-- `bitcoin::TxOut`. -/
structure TxOut where
  value : UInt64
  scriptPubkey : Bytes
  deriving DecidableEq, Repr

/-- `bitcoin::Transaction`. The version is kept as the `u32` bit pattern of the `i32`; the lock time as its
consensus `u32`. -/
structure Tx where
  version : UInt32
  lockTime : UInt32
  input : List TxIn
  output : List TxOut
  deriving DecidableEq, Repr

/-- 32-byte hash decode. -/
def decHash32 : Dec Hash32 := fun b =>
  if h : 32 ≤ b.length then .ok (⟨b.take 32, by simp [h]⟩, b.drop 32) else .error .eof

def encOutPoint (o : OutPoint) : Bytes := o.txid.1 ++ encU32 o.vout
def decOutPoint : Dec OutPoint := fun b => do
  let (t, r) ← decHash32 b
  let (v, r) ← decU32 r
  .ok (⟨t, v⟩, r)

/-- `TxIn::consensus_encode` (the witness is not part of it). -/
def encTxIn (i : TxIn) : Bytes := encOutPoint i.previousOutput ++ encVec i.scriptSig ++ encU32 i.sequence
def decTxIn : Dec TxIn := fun b => do
  let (o, r) ← decOutPoint b
  let (s, r) ← decVecFin r
  let (q, r) ← decU32 r
  .ok (⟨o, s, q, []⟩, r)

def encTxOut (o : TxOut) : Bytes := encU64 o.value ++ encVec o.scriptPubkey
def decTxOut : Dec TxOut := fun b => do
  let (v, r) ← decU64 b
  let (s, r) ← decVecFin r
  .ok (⟨v, s⟩, r)

/-- `Witness::consensus_encode`. -/
def encWitness (w : List Bytes) : Bytes := encList encVec w
/-- `Witness::consensus_decode`. Simplification: its two allocation limits (more than `MAX_VEC_SIZE` elements or
content bytes) are not modelled; a value reaching this decoder comes from a PSBT value of at most `MAX_VEC_SIZE`
bytes, for which exceeding them is impossible without running out of data, which is an error as well. -/
def decWitness : Dec (List Bytes) := decList decVecFin

/-- `Transaction::uses_segwit_serialization`. -/
def Tx.usesSegwit (t : Tx) : Bool := t.input.any (fun i => !i.witness.isEmpty) || t.input.isEmpty

/-- Serialization without witnesses; what the txid commits to, and how PSBT v0 writes its unsigned transaction
(src/v0/bitcoin/map/global.rs:40-52). -/
def encTxLegacy (t : Tx) : Bytes :=
  encU32 t.version ++ encList encTxIn t.input ++ encList encTxOut t.output ++ encU32 t.lockTime

/-- `Transaction::consensus_encode`. -/
def encTx (t : Tx) : Bytes :=
  if t.usesSegwit then
    encU32 t.version ++ [0, 1] ++ encList encTxIn t.input ++ encList encTxOut t.output
      ++ t.input.flatMap (fun i => encWitness i.witness) ++ encU32 t.lockTime
  else encTxLegacy t

/-- Read one witness per input. -/
def decWitnesses : List TxIn → Dec (List TxIn)
  | [], b => .ok ([], b)
  | i :: is, b => do
    let (w, r) ← decWitness b
    let (js, r) ← decWitnesses is r
    .ok ({ i with witness := w } :: js, r)

/-- Serialization without witnesses, read (src/v0/bitcoin/map/global.rs:103-108). -/
def decTxLegacy : Dec Tx := fun b => do
  let (v, r) ← decU32 b
  let (is, r) ← decList decTxIn r
  let (os, r) ← decList decTxOut r
  let (l, r) ← decU32 r
  .ok (⟨v, l, is, os⟩, r)

/-- `Transaction::consensus_decode`. -/
def decTx : Dec Tx := fun b => do
  let (v, r) ← decU32 b
  let (is, r) ← decList decTxIn r
  if is = [] then
    let (flag, r) ← decU8 r
    if flag = 1 then
      let (is, r) ← decList decTxIn r
      let (os, r) ← decList decTxOut r
      let (is, r) ← decWitnesses is r
      if is ≠ [] ∧ is.all (fun i => i.witness.isEmpty) then .error .parseFailed
      else
        let (l, r) ← decU32 r
        .ok (⟨v, l, is, os⟩, r)
    else .error (.unsupportedSegwitFlag flag)
  else
    let (os, r) ← decList decTxOut r
    let (l, r) ← decU32 r
    .ok (⟨v, l, is, os⟩, r)

end Psbt
