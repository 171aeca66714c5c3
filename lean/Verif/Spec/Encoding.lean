/-
How Bitcoin writes numbers, byte strings and transactions, as the protocol documentation (and BIP-144 for witnesses) gives
it. Written down here on its own; only the types come from the model.
-/
import Verif.Model.Lib
namespace Psbt.Spec
open Psbt

/-- The `k` low bytes of a number, least significant first. -/
def le (k n : Nat) : Bytes := (List.range k).map fun j => UInt8.ofNat (n / 256 ^ j)
/-- Four bytes, least significant first. -/
def le32 (n : UInt32) : Bytes := le 4 n.toNat
/-- Eight bytes, least significant first. -/
def le64 (n : UInt64) : Bytes := le 8 n.toNat

/-- A compact size: one byte up to 252; else a marker and two, four or eight bytes, whichever is the least to suffice. -/
def compact (n : Nat) : Bytes :=
  if n ≤ 252 then [UInt8.ofNat n]
  else if n < 2 ^ 16 then 0xFD :: le 2 n
  else if n < 2 ^ 32 then 0xFE :: le 4 n
  else 0xFF :: le 8 n

/-- A byte string with its length in front. -/
def blob (b : Bytes) : Bytes := compact b.length ++ b

/-- An outpoint: the transaction id, then the index. -/
def outPointBytes (o : OutPoint) : Bytes := o.txid.1 ++ le32 o.vout
/-- An input without its witness. -/
def txInBytes (i : TxIn) : Bytes := outPointBytes i.previousOutput ++ blob i.scriptSig ++ le32 i.sequence
/-- An output. -/
def txOutBytes (o : TxOut) : Bytes := le64 o.value ++ blob o.scriptPubkey
/-- The witness of an input. -/
def witnessBytes (w : List Bytes) : Bytes := compact w.length ++ w.flatMap blob

/-- A transaction without its witnesses: what the transaction id is the hash of. -/
def unsignedTxBytes (t : Tx) : Bytes :=
  le32 t.version ++
  (compact t.input.length ++ t.input.flatMap txInBytes) ++
  (compact t.output.length ++ t.output.flatMap txOutBytes) ++
  le32 t.lockTime

/-- The identifier of a transaction. -/
def txid (L : Lib) (t : Tx) : Hash32 := L.sha256d (unsignedTxBytes t)

/-- A transaction (BIP-144): with marker, flag and witnesses if some input has a witness. A transaction without inputs is
written in this form as well, as without the marker its input count of zero would be taken for the marker. -/
def txBytes (t : Tx) : Bytes :=
  if (∃ i ∈ t.input, i.witness ≠ []) ∨ t.input = [] then
    le32 t.version ++ [0x00, 0x01] ++
    (compact t.input.length ++ t.input.flatMap txInBytes) ++
    (compact t.output.length ++ t.output.flatMap txOutBytes) ++
    t.input.flatMap (fun i => witnessBytes i.witness) ++
    le32 t.lockTime
  else unsignedTxBytes t

end Psbt.Spec
