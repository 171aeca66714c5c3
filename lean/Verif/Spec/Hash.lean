/- What it means that a hash function fails on given strings. Every hash function has collisions somewhere; the claims
below are about collisions between strings that are at hand. -/
import Verif.Model.Sighash
import Verif.Spec.Encoding
namespace Psbt.Spec

/-- Two different strings, one of each list, have the same hash. -/
def Collides (h : Bytes → Hash32) (xs ys : List Bytes) : Prop := ∃ x ∈ xs, ∃ y ∈ ys, x ≠ y ∧ h x = h y
/-- One of the strings has the hash zero. -/
def HitsZero (h : Bytes → Hash32) (xs : List Bytes) : Prop := ∃ x ∈ xs, (h x).1 = List.replicate 32 0

instance (h : Bytes → Hash32) (xs ys : List Bytes) : Decidable (Collides h xs ys) := by unfold Collides; infer_instance
instance (h : Bytes → Hash32) (xs : List Bytes) : Decidable (HitsZero h xs) := by unfold HitsZero; infer_instance

theorem Collides.free {h : Bytes → Hash32} {xs ys : List Bytes} (hn : ¬ Collides h xs ys) {x y : Bytes} (hx : x ∈ xs) (hy : y ∈ ys)
    (e : h x = h y) : x = y := Classical.byContradiction fun hne => hn ⟨x, hx, y, hy, hne, e⟩

/-! ### The layout of the messages, as the tables in BIP-143 and BIP-341 give it -/

/-- BIP-143: ANYONECANPAY is bit 7, the rest says which outputs are signed (1 all, 2 none, 3 the one of the same index). -/
def anyoneCanPay (ty : UInt8) : Bool := ty ≥ 0x80
def outputsSigned (ty : UInt8) : UInt8 := ty % 0x80

/-- The ten items of BIP-143. -/
def bip143 (L : Lib) (tx : Tx) (n : Nat) (inp : TxIn) (code : Bytes) (value : UInt64) (ty : UInt8) : List Bytes :=
  [le32 tx.version,
   if anyoneCanPay ty then List.replicate 32 0 else (L.sha256d (tx.input.flatMap fun i => outPointBytes i.previousOutput)).1,
   if anyoneCanPay ty ∨ outputsSigned ty ≠ 1 then List.replicate 32 0 else (L.sha256d (tx.input.flatMap fun i => le32 i.sequence)).1,
   outPointBytes inp.previousOutput,
   blob code,
   le64 value,
   le32 inp.sequence,
   if outputsSigned ty = 1 then (L.sha256d (tx.output.flatMap txOutBytes)).1
   else if outputsSigned ty = 3 then
     match tx.output[n]? with
     | some o => (L.sha256d (txOutBytes o)).1
     | none => List.replicate 32 0
   else List.replicate 32 0,
   le32 tx.lockTime,
   [ty, 0, 0, 0]]

/-- The transaction hashed by the original algorithm, in words: all input scripts emptied except for the script code;
with NONE and SINGLE the sequence numbers of other inputs zero; with NONE no outputs; with SINGLE the outputs before that of
the same index replaced by (-1, empty script) and those behind it dropped; with ANYONECANPAY only this input. -/
def legacyCopy (tx : Tx) (n : Nat) (inp : TxIn) (code : Bytes) (o : TxOut) (ty : UInt8) : Tx where
  version := tx.version
  lockTime := tx.lockTime
  input :=
    let this : TxIn := { inp with scriptSig := code, witness := [] }
    let other (i : TxIn) : TxIn := { i with scriptSig := [], witness := [], sequence := if outputsSigned ty = 1 then i.sequence else 0 }
    if anyoneCanPay ty then [this] else (tx.input.take n).map other ++ this :: (tx.input.drop (n + 1)).map other
  output :=
    if outputsSigned ty = 1 then tx.output
    else if outputsSigned ty = 3 then List.replicate n ⟨0xFFFFFFFFFFFFFFFF, []⟩ ++ [o]
    else []

/-- The bytes of "TapSighash". -/
def tapSighashName : Bytes := "TapSighash".toUTF8.toList

/-- The common signature message of BIP-341 without annex, with the epoch 0 in front and the extension of BIP-342 for a leaf
(key version 0, no code separator) behind. `us` are the outputs spent by all inputs, `u` the one spent by this input, `o` the
output of the same index. -/
def bip341 (L : Lib) (tx : Tx) (us : List TxOut) (n : Nat) (inp : TxIn) (u : TxOut) (o : Option TxOut) (leaf : Option Hash32) (ty : UInt8) : List Bytes :=
  [[0x00],
   [ty],
   le32 tx.version,
   le32 tx.lockTime] ++
  (if anyoneCanPay ty then []
   else
    [(L.sha256 (tx.input.flatMap fun i => outPointBytes i.previousOutput)).1,
     (L.sha256 (us.flatMap fun u => le64 u.value)).1,
     (L.sha256 (us.flatMap fun u => blob u.scriptPubkey)).1,
     (L.sha256 (tx.input.flatMap fun i => le32 i.sequence)).1]) ++
  (if ty = 0 ∨ outputsSigned ty = 1 then [(L.sha256 (tx.output.flatMap txOutBytes)).1] else []) ++
  [[if leaf.isSome then 2 else 0]] ++
  (if anyoneCanPay ty then [outPointBytes inp.previousOutput, le64 u.value, blob u.scriptPubkey, le32 inp.sequence]
   else [le32 (UInt32.ofNat n)]) ++
  (if outputsSigned ty = 3 then o.toList.map fun o => (L.sha256 (txOutBytes o)).1 else []) ++
  (match leaf with
   | some lh => [lh.1, [0x00], [0xFF, 0xFF, 0xFF, 0xFF]]
   | none => [])

/-- The strings hashed for a BIP-143 message: the outpoints, the sequence numbers, the outputs, the output of the same
index, and the message itself. -/
def segwitHashed (L : Lib) (tx : Tx) (n : Nat) (code : Bytes) (v : UInt64) (ty : EcdsaTy) : List Bytes :=
  [tx.input.flatMap fun i => outPointBytes i.previousOutput, tx.input.flatMap fun i => le32 i.sequence, tx.output.flatMap txOutBytes]
    ++ tx.output[n]?.toList.map txOutBytes ++ tx.input[n]?.toList.map fun inp => (bip143 L tx n inp code v ty.1).flatten

/-- The string hashed for a legacy message: the modified copy of the transaction followed by the type. (For SINGLE without
an output of the same index nothing is hashed.) -/
def legacyHashed (tx : Tx) (n : Nat) (code : Bytes) (ty : EcdsaTy) : List Bytes :=
  tx.input[n]?.toList.map fun inp =>
    unsignedTxBytes (legacyCopy tx n inp code (tx.output[n]?.getD ⟨0, []⟩) ty.1) ++ [ty.1, 0, 0, 0]

/-- The strings hashed for a BIP-341 message: the outpoints, amounts, scripts, sequence numbers, outputs, the output of the
same index, and the message itself with its tag. `u` is the output spent by input `n`, `us` those spent by all inputs. -/
def tapHashed (L : Lib) (tx : Tx) (us : List TxOut) (n : Nat) (u : TxOut) (leaf : Option Hash32) (ty : TapTy) : List Bytes :=
  [tx.input.flatMap fun i => outPointBytes i.previousOutput, us.flatMap fun u => le64 u.value,
   us.flatMap fun u => blob u.scriptPubkey, tx.input.flatMap fun i => le32 i.sequence, tx.output.flatMap txOutBytes]
    ++ tx.output[n]?.toList.map txOutBytes
    ++ tx.input[n]?.toList.map fun inp =>
      (L.sha256 tapSighashName).1 ++ (L.sha256 tapSighashName).1 ++ (bip341 L tx us n inp u tx.output[n]? leaf ty.1).flatten

end Psbt.Spec
