/-
Signature hashes of rust-bitcoin 0.32 (`bitcoin::crypto::sighash::SighashCache`): the legacy algorithm and BIP-143. They
are part of the dependency, written out here so that theorems can speak about what a signature commits to. The cache
itself (memoised hashes) is modelled in `Model/SighashCache.lean`: results do not depend on it (C86).
-/
import Verif.Model.Ser
import Verif.Model.Script
namespace Psbt

/-- The low part of a sighash type. -/
inductive SigBase where
  | all | none | single
  deriving DecidableEq, Repr

/-- `EcdsaSighashType::split_anyonecanpay_flag`: the low part and the ANYONECANPAY flag. -/
def EcdsaTy.split (t : EcdsaTy) : SigBase × Bool :=
  if t.1 = 0x01 then (.all, false)
  else if t.1 = 0x02 then (.none, false)
  else if t.1 = 0x03 then (.single, false)
  else if t.1 = 0x81 then (.all, true)
  else if t.1 = 0x82 then (.none, true)
  else (.single, true)

/-- `TxOut::NULL`. -/
def TxOut.null : TxOut := ⟨0xFFFFFFFFFFFFFFFF, []⟩

/-- The number 1 as little-endian 32 bytes: what the legacy algorithm returns for SINGLE without a matching output. -/
def uint256One : Hash32 := ⟨1 :: List.replicate 31 0, by simp⟩

/-- 32 zero bytes. -/
def zero32 : Hash32 := ⟨List.replicate 32 0, by simp⟩

/-- The inputs of the transaction the legacy algorithm hashes, for an input that exists. -/
def legacyInputs (ins : List TxIn) (index : Nat) (inp : TxIn) (script : Bytes) (base : SigBase) (acp : Bool) : List TxIn :=
  if acp then [⟨inp.previousOutput, script, inp.sequence, []⟩]
  else ins.mapIdx fun n i =>
    ⟨i.previousOutput, if n = index then script else [],
      if n ≠ index && (base = .single || base = .none) then 0 else i.sequence, []⟩

/-- The outputs of the transaction the legacy algorithm hashes. -/
def legacyOutputs (outs : List TxOut) (index : Nat) (base : SigBase) : List TxOut :=
  match base with
  | .all => outs
  | .single => (outs.take (index + 1)).mapIdx fun n o => if n = index then o else TxOut.null
  | .none => []

/-- `SighashCache::legacy_signature_hash` with a standard type; `none` is its only error, an input index out of range. -/
def legacySighash (L : Lib) (tx : Tx) (index : Nat) (script : Bytes) (ty : EcdsaTy) : Option Hash32 :=
  match tx.input[index]? with
  | none => none
  | some inp =>
    let (base, acp) := EcdsaTy.split ty
    if base = .single && decide (index ≥ tx.output.length) then some uint256One
    else
      some (L.sha256d (encTx ⟨tx.version, tx.lockTime, legacyInputs tx.input index inp script base acp,
        legacyOutputs tx.output index base⟩ ++ encU32 ty.1.toUInt32))

/-- The hash of the output with the given index, zero if there is none. -/
def singleOutputHash (L : Lib) (tx : Tx) (index : Nat) : Hash32 :=
  match tx.output[index]? with
  | some o => L.sha256d (encTxOut o)
  | none => zero32

/-- What BIP-143 hashes for input `inp` at `index`. -/
def segwitPreimage (L : Lib) (tx : Tx) (index : Nat) (inp : TxIn) (code : Bytes) (value : UInt64) (ty : EcdsaTy) : Bytes :=
  let (base, acp) := EcdsaTy.split ty
  encU32 tx.version
    ++ (if acp then zero32 else L.sha256d (tx.input.flatMap fun i => encOutPoint i.previousOutput)).1
    ++ (if !acp && base = .all then L.sha256d (tx.input.flatMap fun i => encU32 i.sequence) else zero32).1
    ++ encOutPoint inp.previousOutput ++ encVec code ++ encU64 value ++ encU32 inp.sequence
    ++ (if base = .all then L.sha256d (tx.output.flatMap encTxOut)
        else if base = .single then
          singleOutputHash L tx index
        else zero32).1
    ++ encU32 tx.lockTime ++ encU32 ty.1.toUInt32

/-- `SighashCache::p2wsh_signature_hash` (with `segwit_v0_encode_signing_data_to`); `none`: input index out of range. -/
def segwitSighash (L : Lib) (tx : Tx) (index : Nat) (code : Bytes) (value : UInt64) (ty : EcdsaTy) : Option Hash32 :=
  match tx.input[index]? with
  | none => none
  | some inp => some (L.sha256d (segwitPreimage L tx index inp code value ty))

/-- `P2wpkhError`. -/
inductive P2wpkhErr where
  | sighash | notP2wpkhScript
  deriving DecidableEq, Repr

/-- `SighashCache::p2wpkh_signature_hash`. -/
def p2wpkhSighash (L : Lib) (tx : Tx) (index : Nat) (spk : Bytes) (value : UInt64) (ty : EcdsaTy) : Except P2wpkhErr Hash32 :=
  match p2wpkhScriptCode spk with
  | none => .error .notP2wpkhScript
  | some code =>
    match segwitSighash L tx index code value ty with
    | none => .error .sighash
    | some h => .ok h

/-! ### BIP-341 -/

/-- `TapSighashType::split_anyonecanpay_flag`; DEFAULT and ALL are alike from here on. -/
def TapTy.split (t : TapTy) : SigBase × Bool :=
  if t.1 = 0x00 then (.all, false)
  else if t.1 = 0x01 then (.all, false)
  else if t.1 = 0x02 then (.none, false)
  else if t.1 = 0x03 then (.single, false)
  else if t.1 = 0x81 then (.all, true)
  else if t.1 = 0x82 then (.none, true)
  else (.single, true)

/-- `sighash::Prevouts`. -/
inductive Prevouts where
  | one (index : Nat) (u : TxOut)
  | all (us : List TxOut)
  deriving DecidableEq

/-- `sighash::TaprootError`: those that can occur. -/
inductive TaprootErr where
  | inputsIndex | singleMissingOutput | prevoutsSize | prevoutsIndex | prevoutsKind
  deriving DecidableEq, Repr

/-- `Prevouts::get`. -/
def Prevouts.get (q : Prevouts) (n : Nat) : Except TaprootErr TxOut :=
  match q with
  | .one m u => if m = n then .ok u else .error .prevoutsIndex
  | .all us =>
    match us[n]? with
    | some u => .ok u
    | none => .error .prevoutsIndex

/-- The tag of `TapSighash`, as ASCII. -/
def tapSighashTag : Bytes := [0x54, 0x61, 0x70, 0x53, 0x69, 0x67, 0x68, 0x61, 0x73, 0x68]

/-- A tagged hash (BIP-340). -/
def taggedHash (L : Lib) (tag msg : Bytes) : Hash32 := L.sha256 ((L.sha256 tag).1 ++ (L.sha256 tag).1 ++ msg)

/-- What BIP-341 signature messages say about all inputs, unless ANYONECANPAY is set. -/
def tapInputsPart (L : Lib) (tx : Tx) (acp : Bool) (q : Prevouts) : Except TaprootErr Bytes :=
  if acp then .ok []
  else
    match q with
    | .one _ _ => .error .prevoutsKind
    | .all us => .ok ((L.sha256 (tx.input.flatMap fun i => encOutPoint i.previousOutput)).1
        ++ (L.sha256 (us.flatMap fun u => encU64 u.value)).1 ++ (L.sha256 (us.flatMap fun u => encVec u.scriptPubkey)).1
        ++ (L.sha256 (tx.input.flatMap fun i => encU32 i.sequence)).1)

/-- What they say about the input being signed. -/
def tapInputPart (tx : Tx) (index : Nat) (acp : Bool) (q : Prevouts) : Except TaprootErr Bytes :=
  if acp then
    match tx.input[index]? with
    | none => .error .inputsIndex
    | some t => do
      let u ← q.get index
      .ok (encOutPoint t.previousOutput ++ encU64 u.value ++ encVec u.scriptPubkey ++ encU32 t.sequence)
  else .ok (encU32 (UInt32.ofNat index))

/-- What they say about the output of the same index. -/
def tapOutputPart (L : Lib) (tx : Tx) (index : Nat) (base : SigBase) : Except TaprootErr Bytes :=
  if base = .single then
    match tx.output[index]? with
    | none => .error .singleMissingOutput
    | some o => .ok (L.sha256 (encTxOut o)).1
  else .ok []

/-- What they say about the leaf, for a script path spend: leaf hash, key version, position of the last code separator. -/
def tapLeafPart : Option Hash32 → Bytes
  | none => []
  | some lh => lh.1 ++ [0x00] ++ encU32 0xFFFFFFFF

/-- `SighashCache::taproot_encode_signing_data_to` without annex. -/
def tapPreimage (L : Lib) (tx : Tx) (index : Nat) (q : Prevouts) (leaf : Option Hash32) (ty : TapTy) : Except TaprootErr Bytes := do
  if (match q with | .all us => decide (us.length ≠ tx.input.length) | .one _ _ => false) then .error .prevoutsSize
  else
    let (base, acp) := TapTy.split ty
    let ins ← tapInputsPart L tx acp q
    let inp ← tapInputPart tx index acp q
    let out ← tapOutputPart L tx index base
    .ok ([0x00, ty.1] ++ encU32 tx.version ++ encU32 tx.lockTime ++ ins
      ++ (if base = .all then (L.sha256 (tx.output.flatMap encTxOut)).1 else [])
      ++ [if leaf.isSome then 0x02 else 0x00] ++ inp ++ out ++ tapLeafPart leaf)

/-- `SighashCache::taproot_key_spend_signature_hash` (no leaf) and `taproot_script_spend_signature_hash`. -/
def tapSighash (L : Lib) (tx : Tx) (index : Nat) (q : Prevouts) (leaf : Option Hash32) (ty : TapTy) : Except TaprootErr Hash32 := do
  let m ← tapPreimage L tx index q leaf ty
  .ok (taggedHash L tapSighashTag m)

end Psbt
