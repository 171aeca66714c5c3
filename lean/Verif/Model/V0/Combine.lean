/- Combining PSBT v0: src/v0/bitcoin/mod.rs:224-285 and the `combine` functions of the maps. -/
import Verif.Model.V0.Psbt
import Verif.Model.V2.Combine
namespace Psbt.V0
open Psbt

variable {L : Lib}

/-- The loop merging the xpubs, src/v0/bitcoin/mod.rs:240-270, over the other PSBT's entries in key order: the map as the
loop leaves it, and how it ended. `derivation1.len() - derivation2.len()` panics when it underflows (in a release build
the slice bounds check that follows does). -/
def mergeXpubs (m : BMap L.xpub.T KeySource) : List (L.xpub.T × KeySource) → BMap L.xpub.T KeySource × Out Err Unit
  | [] => (m, .ok ())
  | (x, (fp1, d1)) :: rest =>
    match m.get x with
    | none => mergeXpubs (m.insert x (fp1, d1)) rest
    | some (fp2, d2) =>
      if (d1 = d2 ∧ fp1 = fp2) ∨ (d1.length < d2.length ∧ d1 = d2.drop (d2.length - d1.length)) then mergeXpubs m rest
      else if d1.length < d2.length then (m, .error (.panic "attempt to subtract with overflow"))
      else if d2 = d1.drop (d1.length - d2.length) then mergeXpubs (m.insert x (fp1, d1)) rest
      else (m, .error (.err (.combineInconsistentKeySources x.bytes)))

/-- `Input::combine`, src/v0/bitcoin/map/input.rs:306-333. `V2.combOpt` is also `combine!`, src/v0/bitcoin/macros.rs:4-10,
and `V2.combUtxos` is also src/v0/bitcoin/map/input.rs:307-312. -/
def Input.combine (a b : Input L) : Input L where
  nonWitnessUtxo := (V2.combUtxos (a.nonWitnessUtxo, a.witnessUtxo) (b.nonWitnessUtxo, b.witnessUtxo)).1
  witnessUtxo := (V2.combUtxos (a.nonWitnessUtxo, a.witnessUtxo) (b.nonWitnessUtxo, b.witnessUtxo)).2
  partialSigs := a.partialSigs.extend b.partialSigs
  sighashType := a.sighashType
  redeemScript := V2.combOpt a.redeemScript b.redeemScript
  witnessScript := V2.combOpt a.witnessScript b.witnessScript
  bip32Derivation := a.bip32Derivation.extend b.bip32Derivation
  finalScriptSig := V2.combOpt a.finalScriptSig b.finalScriptSig
  finalScriptWitness := V2.combOpt a.finalScriptWitness b.finalScriptWitness
  ripemd160Preimages := a.ripemd160Preimages.extend b.ripemd160Preimages
  sha256Preimages := a.sha256Preimages.extend b.sha256Preimages
  hash160Preimages := a.hash160Preimages.extend b.hash160Preimages
  hash256Preimages := a.hash256Preimages.extend b.hash256Preimages
  tapKeySig := V2.combOpt a.tapKeySig b.tapKeySig
  tapScriptSigs := a.tapScriptSigs.extend b.tapScriptSigs
  tapScripts := a.tapScripts.extend b.tapScripts
  tapKeyOrigins := a.tapKeyOrigins.extend b.tapKeyOrigins
  tapInternalKey := V2.combOpt a.tapInternalKey b.tapInternalKey
  tapMerkleRoot := V2.combOpt a.tapMerkleRoot b.tapMerkleRoot
  proprietary := a.proprietary.extend b.proprietary
  unknown := a.unknown.extend b.unknown

/-- `Output::combine`, src/v0/bitcoin/map/output.rs:120-130. -/
def Output.combine (a b : Output L) : Output L where
  redeemScript := V2.combOpt a.redeemScript b.redeemScript
  witnessScript := V2.combOpt a.witnessScript b.witnessScript
  bip32Derivation := a.bip32Derivation.extend b.bip32Derivation
  tapInternalKey := V2.combOpt a.tapInternalKey b.tapInternalKey
  tapTree := V2.combOpt a.tapTree b.tapTree
  tapKeyOrigins := a.tapKeyOrigins.extend b.tapKeyOrigins
  proprietary := a.proprietary.extend b.proprietary
  unknown := a.unknown.extend b.unknown

/-- `for (x, y) in xs.iter_mut().zip(ys) { x.combine(y) }`, src/v0/bitcoin/mod.rs:275-281. -/
def combineZip {α : Type} (f : α → α → α) : List α → List α → List α
  | a :: as, b :: bs => f a b :: combineZip f as bs
  | as, _ => as

/-- `Psbt::combine(&mut self, other)`, src/v0/bitcoin/mod.rs:224-285: `self` afterwards, and the result. -/
def Psbt.combine (p q : Psbt L) : Psbt L × Out Err Unit :=
  if p.unsignedTx ≠ q.unsignedTx then (p, .error (.err (.unexpectedUnsignedTx p.unsignedTx q.unsignedTx)))
  else
    let p := { p with version := if p.version ≤ q.version then q.version else p.version }
    match mergeXpubs p.xpub q.xpub.l with
    | (m, .error e) => ({ p with xpub := m }, .error e)
    | (m, .ok ()) =>
      ({ p with
          xpub := m
          proprietary := p.proprietary.extend q.proprietary
          unknown := p.unknown.extend q.unknown
          inputs := combineZip Input.combine p.inputs q.inputs
          outputs := combineZip Output.combine p.outputs q.outputs }, .ok ())

end Psbt.V0
