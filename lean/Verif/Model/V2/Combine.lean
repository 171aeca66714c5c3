/- Combining PSBT v2: src/v2/mod.rs:79, 675-687 and the `combine` functions of the maps. -/
import Verif.Model.V2.Psbt
namespace Psbt.V2
open Psbt

variable {L : Lib}

/-- `v2_combine_option!`, src/macros.rs:7-13: keep our value, else take theirs. -/
def combOpt {α : Type} (a b : Option α) : Option α :=
  match a, b with
  | none, some y => some y
  | a, _ => a

/-- `global::CombineError`, src/v2/map/global.rs:732-749. -/
inductive GlobalCombErr (L : Lib) where
  | version (this that : Version)
  | txVersion (this that : UInt32)
  | inconsistentKeySources (x : L.xpub.T)

/-- `input::CombineError`, src/v2/map/input.rs:1053-1068. -/
inductive InputCombErr where
  | previousTxid (this that : Hash32)
  | spentOutputIndex (this that : UInt32)

/-- `output::CombineError`, src/v2/map/output.rs:446-461. -/
inductive OutputCombErr where
  | amount (this that : UInt64)
  | scriptPubkey (this that : Bytes)

/-- `CombineError`, src/v2/mod.rs:1319-1326. -/
inductive CombErr (L : Lib) where
  | global (e : GlobalCombErr L)
  | input (e : InputCombErr)
  | output (e : OutputCombErr)

/-- The loop merging the xpubs, src/v2/map/global.rs:412-444, over the other PSBT's entries in key order. The second
comparison computes `derivation1.len() - derivation2.len()`; when that underflows the program panics (in a debug build
by the overflow check, in a release build by the slice bounds check that follows). -/
def mergeXpubs (m : BMap L.xpub.T KeySource) : List (L.xpub.T × KeySource) → Out (GlobalCombErr L) (BMap L.xpub.T KeySource)
  | [] => .ok m
  | (x, (fp1, d1)) :: rest =>
    match m.get x with
    | none => mergeXpubs (m.insert x (fp1, d1)) rest
    | some (fp2, d2) =>
      if (d1 = d2 ∧ fp1 = fp2) ∨ (d1.length < d2.length ∧ d1 = d2.drop (d2.length - d1.length)) then mergeXpubs m rest
      else if d1.length < d2.length then .error (.panic "attempt to subtract with overflow")
      else if d2 = d1.drop (d1.length - d2.length) then mergeXpubs (m.insert x (fp1, d1)) rest
      else .error (.err (.inconsistentKeySources x))

/-- `Global::combine`, src/v2/map/global.rs:394-454. On error Rust leaves the left map partly merged: that is
`Global.combineMut` below; `Psbt::combine_with` discards it. -/
def Global.combine (a b : Global L) : Out (GlobalCombErr L) (Global L) := do
  if a.version ≠ b.version then .error (.err (.version a.version b.version))
  else if a.txVersion ≠ b.txVersion then .error (.err (.txVersion a.txVersion b.txVersion))
  else
    let xpubs ← mergeXpubs a.xpubs b.xpubs.l
    .ok { a with
      xpubs
      spEcdhShares := a.spEcdhShares.extend b.spEcdhShares
      spDleqProofs := a.spDleqProofs.extend b.spDleqProofs
      proprietaries := a.proprietaries.extend b.proprietaries
      unknowns := a.unknowns.extend b.unknowns }

/-- The loop merging the xpubs, src/v2/map/global.rs:412-444, as it changes `self.xpubs`: the map as the loop leaves it, and
how it ended. -/
def mergeXpubsMut (m : BMap L.xpub.T KeySource) :
    List (L.xpub.T × KeySource) → BMap L.xpub.T KeySource × Out (GlobalCombErr L) Unit
  | [] => (m, .ok ())
  | (x, (fp1, d1)) :: rest =>
    match m.get x with
    | none => mergeXpubsMut (m.insert x (fp1, d1)) rest
    | some (fp2, d2) =>
      if (d1 = d2 ∧ fp1 = fp2) ∨ (d1.length < d2.length ∧ d1 = d2.drop (d2.length - d1.length)) then mergeXpubsMut m rest
      else if d1.length < d2.length then (m, .error (.panic "attempt to subtract with overflow"))
      else if d2 = d1.drop (d1.length - d2.length) then mergeXpubsMut (m.insert x (fp1, d1)) rest
      else (m, .error (.err (.inconsistentKeySources x)))

/-- `Global::combine(&mut self, other)`, src/v2/map/global.rs:394-454: `self` afterwards, and the result. -/
def Global.combineMut (a b : Global L) : Global L × Out (GlobalCombErr L) Unit :=
  if a.version ≠ b.version then (a, .error (.err (.version a.version b.version)))
  else if a.txVersion ≠ b.txVersion then (a, .error (.err (.txVersion a.txVersion b.txVersion)))
  else
    match mergeXpubsMut a.xpubs b.xpubs.l with
    | (m, .error e) => ({ a with xpubs := m }, .error e)
    | (m, .ok ()) =>
      ({ a with
          xpubs := m
          spEcdhShares := a.spEcdhShares.extend b.spEcdhShares
          spDleqProofs := a.spDleqProofs.extend b.spDleqProofs
          proprietaries := a.proprietaries.extend b.proprietaries
          unknowns := a.unknowns.extend b.unknowns }, .ok ())

/-- The two UTXO fields, src/v2/map/input.rs:623-630: a witness UTXO taken from the other side replaces any
non-witness UTXO. -/
def combUtxos (a b : Option Tx × Option TxOut) : Option Tx × Option TxOut :=
  let nw := combOpt a.1 b.1
  match a.2, b.2 with
  | none, some w => (none, some w)
  | w, _ => (nw, w)

/-- `Input::combine`, src/v2/map/input.rs:604-656. -/
def Input.combine (a b : Input L) : Except InputCombErr (Input L) :=
  if a.previousTxid ≠ b.previousTxid then .error (.previousTxid a.previousTxid b.previousTxid)
  else if a.spentOutputIndex ≠ b.spentOutputIndex then .error (.spentOutputIndex a.spentOutputIndex b.spentOutputIndex)
  else
    .ok {
      previousTxid := a.previousTxid
      spentOutputIndex := a.spentOutputIndex
      sequence := combOpt a.sequence b.sequence
      minTime := combOpt a.minTime b.minTime
      minHeight := combOpt a.minHeight b.minHeight
      nonWitnessUtxo := (combUtxos (a.nonWitnessUtxo, a.witnessUtxo) (b.nonWitnessUtxo, b.witnessUtxo)).1
      witnessUtxo := (combUtxos (a.nonWitnessUtxo, a.witnessUtxo) (b.nonWitnessUtxo, b.witnessUtxo)).2
      partialSigs := a.partialSigs.extend b.partialSigs
      sighashType := a.sighashType
      redeemScript := combOpt a.redeemScript b.redeemScript
      witnessScript := combOpt a.witnessScript b.witnessScript
      bip32Derivations := a.bip32Derivations.extend b.bip32Derivations
      finalScriptSig := combOpt a.finalScriptSig b.finalScriptSig
      finalScriptWitness := combOpt a.finalScriptWitness b.finalScriptWitness
      ripemd160Preimages := a.ripemd160Preimages.extend b.ripemd160Preimages
      sha256Preimages := a.sha256Preimages.extend b.sha256Preimages
      hash160Preimages := a.hash160Preimages.extend b.hash160Preimages
      hash256Preimages := a.hash256Preimages.extend b.hash256Preimages
      tapKeySig := combOpt a.tapKeySig b.tapKeySig
      tapScriptSigs := a.tapScriptSigs.extend b.tapScriptSigs
      tapScripts := a.tapScripts.extend b.tapScripts
      tapKeyOrigins := a.tapKeyOrigins.extend b.tapKeyOrigins
      tapInternalKey := combOpt a.tapInternalKey b.tapInternalKey
      tapMerkleRoot := combOpt a.tapMerkleRoot b.tapMerkleRoot
      spEcdhShares := a.spEcdhShares.extend b.spEcdhShares
      spDleqProofs := a.spDleqProofs.extend b.spDleqProofs
      proprietaries := a.proprietaries.extend b.proprietaries
      unknowns := a.unknowns.extend b.unknowns }

/-- `Output::combine`, src/v2/map/output.rs:239-265. -/
def Output.combine (a b : Output L) : Except OutputCombErr (Output L) :=
  if a.amount ≠ b.amount then .error (.amount a.amount b.amount)
  else if a.scriptPubkey ≠ b.scriptPubkey then .error (.scriptPubkey a.scriptPubkey b.scriptPubkey)
  else
    .ok {
      amount := a.amount
      scriptPubkey := a.scriptPubkey
      redeemScript := combOpt a.redeemScript b.redeemScript
      witnessScript := combOpt a.witnessScript b.witnessScript
      bip32Derivations := a.bip32Derivations.extend b.bip32Derivations
      tapInternalKey := combOpt a.tapInternalKey b.tapInternalKey
      tapTree := combOpt a.tapTree b.tapTree
      tapKeyOrigins := a.tapKeyOrigins.extend b.tapKeyOrigins
      spV0Info := combOpt a.spV0Info b.spV0Info
      spV0Label := combOpt a.spV0Label b.spV0Label
      proprietaries := a.proprietaries.extend b.proprietaries
      unknowns := a.unknowns.extend b.unknowns }

/-- `for (x, y) in self.iter_mut().zip(other) { x.combine(y)? }`, src/v2/mod.rs:678-684: combines the pairs; what
`self` has more stays, what `other` has more is dropped. -/
def combineZip {ε α : Type} (f : α → α → Except ε α) : List α → List α → Except ε (List α)
  | a :: as, b :: bs => do
    let c ← f a b
    let cs ← combineZip f as bs
    .ok (c :: cs)
  | as, _ => .ok as

/-- `Psbt::combine_with`, src/v2/mod.rs:675-687, and `combine`, src/v2/mod.rs:79. -/
def Psbt.combine (p q : Psbt L) : Out (CombErr L) (Psbt L) := do
  let global ← mapErr (fun | .err e => .err (.global e) | .panic s => .panic s) (p.global.combine q.global)
  let inputs ← orFail .input (combineZip Input.combine p.inputs q.inputs)
  let outputs ← orFail .output (combineZip Output.combine p.outputs q.outputs)
  .ok ⟨global, inputs, outputs⟩

end Psbt.V2
