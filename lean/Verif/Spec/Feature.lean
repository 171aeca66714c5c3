/- What a PSBT v2 with silent payment data (BIP-375) is to a program that does not know about silent payments, after the rule of
BIP-174 that records of unknown types are kept: the same PSBT, with those records among the unknown ones. -/
import Verif.Model.V2.Psbt
import Verif.Spec.Encoding
namespace Psbt.Spec
open Psbt Psbt.V2

/-- The same libraries in a build without the `silent-payments` feature. The structures of the two builds need not have the same
size: `n + 1` and `m + 1` are the sizes of an input and of an output, any two positive numbers. -/
def plain (L : Lib) (n m : Nat) : Lib :=
  { L with
    sp := false
    inputSize := n + 1
    outputSize := m + 1
    inputSize_pos := Nat.succ_pos n
    outputSize_pos := Nat.succ_pos m }

/-- The map with the given records added. -/
def withRecords (u : BMap RawKey Bytes) (l : List (RawKey × Bytes)) : BMap RawKey Bytes := l.foldl (fun m r => m.insert r.1 r.2) u

/-- The records with the ECDH shares: `e` is the key type, the scan key is the key, the share is the value. -/
def shareRecords {L : Lib} (e : UInt8) (s : BMap L.compressed.T L.compressed.T) : List (RawKey × Bytes) :=
  s.l.map fun kv => (⟨e, kv.1.bytes⟩, kv.2.bytes)

/-- The records with the DLEQ proofs. -/
def proofRecords {L : Lib} (d : UInt8) (s : BMap L.compressed.T (FixedBytes 64)) : List (RawKey × Bytes) :=
  s.l.map fun kv => (⟨d, kv.1.bytes⟩, kv.2.1)

/-- The records with the silent payment address and label of an output. -/
def addressRecords (info : Option Bytes) (label : Option UInt32) : List (RawKey × Bytes) :=
  (info.toList.map fun v => (⟨0x09, []⟩, v)) ++ (label.toList.map fun v => (⟨0x0A, []⟩, le32 v))

variable {L : Lib}

/-- The global map as a build without silent payments has it. -/
def plainGlobal (n m : Nat) (g : Global L) : Global (plain L n m) where
  version := g.version
  txVersion := g.txVersion
  fallbackLockTime := g.fallbackLockTime
  txModifiableFlags := g.txModifiableFlags
  inputCount := g.inputCount
  outputCount := g.outputCount
  xpubs := g.xpubs
  spEcdhShares := .empty
  spDleqProofs := .empty
  proprietaries := g.proprietaries
  unknowns := withRecords g.unknowns (shareRecords 0x07 g.spEcdhShares ++ proofRecords 0x08 g.spDleqProofs)

/-- The same map, with each value written in another way. -/
def mapTo {K V W : Type} [OrdKey K] [DecidableEq K] (f : V → W) (m : BMap K V) : BMap K W :=
  ⟨m.l.map fun kv => (kv.1, f kv.2), by
    obtain ⟨l, h⟩ := m
    induction l with
    | nil => trivial
    | cons a r ih =>
      cases r with
      | nil => trivial
      | cons b r => exact ⟨h.1, ih h.2⟩⟩

/-- An input map as a build without silent payments has it. -/
def plainInput (n m : Nat) (i : Input L) : Input (plain L n m) where
  previousTxid := i.previousTxid
  spentOutputIndex := i.spentOutputIndex
  sequence := i.sequence
  minTime := i.minTime
  minHeight := i.minHeight
  nonWitnessUtxo := i.nonWitnessUtxo
  witnessUtxo := i.witnessUtxo
  partialSigs := mapTo (K := L.pubkey.T) (fun s : EcdsaSig L => (⟨s.der, s.ty⟩ : EcdsaSig (plain L n m))) i.partialSigs
  sighashType := i.sighashType
  redeemScript := i.redeemScript
  witnessScript := i.witnessScript
  bip32Derivations := i.bip32Derivations
  finalScriptSig := i.finalScriptSig
  finalScriptWitness := i.finalScriptWitness
  ripemd160Preimages := i.ripemd160Preimages
  sha256Preimages := i.sha256Preimages
  hash160Preimages := i.hash160Preimages
  hash256Preimages := i.hash256Preimages
  tapKeySig := i.tapKeySig
  tapScriptSigs := i.tapScriptSigs
  tapScripts := i.tapScripts
  tapKeyOrigins := i.tapKeyOrigins
  tapInternalKey := i.tapInternalKey
  tapMerkleRoot := i.tapMerkleRoot
  spEcdhShares := .empty
  spDleqProofs := .empty
  proprietaries := i.proprietaries
  unknowns := withRecords i.unknowns (shareRecords 0x1D i.spEcdhShares ++ proofRecords 0x1E i.spDleqProofs)

/-- An output map as a build without silent payments has it. -/
def plainOutput (n m : Nat) (o : Output L) : Output (plain L n m) where
  amount := o.amount
  scriptPubkey := o.scriptPubkey
  redeemScript := o.redeemScript
  witnessScript := o.witnessScript
  bip32Derivations := o.bip32Derivations
  tapInternalKey := o.tapInternalKey
  tapTree := o.tapTree.map fun t => ⟨t.leaves, t.ok⟩
  tapKeyOrigins := o.tapKeyOrigins
  spV0Info := none
  spV0Label := none
  proprietaries := o.proprietaries
  unknowns := withRecords o.unknowns (addressRecords o.spV0Info o.spV0Label)

/-- A PSBT as a build without silent payments has it. -/
def plainPsbt (n m : Nat) (p : V2.Psbt L) : V2.Psbt (plain L n m) :=
  ⟨plainGlobal n m p.global, p.inputs.map (plainInput n m), p.outputs.map (plainOutput n m)⟩

/-- Two PSBTs have the same silent payment data, and the same records of unknown types. -/
structure SameSilent {L : Lib} (p q : V2.Psbt L) : Prop where
  global : p.global.spEcdhShares = q.global.spEcdhShares ∧ p.global.spDleqProofs = q.global.spDleqProofs ∧
    p.global.unknowns = q.global.unknowns
  inputs : (p.inputs.map fun i => (i.spEcdhShares, i.spDleqProofs, i.unknowns)) =
    q.inputs.map fun i => (i.spEcdhShares, i.spDleqProofs, i.unknowns)
  outputs : (p.outputs.map fun o => (o.spV0Info, o.spV0Label, o.unknowns)) = q.outputs.map fun o => (o.spV0Info, o.spV0Label, o.unknowns)

/-- Two PSBTs have the same records of unknown types, map by map. -/
structure SameUnknowns {L : Lib} (p q : V2.Psbt L) : Prop where
  global : p.global.unknowns = q.global.unknowns
  inputs : (p.inputs.map fun i => i.unknowns) = q.inputs.map fun i => i.unknowns
  outputs : (p.outputs.map fun o => o.unknowns) = q.outputs.map fun o => o.unknowns

/-- No record of unknown type is of a type that silent payments use. -/
structure NoSilent {L : Lib} (p : V2.Psbt L) : Prop where
  global : ∀ k v, p.global.unknowns.get k = some v → k.ty ≠ 0x07 ∧ k.ty ≠ 0x08
  inputs : ∀ i ∈ p.inputs, ∀ k v, i.unknowns.get k = some v → k.ty ≠ 0x1D ∧ k.ty ≠ 0x1E
  outputs : ∀ o ∈ p.outputs, ∀ k v, o.unknowns.get k = some v → k.ty ≠ 0x09 ∧ k.ty ≠ 0x0A

end Psbt.Spec
