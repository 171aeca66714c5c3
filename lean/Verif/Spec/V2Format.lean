/-
The PSBT v2 format: which pairs a map consists of, with the key types, key data and value encodings that BIP-174, BIP-370,
BIP-371 and BIP-375 define; the encodings of Bitcoin itself are in `Spec.Encoding`.
-/
import Verif.Model.V2.Psbt
import Verif.Spec.RawMap
namespace Psbt.Spec
open Psbt Psbt.V2

variable {L : Lib}

/-- The pairs (key type, key data, value) of a global map. -/
inductive GlobalPair (g : Global L) : UInt8 → Bytes → Bytes → Prop
  | version : GlobalPair g 0xFB [] (le32 g.version)
  | txVersion : GlobalPair g 0x02 [] (le32 g.txVersion)
  | fallbackLockTime {v} : g.fallbackLockTime = some v → GlobalPair g 0x03 [] (le32 v)
  | inputCount : GlobalPair g 0x04 [] (compact g.inputCount.toNat)
  | outputCount : GlobalPair g 0x05 [] (compact g.outputCount.toNat)
  | txModifiable : GlobalPair g 0x06 [] [g.txModifiableFlags]
  | xpub {k v} : g.xpubs.get k = some v → GlobalPair g 0x01 k.bytes (v.1.1 ++ v.2.flatMap le32)
  | spEcdhShare {k v} : L.sp = true → g.spEcdhShares.get k = some v → GlobalPair g 0x07 k.bytes v.bytes
  | spDleqProof {k v} : L.sp = true → g.spDleqProofs.get k = some v → GlobalPair g 0x08 k.bytes v.1
  | proprietary {k v} : g.proprietaries.get k = some v → GlobalPair g 0xFC (blob k.pre ++ [k.subtype] ++ k.key) v
  | unknown {k v} : g.unknowns.get k = some v → GlobalPair g k.ty k.key v

/-- The pairs of an input map. -/
inductive InputPair (i : Input L) : UInt8 → Bytes → Bytes → Prop
  | previousTxid : InputPair i 0x0e [] i.previousTxid.1
  | outputIndex : InputPair i 0x0f [] (le32 i.spentOutputIndex)
  | sequence {v} : i.sequence = some v → InputPair i 0x10 [] (le32 v)
  | timeLockTime {v} : i.minTime = some v → InputPair i 0x11 [] (le32 v.1)
  | heightLockTime {v} : i.minHeight = some v → InputPair i 0x12 [] (le32 v.1)
  | nonWitnessUtxo {v} : i.nonWitnessUtxo = some v → InputPair i 0x00 [] (txBytes v)
  | witnessUtxo {v} : i.witnessUtxo = some v → InputPair i 0x01 [] (txOutBytes v)
  | partialSig {k v} : i.partialSigs.get k = some v → InputPair i 0x02 k.bytes (v.der.bytes ++ [v.ty.1])
  | sighashType {v} : i.sighashType = some v → InputPair i 0x03 [] (le32 v)
  | redeemScript {v} : i.redeemScript = some v → InputPair i 0x04 [] v
  | witnessScript {v} : i.witnessScript = some v → InputPair i 0x05 [] v
  | bip32Derivation {k v} : i.bip32Derivations.get k = some v → InputPair i 0x06 k.bytes (v.1.1 ++ v.2.flatMap le32)
  | finalScriptSig {v} : i.finalScriptSig = some v → InputPair i 0x07 [] v
  | finalScriptWitness {v} : i.finalScriptWitness = some v → InputPair i 0x08 [] (witnessBytes v)
  | ripemd160 {k v} : i.ripemd160Preimages.get k = some v → InputPair i 0x0a k.1 v
  | sha256 {k v} : i.sha256Preimages.get k = some v → InputPair i 0x0b k.1 v
  | hash160 {k v} : i.hash160Preimages.get k = some v → InputPair i 0x0c k.1 v
  | hash256 {k v} : i.hash256Preimages.get k = some v → InputPair i 0x0d k.1 v
  | tapKeySig {v} : i.tapKeySig = some v → InputPair i 0x13 [] (v.sig.1 ++ if v.ty.1 = 0 then [] else [v.ty.1])
  | tapScriptSig {k v} : i.tapScriptSigs.get k = some v → InputPair i 0x14 (k.1.bytes ++ k.2.1) (v.sig.1 ++ if v.ty.1 = 0 then [] else [v.ty.1])
  | tapLeafScript {k v} : i.tapScripts.get k = some v → InputPair i 0x15 k.bytes (v.1 ++ [v.2.1])
  | tapBip32Derivation {k v} : i.tapKeyOrigins.get k = some v → InputPair i 0x16 k.bytes (compact v.1.length ++ v.1.flatMap Subtype.val ++ v.2.1.1 ++ v.2.2.flatMap le32)
  | tapInternalKey {v} : i.tapInternalKey = some v → InputPair i 0x17 [] v.bytes
  | tapMerkleRoot {v} : i.tapMerkleRoot = some v → InputPair i 0x18 [] v.1
  | spEcdhShare {k v} : L.sp = true → i.spEcdhShares.get k = some v → InputPair i 0x1D k.bytes v.bytes
  | spDleqProof {k v} : L.sp = true → i.spDleqProofs.get k = some v → InputPair i 0x1E k.bytes v.1
  | proprietary {k v} : i.proprietaries.get k = some v → InputPair i 0xFC (blob k.pre ++ [k.subtype] ++ k.key) v
  | unknown {k v} : i.unknowns.get k = some v → InputPair i k.ty k.key v

/-- The pairs of an output map. -/
inductive OutputPair (o : Output L) : UInt8 → Bytes → Bytes → Prop
  | amount : OutputPair o 0x03 [] (le64 o.amount)
  | script : OutputPair o 0x04 [] o.scriptPubkey
  | redeemScript {v} : o.redeemScript = some v → OutputPair o 0x00 [] v
  | witnessScript {v} : o.witnessScript = some v → OutputPair o 0x01 [] v
  | bip32Derivation {k v} : o.bip32Derivations.get k = some v → OutputPair o 0x02 k.bytes (v.1.1 ++ v.2.flatMap le32)
  | tapInternalKey {v} : o.tapInternalKey = some v → OutputPair o 0x05 [] v.bytes
  | tapTree {v} : o.tapTree = some v → OutputPair o 0x06 [] (v.leaves.flatMap fun l => [l.depth, l.ver.1] ++ blob l.script)
  | tapBip32Derivation {k v} : o.tapKeyOrigins.get k = some v → OutputPair o 0x07 k.bytes (compact v.1.length ++ v.1.flatMap Subtype.val ++ v.2.1.1 ++ v.2.2.flatMap le32)
  | spV0Info {v} : L.sp = true → o.spV0Info = some v → OutputPair o 0x09 [] v
  | spV0Label {v} : L.sp = true → o.spV0Label = some v → OutputPair o 0x0A [] (le32 v)
  | proprietary {k v} : o.proprietaries.get k = some v → OutputPair o 0xFC (blob k.pre ++ [k.subtype] ++ k.key) v
  | unknown {k v} : o.unknowns.get k = some v → OutputPair o k.ty k.key v

end Psbt.Spec
