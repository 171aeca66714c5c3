/-
The PSBT v0 format: which pairs a map consists of, with the key types, key data and value encodings that BIP-174 and
BIP-371 define; the encodings of Bitcoin itself are in `Spec.Encoding`.
-/
import Verif.Model.V0.Psbt
import Verif.Spec.V2Format
namespace Psbt.Spec.V0
open Psbt Psbt.V0 Psbt.Spec

variable {L : Lib}

/-- The pairs (key type, key data, value) of the global map. The version is written only if it is not 0. -/
inductive GlobalPair (p : V0.Psbt L) : UInt8 → Bytes → Bytes → Prop
  | unsignedTx : GlobalPair p 0x00 [] (unsignedTxBytes p.unsignedTx)
  | xpub {k v} : p.xpub.get k = some v → GlobalPair p 0x01 k.bytes (v.1.1 ++ v.2.flatMap le32)
  | version : p.version > 0 → GlobalPair p 0xFB [] (le32 p.version)
  | proprietary {k v} : p.proprietary.get k = some v → GlobalPair p 0xFC (blob k.pre ++ [k.subtype] ++ k.key) v
  | unknown {k v} : p.unknown.get k = some v → GlobalPair p k.ty k.key v

/-- The pairs of an input map. -/
inductive InputPair (i : Input L) : UInt8 → Bytes → Bytes → Prop
  | nonWitnessUtxo {v} : i.nonWitnessUtxo = some v → InputPair i 0x00 [] (txBytes v)
  | witnessUtxo {v} : i.witnessUtxo = some v → InputPair i 0x01 [] (txOutBytes v)
  | partialSig {k v} : i.partialSigs.get k = some v → InputPair i 0x02 k.bytes (v.der.bytes ++ [v.ty.1])
  | sighashType {v} : i.sighashType = some v → InputPair i 0x03 [] (le32 v)
  | redeemScript {v} : i.redeemScript = some v → InputPair i 0x04 [] v
  | witnessScript {v} : i.witnessScript = some v → InputPair i 0x05 [] v
  | bip32Derivation {k v} : i.bip32Derivation.get k = some v → InputPair i 0x06 k.bytes (v.1.1 ++ v.2.flatMap le32)
  | finalScriptSig {v} : i.finalScriptSig = some v → InputPair i 0x07 [] v
  | finalScriptWitness {v} : i.finalScriptWitness = some v → InputPair i 0x08 [] (witnessBytes v)
  | ripemd160 {k v} : i.ripemd160Preimages.get k = some v → InputPair i 0x0a k.1 v
  | sha256 {k v} : i.sha256Preimages.get k = some v → InputPair i 0x0b k.1 v
  | hash160 {k v} : i.hash160Preimages.get k = some v → InputPair i 0x0c k.1 v
  | hash256 {k v} : i.hash256Preimages.get k = some v → InputPair i 0x0d k.1 v
  | tapKeySig {v} : i.tapKeySig = some v → InputPair i 0x13 [] (v.sig.1 ++ if v.ty.1 = 0 then [] else [v.ty.1])
  | tapScriptSig {k v} : i.tapScriptSigs.get k = some v → InputPair i 0x14 (k.1.bytes ++ k.2.1) (v.sig.1 ++ if v.ty.1 = 0 then [] else [v.ty.1])
  | tapLeafScript {k v} : i.tapScripts.get k = some v → InputPair i 0x15 k.bytes (v.1 ++ [v.2.1])
  | tapBip32Derivation {k v} : i.tapKeyOrigins.get k = some v → InputPair i 0x16 k.bytes (compact v.1.length ++ v.1.flatMap Subtype.val ++ v.2.1.1 ++ v.2.2.flatMap le32)
  | tapInternalKey {v} : i.tapInternalKey = some v → InputPair i 0x17 [] v.bytes
  | tapMerkleRoot {v} : i.tapMerkleRoot = some v → InputPair i 0x18 [] v.1
  | proprietary {k v} : i.proprietary.get k = some v → InputPair i 0xFC (blob k.pre ++ [k.subtype] ++ k.key) v
  | unknown {k v} : i.unknown.get k = some v → InputPair i k.ty k.key v

/-- The pairs of an output map. -/
inductive OutputPair (o : Output L) : UInt8 → Bytes → Bytes → Prop
  | redeemScript {v} : o.redeemScript = some v → OutputPair o 0x00 [] v
  | witnessScript {v} : o.witnessScript = some v → OutputPair o 0x01 [] v
  | bip32Derivation {k v} : o.bip32Derivation.get k = some v → OutputPair o 0x02 k.bytes (v.1.1 ++ v.2.flatMap le32)
  | tapInternalKey {v} : o.tapInternalKey = some v → OutputPair o 0x05 [] v.bytes
  | tapTree {v} : o.tapTree = some v → OutputPair o 0x06 [] (v.leaves.flatMap fun l => [l.depth, l.ver.1] ++ blob l.script)
  | tapBip32Derivation {k v} : o.tapKeyOrigins.get k = some v → OutputPair o 0x07 k.bytes (compact v.1.length ++ v.1.flatMap Subtype.val ++ v.2.1.1 ++ v.2.2.flatMap le32)
  | proprietary {k v} : o.proprietary.get k = some v → OutputPair o 0xFC (blob k.pre ++ [k.subtype] ++ k.key) v
  | unknown {k v} : o.unknown.get k = some v → OutputPair o k.ty k.key v

end Psbt.Spec.V0
