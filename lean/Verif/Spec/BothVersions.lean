/- The same PSBT in the two versions of the format, by BIP-370: what v0 says with the unsigned transaction, v2 says with fields of the
maps; all other records are the same. -/
import Verif.Model.V0.Psbt
import Verif.Spec.LockTime
import Verif.Spec.Roles
namespace Psbt.Spec

variable {L : Lib}

/-- The records that both versions have in an input map, other than taproot signatures. -/
structure SameInputRecords (i : V0.Input L) (j : V2.Input L) : Prop where
  nonWitnessUtxo : i.nonWitnessUtxo = j.nonWitnessUtxo
  witnessUtxo : i.witnessUtxo = j.witnessUtxo
  partialSigs : i.partialSigs = j.partialSigs
  sighashType : i.sighashType = j.sighashType
  redeemScript : i.redeemScript = j.redeemScript
  witnessScript : i.witnessScript = j.witnessScript
  bip32 : i.bip32Derivation = j.bip32Derivations
  finalScriptSig : i.finalScriptSig = j.finalScriptSig
  finalScriptWitness : i.finalScriptWitness = j.finalScriptWitness
  ripemd160 : i.ripemd160Preimages = j.ripemd160Preimages
  sha256 : i.sha256Preimages = j.sha256Preimages
  hash160 : i.hash160Preimages = j.hash160Preimages
  hash256 : i.hash256Preimages = j.hash256Preimages
  tapScripts : i.tapScripts = j.tapScripts
  tapKeyOrigins : i.tapKeyOrigins = j.tapKeyOrigins
  tapInternalKey : i.tapInternalKey = j.tapInternalKey
  tapMerkleRoot : i.tapMerkleRoot = j.tapMerkleRoot
  proprietary : i.proprietary = j.proprietaries
  unknown : i.unknown = j.unknowns

/-- What input `t` of the unsigned transaction says, and what the v2 input map says. A sequence number that is absent is the final one. -/
structure SameTxIn (t : TxIn) (j : V2.Input L) : Prop where
  txid : t.previousOutput.txid = j.previousTxid
  index : t.previousOutput.vout = j.spentOutputIndex
  sequence : j.sequence = some t.sequence ∨ j.sequence = none ∧ t.sequence = 0xFFFFFFFF
  unsigned : t.scriptSig = [] ∧ t.witness = []

structure SameOutputRecords (i : V0.Output L) (j : V2.Output L) : Prop where
  redeemScript : i.redeemScript = j.redeemScript
  witnessScript : i.witnessScript = j.witnessScript
  bip32 : i.bip32Derivation = j.bip32Derivations
  tapInternalKey : i.tapInternalKey = j.tapInternalKey
  tapTree : i.tapTree = j.tapTree
  tapKeyOrigins : i.tapKeyOrigins = j.tapKeyOrigins
  proprietary : i.proprietary = j.proprietaries
  unknown : i.unknown = j.unknowns

/-- The two lists are as long as each other and related position by position. -/
def Pointwise {α β : Type} (R : α → β → Prop) (as : List α) (bs : List β) : Prop :=
  as.length = bs.length ∧ ∀ (n : Nat) a b, as[n]? = some a → bs[n]? = some b → R a b

/-- A PSBT v0 and a PSBT v2 that say the same, except perhaps for taproot signatures. -/
structure SameButTapSigs (p : V0.Psbt L) (q : V2.Psbt L) : Prop where
  version : q.global.version = 2
  txVersion : p.unsignedTx.version = q.global.txVersion
  lockTime : LockTime q p.unsignedTx.lockTime
  count : q.global.inputCount.toNat = q.inputs.length
  txIn : Pointwise SameTxIn p.unsignedTx.input q.inputs
  txOut : Pointwise (fun o r => o.value = r.amount ∧ o.scriptPubkey = r.scriptPubkey) p.unsignedTx.output q.outputs
  inputs : Pointwise SameInputRecords p.inputs q.inputs
  outputs : Pointwise SameOutputRecords p.outputs q.outputs
  xpubs : p.xpub = q.global.xpubs
  proprietary : p.proprietary = q.global.proprietaries
  unknown : p.unknown = q.global.unknowns

/-- A PSBT v0 and a PSBT v2 that say the same. -/
structure SamePsbt (p : V0.Psbt L) (q : V2.Psbt L) : Prop extends SameButTapSigs p q where
  tapKeySig : p.inputs.map V0.Input.tapKeySig = q.inputs.map V2.Input.tapKeySig
  tapScriptSigs : p.inputs.map V0.Input.tapScriptSigs = q.inputs.map V2.Input.tapScriptSigs

end Psbt.Spec
