/- What is left of a PSBT v2 when its silent payment data is dropped, and the serde implementations of rust-bitcoin as a build without
silent payments has them: the same ones. -/
import Verif.Spec.Feature
import Verif.Model.Serde
namespace Psbt.Spec
open Psbt Psbt.V2
variable {L : Lib}

/-- A PSBT as a build without silent payments has it, once the silent payment data is dropped. Unlike in `plainPsbt` it is not
among the unknown records either. -/
def dropSilent (n m : Nat) (p : V2.Psbt L) : V2.Psbt (plain L n m) where
  global := { plainGlobal n m p.global with unknowns := p.global.unknowns }
  inputs := p.inputs.map fun i => { plainInput n m i with unknowns := i.unknowns }
  outputs := p.outputs.map fun o => { plainOutput n m o with unknowns := o.unknowns }

/-- A PSBT has no silent payment data. -/
structure NoSilentData (p : V2.Psbt L) : Prop where
  global : p.global.spEcdhShares = .empty ∧ p.global.spDleqProofs = .empty
  inputs : ∀ i ∈ p.inputs, i.spEcdhShares = .empty ∧ i.spDleqProofs = .empty
  outputs : ∀ o ∈ p.outputs, o.spV0Info = none ∧ o.spV0Label = none

/-- The implementations of rust-bitcoin do not depend on the features of this crate. -/
def plainSerde (n m : Nat) (S : SerdeLib L) : SerdeLib (plain L n m) where
  u32 := S.u32
  usize := S.usize
  txid := S.txid
  sequence := S.sequence
  time := S.time
  height := S.height
  tx := S.tx
  txOut := S.txOut
  pubkey := S.pubkey
  ecdsaSig := ⟨fun f s => S.ecdsaSig.ser f ⟨s.der, s.ty⟩, fun f v => (S.ecdsaSig.de f v).map fun s => ⟨s.der, s.ty⟩⟩
  script := S.script
  secpPk := S.secpPk
  fingerprint := S.fingerprint
  path := S.path
  witness := S.witness
  ripemd160 := S.ripemd160
  sha256 := S.sha256
  hash160 := S.hash160
  sha256d := S.sha256d
  tapSig := S.tapSig
  xonly := S.xonly
  leafHash := S.leafHash
  ctrl := S.ctrl
  leafVersion := S.leafVersion
  nodeHash := S.nodeHash
  compressed := S.compressed
  txVersion := S.txVersion
  lockTime := S.lockTime
  xpub := S.xpub
  amount := S.amount
  tapTree := ⟨fun f t => S.tapTree.ser f ⟨t.leaves, t.ok⟩, fun f v => (S.tapTree.de f v).map fun t => ⟨t.leaves, t.ok⟩⟩

end Psbt.Spec
