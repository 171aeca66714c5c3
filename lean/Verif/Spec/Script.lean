/- Script templates of BIP-16, BIP-141 and BIP-341, and what type of spend they make. -/
import Verif.Model.Script
namespace Psbt.Spec

/-- HASH160 <20 bytes> EQUAL. -/
def P2sh (s : Bytes) : Prop := ∃ h : FixedBytes 20, s = [0xa9, 0x14] ++ h.1 ++ [0x87]
/-- A version opcode 0 or 1 to 16, and one push of 2 to 40 bytes. -/
def WitnessProgram (s : Bytes) : Prop :=
  ∃ (v : UInt8) (prog : Bytes), (v = 0x00 ∨ 0x51 ≤ v ∧ v ≤ 0x60) ∧ 2 ≤ prog.length ∧ prog.length ≤ 40 ∧
    s = [v, UInt8.ofNat prog.length] ++ prog
/-- Version 0, 20 bytes. -/
def P2wpkh (s : Bytes) : Prop := ∃ h : FixedBytes 20, s = [0x00, 0x14] ++ h.1
/-- Version 0, 32 bytes. -/
def P2wsh (s : Bytes) : Prop := ∃ h : FixedBytes 32, s = [0x00, 0x20] ++ h.1
/-- Version 1, 32 bytes. -/
def P2tr (s : Bytes) : Prop := ∃ h : FixedBytes 32, s = [0x51, 0x20] ++ h.1
/-- DUP HASH160 <20 bytes> EQUALVERIFY CHECKSIG. -/
def P2pkh (s : Bytes) : Prop := ∃ h : FixedBytes 20, s = [0x76, 0xa9, 0x14] ++ h.1 ++ [0x88, 0xac]

/-- How an output with script `spk` is spent, given the redeem script the input carries. -/
inductive SpendType (spk : Bytes) (redeem : Option Bytes) : OutputType → Prop
  | wpkh : P2wpkh spk → SpendType spk redeem .wpkh
  | wsh : P2wsh spk → SpendType spk redeem .wsh
  | tr : P2tr spk → SpendType spk redeem .tr
  | shWpkh {r} : P2sh spk → redeem = some r → P2wpkh r → SpendType spk redeem .shWpkh
  | shWsh {r} : P2sh spk → redeem = some r → P2wsh r → SpendType spk redeem .shWsh
  | sh : P2sh spk → (∀ r, redeem = some r → ¬ P2wpkh r ∧ ¬ P2wsh r) → SpendType spk redeem .sh
  | bare : ¬ P2sh spk → ¬ WitnessProgram spk → SpendType spk redeem .bare

end Psbt.Spec
