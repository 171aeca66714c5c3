/-
Script patterns of rust-bitcoin 0.32 (`bitcoin::blockdata::script::borrowed`) that the crate relies on, and the output
types of a spend. The patterns model the dependency; `OutputType` is src/v2/mod.rs:1154-1181 and
src/v0/bitcoin/mod.rs (same enum).
-/
import Verif.Model.Basic
namespace Psbt

/-- `Script::is_p2sh`: HASH160, push 20, 20 bytes, EQUAL. -/
def isP2sh (s : Bytes) : Bool := s.length == 23 && s[0]? == some 0xa9 && s[1]? == some 0x14 && s[22]? == some 0x87

/-- `Script::is_witness_program`: a version opcode (0, 1..16), then one push of 2 to 40 bytes and nothing else. -/
def isWitnessProgram (s : Bytes) : Bool :=
  match s with
  | v :: p :: r =>
    decide (4 ≤ s.length ∧ s.length ≤ 42) && (v == 0x00 || decide (0x51 ≤ v ∧ v ≤ 0x60)) && decide (2 ≤ p ∧ p ≤ 40)
      && r.length == p.toNat
  | _ => false

/-- `Script::is_p2wpkh`. -/
def isP2wpkh (s : Bytes) : Bool := s.length == 22 && s[0]? == some 0x00 && s[1]? == some 0x14
/-- `Script::is_p2wsh`. -/
def isP2wsh (s : Bytes) : Bool := s.length == 34 && s[0]? == some 0x00 && s[1]? == some 0x20
/-- `Script::is_p2tr`. -/
def isP2tr (s : Bytes) : Bool := s.length == 34 && s[0]? == some 0x51 && s[1]? == some 0x20
/-- `Script::is_p2pkh`. -/
def isP2pkh (s : Bytes) : Bool :=
  s.length == 25 && s[0]? == some 0x76 && s[1]? == some 0xa9 && s[2]? == some 0x14 && s[23]? == some 0x88
    && s[24]? == some 0xac

/-- `Script::p2wpkh_script_code`: DUP HASH160 <the 20 bytes> EQUALVERIFY CHECKSIG, if the script is P2WPKH. -/
def p2wpkhScriptCode (s : Bytes) : Option Bytes :=
  if isP2wpkh s then some ([0x76, 0xa9, 0x14] ++ s.drop 2 ++ [0x88, 0xac]) else none

/-- `OutputType`, src/v2/mod.rs:1154-1170. -/
inductive OutputType where
  | bare | wpkh | wsh | shWpkh | shWsh | sh | tr
  deriving DecidableEq, Repr

/-- `SigningAlgorithm`, src/v2/mod.rs:1185-1194. -/
inductive SigningAlgorithm where
  | ecdsa | schnorr
  deriving DecidableEq, Repr

/-- `OutputType::signing_algorithm`, src/v2/mod.rs:1172-1180. -/
def OutputType.signingAlgorithm : OutputType → SigningAlgorithm
  | .bare | .wpkh | .wsh | .shWpkh | .shWsh | .sh => .ecdsa
  | .tr => .schnorr

/-- The decision of `Psbt::output_type` once the funding output is known, src/v2/mod.rs:916-944 (and the same code in
src/v0/bitcoin/mod.rs:672-702). `none`: unknown. -/
def outputTypeOf (spk : Bytes) (redeem : Option Bytes) : Option OutputType :=
  if !(isWitnessProgram spk || isP2sh spk) then some .bare
  else if isP2wpkh spk then some .wpkh
  else if isP2wsh spk then some .wsh
  else if isP2sh spk then
    if (redeem.map isP2wpkh).getD false then some .shWpkh
    else if (redeem.map isP2wsh).getD false then some .shWsh
    else some .sh
  else if isP2tr spk then some .tr
  else none

end Psbt
