/- Specification: integers on the wire. -/
import Verif.Model.Basic
namespace Psbt.Spec

/-- The value of a little-endian byte string. -/
def leValue : Bytes → Nat
  | [] => 0
  | b :: r => b.toNat + 256 * leValue r

/-- `p` is the compact-size encoding of `n` (BIP-174 `<compact size uint>`): 1 byte up to 252; 0xFD and 2 bytes up to
2^16-1; 0xFE and 4 bytes up to 2^32-1; 0xFF and 8 bytes up to 2^64-1; little endian, always the shortest form. -/
def IsCompactSize (n : Nat) (p : Bytes) : Prop :=
  (n ≤ 252 ∧ ∃ b : UInt8, b.toNat = n ∧ p = [b]) ∨
  (253 ≤ n ∧ n < 2 ^ 16 ∧ ∃ x, p = 0xFD :: x ∧ x.length = 2 ∧ leValue x = n) ∨
  (2 ^ 16 ≤ n ∧ n < 2 ^ 32 ∧ ∃ x, p = 0xFE :: x ∧ x.length = 4 ∧ leValue x = n) ∨
  (2 ^ 32 ≤ n ∧ n < 2 ^ 64 ∧ ∃ x, p = 0xFF :: x ∧ x.length = 8 ∧ leValue x = n)

/-- `x` is the 4-byte little-endian encoding of `n`. -/
def IsLE32 (n : UInt32) (x : Bytes) : Prop := x.length = 4 ∧ leValue x = n.toNat

/-- `x` is the 8-byte little-endian encoding of `n`. -/
def IsLE64 (n : UInt64) (x : Bytes) : Prop := x.length = 8 ∧ leValue x = n.toNat

end Psbt.Spec
