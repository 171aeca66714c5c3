/- `PsbtSighashType`: src/sighash_type.rs. The type is its `u32`. Text is a list of characters. -/
import Verif.Model.Ser
namespace Psbt

/-- `EcdsaSighashType::from_standard` as a value. -/
def ecdsaTyOf (n : UInt32) : Option EcdsaTy :=
  if h : ecdsaStandard n.toUInt8.toUInt32 = true then if n ≤ 0xff then some ⟨n.toUInt8, h⟩ else none else none

/-- `PsbtSighashType::ecdsa_hash_ty`, src/sighash_type.rs:67-69; `none` is `NonStandardSighashTypeError`. -/
def ecdsaHashTy (n : UInt32) : Option EcdsaTy := ecdsaTyOf n

/-- `PsbtSighashType::taproot_hash_ty`, src/sighash_type.rs:73-80; `none` is `InvalidSighashTypeError`. -/
def taprootHashTy (n : UInt32) : Option TapTy :=
  if n > 0xff then none
  else if h : tapStandard n.toUInt8 = true then some ⟨n.toUInt8, h⟩ else none

/-- `From<EcdsaSighashType>`, src/sighash_type.rs:52-56. -/
def ofEcdsaTy (t : EcdsaTy) : UInt32 := t.1.toUInt32
/-- `From<TapSighashType>`, src/sighash_type.rs:58-62. -/
def ofTapTy (t : TapTy) : UInt32 := t.1.toUInt32
/-- `from_u32`, src/sighash_type.rs:86. -/
def sighashFromU32 (n : UInt32) : UInt32 := n
/-- `to_u32`, src/sighash_type.rs:91. -/
def sighashToU32 (n : UInt32) : UInt32 := n

/-- `Display for TapSighashType` of rust-bitcoin. -/
def tapName (t : TapTy) : List Char :=
  if t.1 = 0x00 then "SIGHASH_DEFAULT".toList
  else if t.1 = 0x01 then "SIGHASH_ALL".toList
  else if t.1 = 0x02 then "SIGHASH_NONE".toList
  else if t.1 = 0x03 then "SIGHASH_SINGLE".toList
  else if t.1 = 0x81 then "SIGHASH_ALL|SIGHASH_ANYONECANPAY".toList
  else if t.1 = 0x82 then "SIGHASH_NONE|SIGHASH_ANYONECANPAY".toList
  else "SIGHASH_SINGLE|SIGHASH_ANYONECANPAY".toList

/-- `FromStr for TapSighashType` of rust-bitcoin. -/
def tapOfName (s : List Char) : Option TapTy :=
  if s = "SIGHASH_DEFAULT".toList then some ⟨0x00, by decide⟩
  else if s = "SIGHASH_ALL".toList then some ⟨0x01, by decide⟩
  else if s = "SIGHASH_NONE".toList then some ⟨0x02, by decide⟩
  else if s = "SIGHASH_SINGLE".toList then some ⟨0x03, by decide⟩
  else if s = "SIGHASH_ALL|SIGHASH_ANYONECANPAY".toList then some ⟨0x81, by decide⟩
  else if s = "SIGHASH_NONE|SIGHASH_ANYONECANPAY".toList then some ⟨0x82, by decide⟩
  else if s = "SIGHASH_SINGLE|SIGHASH_ANYONECANPAY".toList then some ⟨0x83, by decide⟩
  else none

/-- A lower-case hexadecimal digit. -/
def hexDigit (n : Nat) : Char := if n < 10 then Char.ofNat (48 + n) else Char.ofNat (87 + n)

/-- `{:x}`: hexadecimal without leading zeros. -/
def hexStr (n : Nat) : List Char := if h : n < 16 then [hexDigit n] else hexStr (n / 16) ++ [hexDigit (n % 16)]
  termination_by n

/-- `char::to_digit(16)`: both cases. -/
def digitOf (c : Char) : Option Nat :=
  let n := c.toNat
  if 48 ≤ n ∧ n ≤ 57 then some (n - 48)
  else if 97 ≤ n ∧ n ≤ 102 then some (n - 87)
  else if 65 ≤ n ∧ n ≤ 70 then some (n - 55)
  else none

/-- The digits of `u32::from_str_radix(_, 16)`: fails on a non-digit or when the value leaves the `u32` range. -/
def radixLoop (acc : Nat) : List Char → Option Nat
  | [] => some acc
  | c :: cs =>
    match digitOf c with
    | none => none
    | some d => if acc * 16 + d < 2 ^ 32 then radixLoop (acc * 16 + d) cs else none

/-- `u32::from_str_radix(_, 16)`: an optional plus sign, then at least one digit. -/
def fromStrRadix16 (s : List Char) : Option Nat :=
  match s with
  | [] => none
  | ['+'] => none
  | '+' :: cs => radixLoop 0 cs
  | cs => radixLoop 0 cs

/-- `str::trim_start_matches("0x")`: removes the prefix as often as it occurs. -/
def trim0x : List Char → List Char
  | '0' :: 'x' :: cs => trim0x cs
  | cs => cs

/-- `Display for PsbtSighashType`, src/sighash_type.rs:21-28. -/
def sighashDisplay (n : UInt32) : List Char :=
  match taprootHashTy n with
  | some t => tapName t
  | none => '0' :: 'x' :: hexStr n.toNat

/-- `FromStr for PsbtSighashType`, src/sighash_type.rs:30-51; `none` is the error. -/
def sighashFromStr (s : List Char) : Option UInt32 :=
  match tapOfName s with
  | some t => some (ofTapTy t)
  | none =>
    match fromStrRadix16 (trim0x s) with
    | some n => some (UInt32.ofNat n)
    | none => none

end Psbt
