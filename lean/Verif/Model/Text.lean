/- The string form of a PSBT: src/v2/mod.rs:1256-1284 and src/v0/bitcoin/mod.rs:1154-1215 (feature "base64"). A string is the list
of its UTF-8 bytes. -/
import Verif.Model.V2.Psbt
import Verif.Model.V0.Psbt
namespace Psbt

/-- The alphabet of `BASE64_STANDARD`: the character of a value below 64. -/
def b64Char (n : Nat) : UInt8 :=
  if n < 26 then UInt8.ofNat (n + 65)
  else if n < 52 then UInt8.ofNat (n + 71)
  else if n < 62 then UInt8.ofNat (n - 4)
  else if n = 62 then 43
  else 47

/-- The value of a character of the alphabet. -/
def b64Val (c : UInt8) : Option Nat :=
  if 65 ≤ c ∧ c ≤ 90 then some (c.toNat - 65)
  else if 97 ≤ c ∧ c ≤ 122 then some (c.toNat - 71)
  else if 48 ≤ c ∧ c ≤ 57 then some (c.toNat + 4)
  else if c = 43 then some 62
  else if c = 47 then some 63
  else none

/-- `Base64Display::new(_, &BASE64_STANDARD)` of the crate base64, src/v2/mod.rs:1269, src/v0/bitcoin/mod.rs:1203. Shifts and masks
are written as divisions and remainders. -/
def b64Encode : Bytes → Bytes
  | [] => []
  | [a] => [b64Char (a.toNat / 4), b64Char (a.toNat % 4 * 16), 61, 61]
  | [a, b] => [b64Char (a.toNat / 4), b64Char (a.toNat % 4 * 16 + b.toNat / 16), b64Char (b.toNat % 16 * 4), 61]
  | a :: b :: c :: r =>
    b64Char (a.toNat / 4) :: b64Char (a.toNat % 4 * 16 + b.toNat / 16) :: b64Char (b.toNat % 16 * 4 + c.toNat / 64) ::
      b64Char (c.toNat % 64) :: b64Encode r

/-- Three bytes from four values. -/
def b64Group (w x y z : Nat) : Bytes := [UInt8.ofNat (w * 4 + x / 16), UInt8.ofNat (x % 16 * 16 + y / 4), UInt8.ofNat (y % 4 * 64 + z)]

/-- The last four characters, of which the last one or two can be padding. Bits that are left over have to be zero. -/
def b64Last (a b c d : UInt8) : Option Bytes := do
  let w ← b64Val a
  let x ← b64Val b
  if c = 61 then
    if d = 61 ∧ x % 16 = 0 then some [UInt8.ofNat (w * 4 + x / 16)] else none
  else do
    let y ← b64Val c
    if d = 61 then
      if y % 4 = 0 then some [UInt8.ofNat (w * 4 + x / 16), UInt8.ofNat (x % 16 * 16 + y / 4)] else none
    else do
      let z ← b64Val d
      some (b64Group w x y z)

/-- `BASE64_STANDARD.decode` of the crate base64, src/v2/mod.rs:1277, src/v0/bitcoin/mod.rs:1211: padding is required. The errors are
not told apart. -/
def b64Decode : Bytes → Option Bytes
  | [] => some []
  | [a, b, c, d] => b64Last a b c d
  | a :: b :: c :: d :: r => do
    let w ← b64Val a
    let x ← b64Val b
    let y ← b64Val c
    let z ← b64Val d
    let rest ← b64Decode r
    some (b64Group w x y z ++ rest)
  | _ => none

/-- `ParsePsbtError`, src/v2/mod.rs:1284-1290, and `PsbtParseError`, src/v0/bitcoin/mod.rs:1166-1173. -/
inductive TextErr (E : Type) where
  | psbtEncoding (e : E)
  | base64Encoding
  deriving DecidableEq

namespace V2
/-- `Display for Psbt`, src/v2/mod.rs:1267-1271. -/
def Psbt.toText {L : Lib} (p : Psbt L) : Bytes := b64Encode p.serialize
/-- `FromStr for Psbt`, src/v2/mod.rs:1273-1281. -/
def Psbt.ofText (L : Lib) (s : Bytes) : Out (TextErr DeserErr) (Psbt L) :=
  match b64Decode s with
  | none => .error (.err .base64Encoding)
  | some b =>
    match Psbt.deserialize L b with
    | .ok p => .ok p
    | .error (.err e) => .error (.err (.psbtEncoding e))
    | .error (.panic w) => .error (.panic w)
end V2

namespace V0
/-- `Display for Psbt`, src/v0/bitcoin/mod.rs:1201-1205. -/
def Psbt.toText {L : Lib} (p : Psbt L) : Bytes := b64Encode p.serialize
/-- `FromStr for Psbt`, src/v0/bitcoin/mod.rs:1207-1214. -/
def Psbt.ofText (L : Lib) (s : Bytes) : Out (TextErr Err) (Psbt L) :=
  match b64Decode s with
  | none => .error (.err .base64Encoding)
  | some b =>
    match Psbt.deserialize L b with
    | .ok p => .ok p
    | .error (.err e) => .error (.err (.psbtEncoding e))
    | .error (.panic w) => .error (.panic w)
end V0

end Psbt
