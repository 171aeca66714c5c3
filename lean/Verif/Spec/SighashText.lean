/- How sighash types are written. -/
import Verif.Model.Basic
namespace Psbt.Spec

/-- The types that have names. -/
def sighashNames : List (String × UInt32) :=
  [("SIGHASH_DEFAULT", 0x00), ("SIGHASH_ALL", 0x01), ("SIGHASH_NONE", 0x02), ("SIGHASH_SINGLE", 0x03),
   ("SIGHASH_ALL|SIGHASH_ANYONECANPAY", 0x81), ("SIGHASH_NONE|SIGHASH_ANYONECANPAY", 0x82),
   ("SIGHASH_SINGLE|SIGHASH_ANYONECANPAY", 0x83)]

/-- The hexadecimal digits and their values; those written as output, and those read. -/
def lowerDigits : List (Char × Nat) :=
  [('0', 0), ('1', 1), ('2', 2), ('3', 3), ('4', 4), ('5', 5), ('6', 6), ('7', 7), ('8', 8), ('9', 9),
   ('a', 10), ('b', 11), ('c', 12), ('d', 13), ('e', 14), ('f', 15)]
def anyDigits : List (Char × Nat) := lowerDigits ++ [('A', 10), ('B', 11), ('C', 12), ('D', 13), ('E', 14), ('F', 15)]

/-- The value of digits, the most significant first. -/
def value (ds : List (Char × Nat)) : Nat := ds.foldl (fun a d => 16 * a + d.2) 0

/-- The text is accepted for the sighash type `n`: it is a name, or a hexadecimal number. A number may have the prefix `0x`,
even several times, and a plus sign after that. -/
inductive SighashText : List Char → UInt32 → Prop
  | name {s n} : (s, n) ∈ sighashNames → SighashText s.toList n
  | number {ds n} (k : Nat) (plus : Bool) : (∀ d ∈ ds, d ∈ anyDigits) → ds ≠ [] → value ds = n.toNat →
      SighashText ((List.replicate k ['0', 'x']).flatten ++ (if plus then ['+'] else []) ++ ds.map Prod.fst) n

end Psbt.Spec
