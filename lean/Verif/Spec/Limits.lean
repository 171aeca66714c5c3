/-
Specification: the size limits of the wire format. These are the limits the parser of the crate imposes; they are
stated here as plain numbers, without reference to the parser.
-/
import Verif.Model.Raw
namespace Psbt.Spec

/-- The longest value a key-value pair can carry: 4,000,000 bytes including its 5-byte length prefix. -/
def MAX_VALUE : Nat := 3999995

/-- The longest key data. -/
def MAX_KEY : Nat := 4000000

/-- A key-value pair within the limits. -/
def PairOk (p : Pair) : Prop := p.key.key.length ≤ MAX_KEY ∧ p.value.length ≤ MAX_VALUE

/-- A proprietary key within the limits: identifier prefix and key data (at most 1024 bytes). -/
def PropOk (k : PropKey) : Prop := k.pre.length ≤ MAX_VALUE ∧ k.key.length ≤ 1024

instance (p : Pair) : Decidable (PairOk p) := inferInstanceAs (Decidable (_ ∧ _))
instance (k : PropKey) : Decidable (PropOk k) := inferInstanceAs (Decidable (_ ∧ _))

end Psbt.Spec
