/- Taproot script trees (BIP-341), and how a PSBT lists them (BIP-371). -/
import Verif.Model.TapBuilder
namespace Psbt.Spec
open Psbt

/-- A script tree: binary, with a script and its version at each leaf. -/
inductive Tree where
  | leaf (ver : LeafVersion) (script : Bytes)
  | node (l r : Tree)
  deriving DecidableEq

/-- The number of edges on the longest path to a leaf. -/
def Tree.height : Tree → Nat
  | .leaf _ _ => 0
  | .node l r => max l.height r.height + 1

/-- The leaves with their depths in the order of a depth-first walk; `d` is the depth of the root. -/
def Tree.list (d : Nat) : Tree → List TapLeaf
  | .leaf ver script => [⟨UInt8.ofNat d, ver, script⟩]
  | .node l r => l.list (d + 1) ++ r.list (d + 1)

/-- Trees that differ only in which child comes first. -/
inductive Swapped : Tree → Tree → Prop
  | leaf {v s} : Swapped (.leaf v s) (.leaf v s)
  | same {l l' r r'} : Swapped l l' → Swapped r r' → Swapped (.node l r) (.node l' r')
  | swap {l l' r r'} : Swapped l l' → Swapped r r' → Swapped (.node l r) (.node r' l')

end Psbt.Spec
