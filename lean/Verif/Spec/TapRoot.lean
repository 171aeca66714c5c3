/- Merkle roots and control blocks of taproot script trees (BIP-341). -/
import Verif.Spec.Encoding
import Verif.Spec.TapTree
namespace Psbt.Spec
open Psbt

variable (L : Lib)

/-- What is hashed for a tagged hash (BIP-340), and the hash. -/
def taggedMsg (tag : String) (msg : Bytes) : Bytes :=
  let t := (L.sha256 (tag.toList.map fun c => c.toNat.toUInt8)).1
  t ++ t ++ msg
def tagged (tag : String) (msg : Bytes) : Hash32 := L.sha256 (taggedMsg L tag msg)

/-- The hash of a leaf. -/
def tapLeaf (ver : LeafVersion) (script : Bytes) : Hash32 := tagged L "TapLeaf" (ver.1 :: blob script)

/-- The hash of a node with these hashes below it, in whichever order: the smaller one is hashed first. -/
def tapBranch (a b : Hash32) : Hash32 := tagged L "TapBranch" (if a.1 < b.1 then a.1 ++ b.1 else b.1 ++ a.1)

/-- The Merkle root of a tree. -/
def Tree.root : Tree → Hash32
  | .leaf ver script => tapLeaf L ver script
  | .node l r => tapBranch L l.root r.root

/-- The strings that are hashed for it: one for each leaf and node. -/
def Tree.hashed : Tree → List Bytes
  | .leaf ver script => [taggedMsg L "TapLeaf" (ver.1 :: blob script)]
  | .node l r => taggedMsg L "TapBranch" (if (l.root L).1 < (r.root L).1 then (l.root L).1 ++ (r.root L).1 else (r.root L).1 ++ (l.root L).1) ::
      (l.hashed ++ r.hashed)

/-- No two of the strings have the same hash. -/
def CollisionFree (ms : List Bytes) : Prop := ∀ a ∈ ms, ∀ b ∈ ms, L.sha256 a = L.sha256 b → a = b

/-- The Merkle root of the tree listed, if it is not empty. -/
inductive MerkleRoot : List TapLeaf → Option Hash32 → Prop
  | empty : MerkleRoot [] none
  | tree {T : Tree} : T.height ≤ 128 → MerkleRoot (T.list 0) (some (T.root L))

/-- The tree with the children of every node in the order of their hashes. -/
def Tree.sorted : Tree → Tree
  | .leaf ver script => .leaf ver script
  | .node l r => if (r.root L).1 < (l.root L).1 then .node r.sorted l.sorted else .node l.sorted r.sorted

/-- A list of leaves on the wire (BIP-371): for every leaf its depth, its version, and its script with the length in front. -/
def treeBytes (ls : List TapLeaf) : Bytes := ls.flatMap fun l => [l.depth, l.ver.1] ++ blob l.script

/-- The Merkle proof of a leaf with this script: the hashes beside the way from it to the root. -/
inductive Path (ver : LeafVersion) (script : Bytes) : Tree → List Hash32 → Prop
  | leaf : Path ver script (.leaf ver script) []
  | left {l r p} : Path ver script l p → Path ver script (.node l r) (p ++ [r.root L])
  | right {l r p} : Path ver script r p → Path ver script (.node l r) (p ++ [l.root L])

/-- The hashes one after the other. -/
def pathBytes (p : List Hash32) : Bytes := p.flatMap fun h => h.1

/-- The proof that is used: the shortest one; of several of the same length the one whose bytes are smallest. -/
def BestPath (ver : LeafVersion) (script : Bytes) (T : Tree) (p : List Hash32) : Prop :=
  Path L ver script T p ∧ ∀ q, Path L ver script T q →
    p.length < q.length ∨ p.length = q.length ∧ (p = q ∨ pathBytes p < pathBytes q)

/-- The root a Merkle proof leads to from a hash. -/
def proven : Hash32 → List Hash32 → Hash32
  | h, [] => h
  | h, s :: p => proven (tapBranch L h s) p

/-- A control block: leaf version and parity of the output key in a byte, internal key, proof. -/
def controlBytes (ver : LeafVersion) (odd : Bool) (key : Bytes) (p : List Hash32) : Bytes :=
  (if odd then ver.1 + 1 else ver.1) :: (key ++ pathBytes p)

end Psbt.Spec
