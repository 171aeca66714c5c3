/-
The taproot tree builder of rust-bitcoin 0.32 (`bitcoin::taproot`: `TaprootBuilder`, `NodeInfo`, `LeafNode`), which
`Deserialize for TapTree` (src/serialize.rs:349-370, src/v0/bitcoin/serialize.rs:364-385) and
`update_item_with_descriptor_helper` (src/v0/miniscript/mod.rs:1118-1176) feed with leaves. Hidden nodes are left out: the
crate never adds any.
-/
import Verif.Model.Wire
namespace Psbt

/-- `taproot::LeafVersion`: an even byte other than the annex tag 0x50. -/
abbrev LeafVersion := { v : UInt8 // v.toNat % 2 = 0 ∧ v ≠ 0x50 }

/-- One leaf of a `TapTree` as the PSBT field carries it. -/
structure TapLeaf where
  depth : UInt8
  ver : LeafVersion
  script : Bytes
  deriving DecidableEq

/-- One leaf on the wire, src/serialize.rs:340-347. -/
def encTapLeaf (l : TapLeaf) : Bytes := l.depth :: l.ver.1 :: encVec l.script

/-- `LeafNode` of rust-bitcoin: a script with its version, and the hashes that lead from it to the top of the node it is in,
the lowest first. -/
structure LeafNode where
  ver : LeafVersion
  script : Bytes
  branch : List (FixedBytes 32)
  deriving DecidableEq

/-- `NodeInfo` of rust-bitcoin. -/
structure NodeInfo where
  hash : FixedBytes 32
  leaves : List LeafNode
  deriving DecidableEq

/-- `TaprootBuilderError` of rust-bitcoin, as far as leaves can cause it. -/
inductive TapBuildErr where
  | invalidMerkleTreeDepth (n : Nat)
  | nodeNotInDfsOrder
  | overCompleteTree
  deriving DecidableEq

/-- `TAPROOT_CONTROL_MAX_NODE_COUNT`. -/
def MAX_TREE_DEPTH : Nat := 128

section
variable (sha : Bytes → FixedBytes 32)

/-- A tagged hash (BIP-340). -/
def tagHash (tag msg : Bytes) : FixedBytes 32 := sha ((sha tag).1 ++ (sha tag).1 ++ msg)

/-- `TapNodeHash::from_script`: the hash tagged "TapLeaf" of the version and the script. -/
def leafNodeHash (script : Bytes) (ver : LeafVersion) : FixedBytes 32 :=
  tagHash sha [0x54, 0x61, 0x70, 0x4c, 0x65, 0x61, 0x66] (ver.1 :: encVec script)

/-- `TapNodeHash::combine_node_hashes`: the hash tagged "TapBranch" of both hashes, the smaller one first. -/
def combineHashes (a b : FixedBytes 32) : FixedBytes 32 :=
  tagHash sha [0x54, 0x61, 0x70, 0x42, 0x72, 0x61, 0x6e, 0x63, 0x68] (if bytesLt a.1 b.1 then a.1 ++ b.1 else b.1 ++ a.1)

/-- `NodeInfo::new_leaf_with_ver`. -/
def NodeInfo.newLeaf (script : Bytes) (ver : LeafVersion) : NodeInfo := ⟨leafNodeHash sha script ver, [⟨ver, script, []⟩]⟩

/-- `TaprootMerkleBranch::push`. -/
def LeafNode.push (h : FixedBytes 32) (l : LeafNode) : Except TapBuildErr LeafNode :=
  if MAX_TREE_DEPTH ≤ l.branch.length then .error (.invalidMerkleTreeDepth (l.branch.length + 1))
  else .ok { l with branch := l.branch ++ [h] }

/-- The loop over the leaves of one side in `NodeInfo::combine`. -/
def pushAll (h : FixedBytes 32) : List LeafNode → Except TapBuildErr (List LeafNode)
  | [] => .ok []
  | l :: ls => do
    let l ← l.push h
    let ls ← pushAll h ls
    .ok (l :: ls)

/-- `NodeInfo::combine`. -/
def NodeInfo.combine (a b : NodeInfo) : Except TapBuildErr NodeInfo :=
  let (l, r) := if bytesLt a.hash.1 b.hash.1 then (a, b) else (b, a)
  do
    let ls ← pushAll r.hash l.leaves
    let rs ← pushAll l.hash r.leaves
    .ok ⟨combineHashes sha a.hash b.hash, ls ++ rs⟩

/-- The branch of a `TaprootBuilder`, the last element first. -/
abbrev TapBuilder := List (Option NodeInfo)

/-- The `while` loop of `TaprootBuilder::insert`. -/
def TapBuilder.propagate : TapBuilder → NodeInfo → Nat → Except TapBuildErr (TapBuilder × NodeInfo × Nat)
  | some child :: br, node, depth =>
    if br.length = depth then
      if depth = 0 then .error .overCompleteTree
      else do
        let node ← node.combine sha child
        propagate br node (depth - 1)
    else .ok (some child :: br, node, depth)
  | br, node, depth => .ok (br, node, depth)

/-- `TaprootBuilder::insert`. -/
def TapBuilder.insert (br : TapBuilder) (node : NodeInfo) (depth : Nat) : Except TapBuildErr TapBuilder :=
  if MAX_TREE_DEPTH < depth then .error (.invalidMerkleTreeDepth depth)
  else if depth + 1 < br.length then .error .nodeNotInDfsOrder
  else do
    let (br, node, depth) ← propagate sha br node depth
    .ok (some node :: (List.replicate (depth + 1 - br.length) none ++ br).tail)

/-- `TaprootBuilder::add_leaf_with_ver`. -/
def TapBuilder.addLeaf (br : TapBuilder) (l : TapLeaf) : Except TapBuildErr TapBuilder :=
  br.insert sha (NodeInfo.newLeaf sha l.script l.ver) l.depth.toNat

/-- `TaprootBuilder::try_into_node_info`; `none` stands for `IncompleteBuilderError::NotFinalized`. (The builder never has a
single missing node: `TapBuilder.run_top`.) -/
def TapBuilder.finish (br : TapBuilder) : Option NodeInfo :=
  match br with
  | [some n] => some n
  | _ => none

/-- A builder fed with leaves. -/
def TapBuilder.run : TapBuilder → List TapLeaf → Except TapBuildErr TapBuilder
  | br, [] => .ok br
  | br, l :: ls => do
    let br ← br.addLeaf sha l
    run br ls

/-- The node built from these leaves, if the builder accepts them. -/
def nodeOf (ls : List TapLeaf) : Option NodeInfo :=
  match TapBuilder.run sha [] ls with
  | .ok br => br.finish
  | .error _ => none

/-- A leaf of a node as `TapTree::script_leaves` gives it, with the length of its branch. -/
def LeafNode.toLeaf (l : LeafNode) : TapLeaf := ⟨UInt8.ofNat l.branch.length, l.ver, l.script⟩

/-- A `TaprootBuilder` fed with the leaves, then `TapTree::try_from`, then `script_leaves()`. -/
def tapBuildOf (ls : List TapLeaf) : Option (List TapLeaf) := (nodeOf sha ls).map fun n => n.leaves.map LeafNode.toLeaf
end

end Psbt
