/- Filling in a PSBT v0 from descriptors: src/v0/miniscript/mod.rs:720-811, 903-1276. -/
import Verif.Model.V0.Finalize
namespace Psbt.V0
open Psbt

/-- `descriptor::ConversionError` of rust-miniscript. -/
inductive ConvErr where
  | hardenedChild
  | multiKey
  deriving DecidableEq

/-- A miniscript (or a sorted multisig) with keys of type `K`: its shape, and its keys in the order they are visited. -/
structure Mini (T K : Type) where
  shape : T
  keys : List K
  deriving DecidableEq

/-- The descriptors of rust-miniscript other than `Descriptor::Tr`; `sh` and `wsh` have a miniscript or a sorted multisig. -/
inductive Plain (T K : Type) where
  | bare (m : Mini T K)
  | pkh (k : K)
  | wpkh (k : K)
  | sh (m : Mini T K)
  | shWpkh (k : K)
  | shWsh (m : Mini T K)
  | wsh (m : Mini T K)
  deriving DecidableEq

/-- `miniscript::Descriptor`. `Descriptor::Tr` has an internal key and the leaves of its tree with their depths, in the order of
`iter_scripts`; no leaves mean no tree. -/
inductive Descriptor (T K : Type) where
  | tr (internalKey : K) (leaves : List (UInt8 × Mini T K))
  | plain (d : Plain T K)
  deriving DecidableEq

/-- What updating takes from rust-miniscript, rust-bitcoin and secp256k1. -/
structure UpdLib (L : Lib) where
  /-- `DefiniteDescriptorKey`. -/
  Key : Type
  /-- `derive_public_key`. -/
  derive : Key → Except ConvErr L.pubkey.T
  /-- `master_fingerprint`. -/
  fingerprint : Key → FixedBytes 4
  /-- `full_derivation_path`. -/
  path : Key → Option (List UInt32)
  /-- The field `inner` of `bitcoin::PublicKey`. -/
  inner : L.pubkey.T → L.secpPk.T
  /-- `to_x_only_pubkey`. -/
  xonly : L.pubkey.T → L.xonly.T
  /-- Miniscripts without their keys. -/
  Shape : Type
  /-- `encode`, `inner_script`. -/
  encode : Mini Shape L.pubkey.T → Bytes
  /-- `encode` in the script context `Tap`. -/
  tapEncode : Mini Shape L.pubkey.T → Bytes
  /-- The output key for an internal key and a merkle root (`tap_tweak` of secp256k1). -/
  outputKey : L.xonly.T → Option Hash32 → L.xonly.T
  /-- Its parity; `true` is `Parity::Odd`. -/
  outputOdd : L.xonly.T → Option Hash32 → Bool

/-- `PsbtFields`, src/v0/miniscript/mod.rs:1000-1075: what inputs and outputs have in common, and the fields only one of the two
has. -/
structure Fields (L : Lib) where
  redeemScript : Option Bytes
  witnessScript : Option Bytes
  bip32Derivation : BMap L.secpPk.T KeySource
  tapInternalKey : Option L.xonly.T
  tapKeyOrigins : BMap L.xonly.T (List Hash32 × KeySource)
  tapTree : Option (Option (TapTree L))
  tapScripts : Option (BMap L.ctrl.T (Bytes × LeafVersion))
  tapMerkleRoot : Option (Option Hash32)

variable {L : Lib}

/-- `impl PsbtFields for Input`, src/v0/miniscript/mod.rs:1024-1051: the fields. -/
def Input.fields (i : Input L) : Fields L where
  redeemScript := i.redeemScript
  witnessScript := i.witnessScript
  bip32Derivation := i.bip32Derivation
  tapInternalKey := i.tapInternalKey
  tapKeyOrigins := i.tapKeyOrigins
  tapTree := none
  tapScripts := some i.tapScripts
  tapMerkleRoot := some i.tapMerkleRoot

/-- The same, src/v0/miniscript/mod.rs:1024-1051: the input after the fields have been written. -/
def Input.setFields (i : Input L) (f : Fields L) : Input L :=
  { i with
    redeemScript := f.redeemScript
    witnessScript := f.witnessScript
    bip32Derivation := f.bip32Derivation
    tapInternalKey := f.tapInternalKey
    tapKeyOrigins := f.tapKeyOrigins
    tapScripts := f.tapScripts.getD i.tapScripts
    tapMerkleRoot := f.tapMerkleRoot.getD i.tapMerkleRoot }

/-- `impl PsbtFields for Output`, src/v0/miniscript/mod.rs:1053-1075: the fields. -/
def Output.fields (o : Output L) : Fields L where
  redeemScript := o.redeemScript
  witnessScript := o.witnessScript
  bip32Derivation := o.bip32Derivation
  tapInternalKey := o.tapInternalKey
  tapKeyOrigins := o.tapKeyOrigins
  tapTree := some o.tapTree
  tapScripts := none
  tapMerkleRoot := none

/-- The same, src/v0/miniscript/mod.rs:1053-1075: the output after the fields have been written. -/
def Output.setFields (o : Output L) (f : Fields L) : Output L :=
  { o with
    redeemScript := f.redeemScript
    witnessScript := f.witnessScript
    bip32Derivation := f.bip32Derivation
    tapInternalKey := f.tapInternalKey
    tapKeyOrigins := f.tapKeyOrigins
    tapTree := f.tapTree.getD o.tapTree }

/-- `TapLeafHash::from_script` of rust-bitcoin: the hash tagged "TapLeaf" of the version and the script. -/
def tapLeafHash (L : Lib) (script : Bytes) (ver : LeafVersion) : Hash32 :=
  taggedHash L [0x54, 0x61, 0x70, 0x4c, 0x65, 0x61, 0x66] (ver.1 :: encVec script)

variable (U : UpdLib L)

/-- `Tr::spend_info` of rust-miniscript, as far as it depends on the leaves. -/
def spendInfo (L : Lib) (tree : List TapLeaf) : Out Empty (Option NodeInfo) :=
  if tree.isEmpty then .ok none
  else
    match nodeOf L.sha256 tree with
    | none => .error (.panic "Computing spend data on a valid Tree should always succeed")
    | some n => .ok (some n)

/-- `TaprootSpendInfo::merkle_root` of rust-bitcoin. -/
def rootOf (info : Option NodeInfo) : Option Hash32 := info.map NodeInfo.hash

/-- The order in which `TaprootSpendInfo::control_block` prefers branches: the shortest first (`min_by`), and among these the one
that comes first in a `BTreeSet`. -/
def branchLt (a b : List Hash32) : Bool :=
  if a.length < b.length then true else if b.length < a.length then false
  else bytesLt (a.flatMap fun h => h.1) (b.flatMap fun h => h.1)

/-- The smallest branch in this order. -/
def smallestBranch : List (List Hash32) → Option (List Hash32)
  | [] => none
  | b :: r =>
    match smallestBranch r with
    | none => some b
    | some c => if branchLt c b then some c else some b

/-- The branches of the leaves with this script and version: the `script_map` of `TaprootSpendInfo::from_node_info`. -/
def branchesOf (n : NodeInfo) (script : Bytes) (ver : LeafVersion) : List (List Hash32) :=
  (n.leaves.filter fun l => decide (l.script = script ∧ l.ver = ver)).map LeafNode.branch

/-- `ControlBlock::serialize`: parity and leaf version, internal key, branch. -/
def encControlBlock (odd : Bool) (ver : LeafVersion) (x : Bytes) (branch : List Hash32) : Bytes :=
  (ver.1 ||| if odd then 1 else 0) :: x ++ branch.flatMap fun h => h.1

/-- `TaprootSpendInfo::control_block` of rust-bitcoin for one of the scripts; `x` is the internal key. A `ControlBlock` is
represented by its serialisation (see `Foreign`), so it is made by parsing that. -/
def UpdLib.controlBlock (U : UpdLib L) (x : L.xonly.T) (info : Option NodeInfo) (script : Bytes) : Option L.ctrl.T := do
  let n ← info
  let branch ← smallestBranch (branchesOf n script TAPSCRIPT)
  L.ctrl.parse (encControlBlock (U.outputOdd x (some n.hash)) TAPSCRIPT x.bytes branch)

/-- `Descriptor::derived_descriptor` on the keys of one miniscript, in order. -/
def deriveKeys : List U.Key → Except ConvErr (List L.pubkey.T)
  | [] => .ok []
  | k :: ks => do
    let pk ← U.derive k
    let pks ← deriveKeys ks
    .ok (pk :: pks)

/-- `Descriptor::derived_descriptor` on the leaves of a tree. -/
def deriveLeaves : List (UInt8 × Mini U.Shape U.Key) → Except ConvErr (List (UInt8 × Mini U.Shape L.pubkey.T))
  | [] => .ok []
  | (depth, m) :: ls => do
    let ks ← deriveKeys U m.keys
    let r ← deriveLeaves ls
    .ok ((depth, ⟨m.shape, ks⟩) :: r)

/-- `KeySourceLookUp::pk`, src/v0/miniscript/mod.rs:980-994, on keys in order. -/
def lookUp : List U.Key → BMap L.secpPk.T KeySource → Except ConvErr (List L.pubkey.T × BMap L.secpPk.T KeySource)
  | [], m => .ok ([], m)
  | k :: ks, m => do
    let pk ← U.derive k
    match U.path k with
    | none => .error .multiKey
    | some path => do
      let (pks, m) ← lookUp ks (m.insert (U.inner pk) (U.fingerprint k, path))
      .ok (pk :: pks, m)

/-- `translate_pk` with `KeySourceLookUp`, src/v0/miniscript/mod.rs:1181-1184, for a descriptor with a miniscript. -/
def lookUpMini (m : Mini U.Shape U.Key) : Except ConvErr (Mini U.Shape L.pubkey.T × BMap L.secpPk.T KeySource) := do
  let (ks, s) ← lookUp U m.keys .empty
  .ok (⟨m.shape, ks⟩, s)

/-- The same for a descriptor with one key. -/
def lookUpKey (k : U.Key) : Except ConvErr (L.pubkey.T × BMap L.secpPk.T KeySource) := do
  let pk ← U.derive k
  match U.path k with
  | none => .error .multiKey
  | some path => .ok (pk, BMap.empty.insert (U.inner pk) (U.fingerprint k, path))

/-- The same for all kinds. -/
def translate : Plain U.Shape U.Key → Except ConvErr (Plain U.Shape L.pubkey.T × BMap L.secpPk.T KeySource)
  | .bare m => do let (m, s) ← lookUpMini U m; .ok (.bare m, s)
  | .pkh k => do let (k, s) ← lookUpKey U k; .ok (.pkh k, s)
  | .wpkh k => do let (k, s) ← lookUpKey U k; .ok (.wpkh k, s)
  | .sh m => do let (m, s) ← lookUpMini U m; .ok (.sh m, s)
  | .shWpkh k => do let (k, s) ← lookUpKey U k; .ok (.shWpkh k, s)
  | .shWsh m => do let (m, s) ← lookUpMini U m; .ok (.shWsh m, s)
  | .wsh m => do let (m, s) ← lookUpMini U m; .ok (.wsh m, s)

/-- `Descriptor::script_pubkey`. `none`: the key is not compressed, and the descriptor cannot be made. -/
def Plain.scriptPubkey : Plain U.Shape L.pubkey.T → Option Bytes
  | .bare m => some (U.encode m)
  | .pkh k => some (p2pkhOf k)
  | .wpkh k => p2wpkhOf k
  | .sh m => some (toP2sh L (U.encode m))
  | .shWpkh k => (p2wpkhOf k).map (toP2sh L)
  | .shWsh m => some (toP2sh L (toP2wsh L (U.encode m)))
  | .wsh m => some (toP2wsh L (U.encode m))

/-- src/v0/miniscript/mod.rs:1194-1208. -/
def Plain.setScripts (d : Plain U.Shape L.pubkey.T) (f : Fields L) : Fields L :=
  match d with
  | .bare _ | .pkh _ | .wpkh _ => f
  | .shWsh m => { f with witnessScript := some (U.encode m), redeemScript := some (toP2wsh L (U.encode m)) }
  | .shWpkh k => { f with redeemScript := p2wpkhOf k }
  | .sh m => { f with redeemScript := some (U.encode m) }
  | .wsh m => { f with witnessScript := some (U.encode m) }

/-- src/v0/miniscript/mod.rs:1139-1154. -/
def addOrigin (o : BMap L.xonly.T (List Hash32 × KeySource)) (x : L.xonly.T) (h : Hash32) (s : KeySource) :
    BMap L.xonly.T (List Hash32 × KeySource) :=
  match o.get x with
  | some (hs, t) => o.insert x (if hs.getLast? ≠ some h then hs ++ [h] else hs, t)
  | none => o.insert x ([h], s)

/-- The loop over the keys of a leaf, src/v0/miniscript/mod.rs:1136-1155. -/
def addKeys (h : Hash32) : List (L.pubkey.T × U.Key) → BMap L.xonly.T (List Hash32 × KeySource) →
    BMap L.xonly.T (List Hash32 × KeySource) × Except ConvErr Unit
  | [], o => (o, .ok ())
  | (pk, k) :: r, o =>
    match U.path k with
    | none => (o, .error .multiKey)
    | some path => addKeys h r (addOrigin o (U.xonly pk) h (U.fingerprint k, path))

/-- The leaf of a tree: its depth, and its script as a tapscript. -/
def leafOf (l : UInt8 × Mini U.Shape L.pubkey.T) : TapLeaf := ⟨l.1, TAPSCRIPT, U.tapEncode l.2⟩

/-- The loop over the leaves, src/v0/miniscript/mod.rs:1120-1156. `add_leaf` does not fail for the leaves of a tree in this
order, and `spendInfo` has panicked otherwise. -/
def addLeaves (ik : L.xonly.T) (info : Option NodeInfo) :
    List ((UInt8 × Mini U.Shape L.pubkey.T) × (UInt8 × Mini U.Shape U.Key)) → Fields L →
      Out Empty (Fields L × Except ConvErr Unit)
  | [], f => .ok (f, .ok ())
  | (l, x) :: r, f => do
    let script := U.tapEncode l.2
    let f ← match f.tapScripts with
      | none => .ok f
      | some scripts =>
        match U.controlBlock ik info script with
        | none => .error (.panic "Control block must exist in script map for every known leaf")
        | some cb => .ok { f with tapScripts := some (scripts.insert cb (script, TAPSCRIPT)) }
    match addKeys U (tapLeafHash L script TAPSCRIPT) (l.2.keys.zip x.2.keys) f.tapKeyOrigins with
    | (o, .error e) => .ok ({ f with tapKeyOrigins := o }, .error e)
    | (o, .ok ()) => addLeaves ik info r { f with tapKeyOrigins := o }

/-- Insertion into a sorted list. -/
def insertSorted (h : Hash32) : List Hash32 → List Hash32
  | [] => [h]
  | a :: r => if OrdKey.lt a h then a :: insertSorted h r else h :: a :: r

/-- `Vec::sort`. -/
def sortHashes (l : List Hash32) : List Hash32 := l.foldr insertSorted []

/-- `Vec::dedup`. -/
def dedup : List Hash32 → List Hash32
  | [] => []
  | [a] => [a]
  | a :: b :: r => if a = b then dedup (b :: r) else a :: dedup (b :: r)

/-- `BTreeMap::values_mut`, with each value changed. -/
def mapValues {K V : Type} [OrdKey K] [DecidableEq K] (g : V → V) (m : BMap K V) : BMap K V :=
  ⟨m.l.map fun kv => (kv.1, g kv.2), by
    obtain ⟨l, h⟩ := m
    induction l with
    | nil => trivial
    | cons a r ih =>
      cases r with
      | nil => trivial
      | cons b r => exact ⟨h.1, ih h.2⟩⟩

/-- The check of the output script, if there is one to compare with, src/v0/miniscript/mod.rs:1090-1094, 1186-1190. -/
def mismatch (check : Option Bytes) (spk : Bytes) : Bool :=
  match check with
  | some s => decide (s ≠ spk)
  | none => false

/-- The tap tree of an item that can have one, src/v0/miniscript/mod.rs:1166-1176. -/
def setTree (tree : List TapLeaf) (f : Fields L) : Out Empty (Fields L) :=
  match f.tapTree with
  | none => .ok f
  | some _ =>
    if tree.isEmpty then .ok f
    else
      match h : L.tapBuild tree with
      | none => .error (.panic "The tree should always be valid")
      | some t => .ok { f with tapTree := some (some ⟨t, L.tap_canon _ _ h⟩) }

/-- What the branch for `Descriptor::Tr` writes, src/v0/miniscript/mod.rs:1097-1177. The item is returned with an error too. -/
def writeTr (f : Fields L) (ik : U.Key) (leaves : List (UInt8 × Mini U.Shape U.Key)) (pk : L.pubkey.T)
    (ls : List (UInt8 × Mini U.Shape L.pubkey.T)) (info : Option NodeInfo) : Out Empty (Fields L × Except ConvErr Unit) :=
  let tree := ls.map (leafOf U)
  let f := { f with
    tapMerkleRoot := f.tapMerkleRoot.map fun _ => rootOf info
    tapInternalKey := some (U.xonly pk) }
  match U.path ik with
  | none => .ok (f, .error .multiKey)
  | some path => do
    let f := { f with tapKeyOrigins := f.tapKeyOrigins.insert (U.xonly pk) ([], (U.fingerprint ik, path)) }
    let (f, r) ← addLeaves U (U.xonly pk) info (ls.zip leaves) f
    match r with
    | .error e => .ok (f, .error e)
    | .ok () => do
      let f := { f with tapKeyOrigins := mapValues (fun v => (dedup (sortHashes v.1), v.2)) f.tapKeyOrigins }
      let f ← setTree tree f
      .ok (f, .ok ())

/-- The branch for `Descriptor::Tr` of `update_item_with_descriptor_helper`, src/v0/miniscript/mod.rs:1087-1179. -/
def updateTr (f : Fields L) (ik : U.Key) (leaves : List (UInt8 × Mini U.Shape U.Key)) (check : Option Bytes) :
    Out Empty (Fields L × Except ConvErr (Descriptor U.Shape L.pubkey.T × Bool)) :=
  match deriveLeaves U leaves with
  | .error e => .ok (f, .error e)
  | .ok ls =>
    match U.derive ik with
    | .error e => .ok (f, .error e)
    | .ok pk => do
      let info ← spendInfo L (ls.map (leafOf U))
      if mismatch check ([0x51, 0x20] ++ (U.outputKey (U.xonly pk) (rootOf info)).bytes) then
        .ok (f, .ok (.tr pk ls, false))
      else do
        let (f, r) ← writeTr U f ik leaves pk ls info
        .ok (f, r.map fun _ => (.tr pk ls, true))

/-- The other branch, src/v0/miniscript/mod.rs:1181-1210. `BTreeMap::append` overwrites. -/
def updatePlain (f : Fields L) (d : Plain U.Shape U.Key) (check : Option Bytes) :
    Out Empty (Fields L × Except ConvErr (Descriptor U.Shape L.pubkey.T × Bool)) :=
  match translate U d with
  | .error e => .ok (f, .error e)
  | .ok (derived, sources) =>
    match derived.scriptPubkey U with
    | none => .error (.panic "No Outer Context errors in translations")
    | some spk =>
      if mismatch check spk then .ok (f, .ok (.plain derived, false))
      else
        let f := { f with bip32Derivation := f.bip32Derivation.extend sources }
        .ok (derived.setScripts U f, .ok (.plain derived, true))

/-- `update_item_with_descriptor_helper`, src/v0/miniscript/mod.rs:1077-1214. -/
def updateItem (f : Fields L) (d : Descriptor U.Shape U.Key) (check : Option Bytes) :
    Out Empty (Fields L × Except ConvErr (Descriptor U.Shape L.pubkey.T × Bool)) :=
  match d with
  | .tr ik leaves => updateTr U f ik leaves check
  | .plain d => updatePlain U f d check

/-- `update_with_descriptor_unchecked` on an input, src/v0/miniscript/mod.rs:926-934. -/
def Input.updateUnchecked (i : Input L) (d : Descriptor U.Shape U.Key) :
    Out Empty (Input L × Except ConvErr (Descriptor U.Shape L.pubkey.T)) := do
  let (f, r) ← updateItem U i.fields d none
  .ok (i.setFields f, r.map Prod.fst)

/-- `update_with_descriptor_unchecked` on an output, src/v0/miniscript/mod.rs:960-968. -/
def Output.updateUnchecked (o : Output L) (d : Descriptor U.Shape U.Key) :
    Out Empty (Output L × Except ConvErr (Descriptor U.Shape L.pubkey.T)) := do
  let (f, r) ← updateItem U o.fields d none
  .ok (o.setFields f, r.map Prod.fst)

/-- `UtxoUpdateError`, src/v0/miniscript/mod.rs:1218-1230, and `OutputUpdateError`, 1267-1276. -/
inductive UpdateErr where
  | indexOutOfBounds (index length : Nat)
  | missingInputUtxo
  | missingTxOut
  | derivation (e : ConvErr)
  | utxoCheck
  | mismatchedScriptPubkey
  deriving DecidableEq

/-- `DescriptorType::segwit_version().is_some()`. -/
def Descriptor.isSegwit {T K : Type} : Descriptor T K → Bool
  | .tr _ _ => true
  | .plain (.wpkh _) | .plain (.shWpkh _) | .plain (.shWsh _) | .plain (.wsh _) => true
  | .plain (.bare _) | .plain (.pkh _) | .plain (.sh _) => false

/-- The UTXO checks of `update_input_with_descriptor`, src/v0/miniscript/mod.rs:738-777: the script that is expected. -/
def Input.expectedSpk (i : Input L) (t : TxIn) (segwit : Bool) : Except UpdateErr Bytes :=
  if (match i.nonWitnessUtxo with
    | some tx => decide (t.previousOutput.txid ≠ V2.txid L tx)
    | none => false) then .error .utxoCheck
  else
    match i.witnessUtxo, i.nonWitnessUtxo with
    | some w, none => if segwit then .ok w.scriptPubkey else .error .utxoCheck
    | none, some tx =>
      match tx.output[t.previousOutput.vout.toNat]? with
      | some u => .ok u.scriptPubkey
      | none => .error .utxoCheck
    | some w, some tx =>
      match tx.output[t.previousOutput.vout.toNat]? with
      | some u => if w ≠ u then .error .utxoCheck else .ok w.scriptPubkey
      | none => .error .utxoCheck
    | none, none => .error .utxoCheck

/-- `update_input_with_descriptor`, src/v0/miniscript/mod.rs:720-784. The PSBT is returned with an error too. -/
def Psbt.updateInput (p : Psbt L) (n : Nat) (d : Descriptor U.Shape U.Key) : Out Empty (Psbt L × Except UpdateErr Unit) :=
  match p.inputs[n]? with
  | none => .ok (p, .error (.indexOutOfBounds n p.inputs.length))
  | some i =>
    match p.unsignedTx.input[n]? with
    | none => .ok (p, .error .missingInputUtxo)
    | some t =>
      match i.expectedSpk t d.isSegwit with
      | .error e => .ok (p, .error e)
      | .ok spk => do
        let (f, r) ← updateItem U i.fields d (some spk)
        let q := { p with inputs := p.inputs.set n (i.setFields f) }
        match r with
        | .error e => .ok (q, .error (.derivation e))
        | .ok (_, false) => .ok (q, .error .mismatchedScriptPubkey)
        | .ok (_, true) => .ok (q, .ok ())

/-- `update_output_with_descriptor`, src/v0/miniscript/mod.rs:786-811. -/
def Psbt.updateOutput (p : Psbt L) (n : Nat) (d : Descriptor U.Shape U.Key) : Out Empty (Psbt L × Except UpdateErr Unit) :=
  match p.outputs[n]? with
  | none => .ok (p, .error (.indexOutOfBounds n p.outputs.length))
  | some o =>
    match p.unsignedTx.output[n]? with
    | none => .ok (p, .error .missingTxOut)
    | some t => do
      let (f, r) ← updateItem U o.fields d (some t.scriptPubkey)
      let q := { p with outputs := p.outputs.set n (o.setFields f) }
      match r with
      | .error e => .ok (q, .error (.derivation e))
      | .ok (_, false) => .ok (q, .error .mismatchedScriptPubkey)
      | .ok (_, true) => .ok (q, .ok ())

end Psbt.V0
