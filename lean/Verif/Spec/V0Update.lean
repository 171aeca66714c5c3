/- What filling in a PSBT v0 from a descriptor should do. -/
import Verif.Spec.Encoding
import Verif.Spec.V0Finalize
import Verif.Spec.TapRoot
import Verif.Model.V0.Update
namespace Psbt.Spec.V0
open Psbt.V0 Psbt.Spec

variable {L : Lib} (U : UpdLib L)

/-- The public keys that keys stand for. -/
inductive KeysAre : List U.Key → List L.pubkey.T → Prop
  | nil : KeysAre [] []
  | cons {k pk ks pks} : U.derive k = .ok pk → KeysAre ks pks → KeysAre (k :: ks) (pk :: pks)

/-- A miniscript with its keys replaced with the public keys they stand for. -/
def MiniIs (m : Mini U.Shape U.Key) (x : Mini U.Shape L.pubkey.T) : Prop := m.shape = x.shape ∧ KeysAre U m.keys x.keys

/-- The same for the leaves of a tree. -/
inductive LeavesAre : List (UInt8 × Mini U.Shape U.Key) → List (UInt8 × Mini U.Shape L.pubkey.T) → Prop
  | nil : LeavesAre [] []
  | cons {d m x ls xs} : MiniIs U m x → LeavesAre ls xs → LeavesAre ((d, m) :: ls) ((d, x) :: xs)

/-- A descriptor that is not taproot, with its keys replaced. -/
inductive PlainIs : Plain U.Shape U.Key → Plain U.Shape L.pubkey.T → Prop
  | bare {m x} : MiniIs U m x → PlainIs (.bare m) (.bare x)
  | pkh {k pk} : U.derive k = .ok pk → PlainIs (.pkh k) (.pkh pk)
  | wpkh {k pk} : U.derive k = .ok pk → PlainIs (.wpkh k) (.wpkh pk)
  | sh {m x} : MiniIs U m x → PlainIs (.sh m) (.sh x)
  | shWpkh {k pk} : U.derive k = .ok pk → PlainIs (.shWpkh k) (.shWpkh pk)
  | shWsh {m x} : MiniIs U m x → PlainIs (.shWsh m) (.shWsh x)
  | wsh {m x} : MiniIs U m x → PlainIs (.wsh m) (.wsh x)

/-- The keys of a descriptor replaced with public keys. -/
inductive DescrIs : Descriptor U.Shape U.Key → Descriptor U.Shape L.pubkey.T → Prop
  | plain {d x} : PlainIs U d x → DescrIs (.plain d) (.plain x)
  | tr {ik pk ls xs} : LeavesAre U ls xs → U.derive ik = .ok pk → DescrIs (.tr ik ls) (.tr pk xs)

/-- The scripts of leaves, with their depths; the leaf version is that of tapscript. -/
def treeOf (ls : List (UInt8 × Mini U.Shape L.pubkey.T)) : List TapLeaf :=
  ls.map fun l => ⟨l.1, ⟨0xc0, by decide⟩, U.tapEncode l.2⟩

/-- The output script a descriptor stands for. -/
inductive ScriptOf : Descriptor U.Shape U.Key → Bytes → Prop
  | bare {m x} : MiniIs U m x → ScriptOf (.plain (.bare m)) (U.encode x)
  | pkh {k} {pk : L.pubkey.T} : U.derive k = .ok pk →
      ScriptOf (.plain (.pkh k)) ([0x76, 0xa9, 0x14] ++ (L.hash160 pk.bytes).1 ++ [0x88, 0xac])
  | wpkh {k} {pk : L.pubkey.T} : U.derive k = .ok pk → pk.bytes.length = 33 →
      ScriptOf (.plain (.wpkh k)) ([0x00, 0x14] ++ (L.hash160 pk.bytes).1)
  | sh {m x} : MiniIs U m x → ScriptOf (.plain (.sh m)) ([0xa9, 0x14] ++ (L.hash160 (U.encode x)).1 ++ [0x87])
  | shWpkh {k} {pk : L.pubkey.T} : U.derive k = .ok pk → pk.bytes.length = 33 →
      ScriptOf (.plain (.shWpkh k))
        ([0xa9, 0x14] ++ (L.hash160 ([0x00, 0x14] ++ (L.hash160 pk.bytes).1)).1 ++ [0x87])
  | shWsh {m x} : MiniIs U m x →
      ScriptOf (.plain (.shWsh m)) ([0xa9, 0x14] ++ (L.hash160 ([0x00, 0x20] ++ (L.sha256 (U.encode x)).1)).1 ++ [0x87])
  | wsh {m x} : MiniIs U m x → ScriptOf (.plain (.wsh m)) ([0x00, 0x20] ++ (L.sha256 (U.encode x)).1)
  | tr {ik pk ls xs r} : LeavesAre U ls xs → U.derive ik = .ok pk → MerkleRoot L (treeOf U xs) r →
      ScriptOf (.tr ik ls) ([0x51, 0x20] ++ (U.outputKey (U.xonly pk) r).bytes)

/-- The keys of a descriptor, in order. -/
def plainKeys {T K : Type} : Plain T K → List K
  | .bare m | .sh m | .shWsh m | .wsh m => m.keys
  | .pkh k | .wpkh k | .shWpkh k => [k]
def leafKeys {T K : Type} (ls : List (UInt8 × Mini T K)) : List K := ls.flatMap fun l => l.2.keys
def allKeys {T K : Type} : Descriptor T K → List K
  | .tr ik ls => leafKeys ls ++ [ik]
  | .plain d => plainKeys d

/-- Keys that can be derived have a derivation path. (In rust-miniscript only multipath keys have none, and they cannot be
derived.) -/
def Definite (d : Descriptor U.Shape U.Key) : Prop := ∀ k ∈ allKeys d, ∀ pk, U.derive k = .ok pk → U.path k ≠ none

/-- All keys have a derivation path. -/
def HavePaths (d : Descriptor U.Shape U.Key) : Prop := ∀ k ∈ allKeys d, U.path k ≠ none

/-- The first key that cannot be derived, cannot for this reason. -/
def FirstFailure (ks : List U.Key) (e : ConvErr) : Prop :=
  ∃ a k b, ks = a ++ k :: b ∧ (∀ j ∈ a, ∃ pk, U.derive j = .ok pk) ∧ U.derive k = .error e

/-- The key stands for this public key and has this origin. -/
def KeyIs (k : U.Key) (pk : L.pubkey.T) (s : KeySource) : Prop :=
  U.derive k = .ok pk ∧ U.path k = some s.2 ∧ U.fingerprint k = s.1

/-- The origin of the last key that stands for `x`; of the first. -/
def LastOrigin (ks : List U.Key) (x : L.secpPk.T) (s : KeySource) : Prop :=
  ∃ a k b pk, ks = a ++ k :: b ∧ KeyIs U k pk s ∧ U.inner pk = x ∧ ∀ j ∈ b, ∀ q, U.derive j = .ok q → U.inner q ≠ x
def FirstOrigin (ks : List U.Key) (x : L.xonly.T) (s : KeySource) : Prop :=
  ∃ a k b pk, ks = a ++ k :: b ∧ KeyIs U k pk s ∧ U.xonly pk = x ∧ ∀ j ∈ a, ∀ q, U.derive j = .ok q → U.xonly q ≠ x

/-- The map has the entries of `P`, and otherwise those it had before. -/
def Overwritten {K V : Type} [OrdKey K] [DecidableEq K] (P : K → V → Prop) (m m' : BMap K V) : Prop :=
  ∀ k, (∀ v, P k v → m'.get k = some v) ∧ ((∀ v, ¬ P k v) → m'.get k = m.get k)

/-- What inputs and outputs have in common. -/
structure Common (L : Lib) where
  redeemScript : Option Bytes
  witnessScript : Option Bytes
  bip32Derivation : BMap L.secpPk.T KeySource
  tapInternalKey : Option L.xonly.T
  tapKeyOrigins : BMap L.xonly.T (List Hash32 × KeySource)
def ofInput (i : Input L) : Common L :=
  ⟨i.redeemScript, i.witnessScript, i.bip32Derivation, i.tapInternalKey, i.tapKeyOrigins⟩
def ofOutput (o : Output L) : Common L :=
  ⟨o.redeemScript, o.witnessScript, o.bip32Derivation, o.tapInternalKey, o.tapKeyOrigins⟩

/-- The redeem script and the witness script before, and after: what the output script is the hash of. The others stay. -/
inductive ScriptsSet (r w : Option Bytes) : Plain U.Shape U.Key → Option Bytes → Option Bytes → Prop
  | bare {m} : ScriptsSet r w (.bare m) r w
  | pkh {k} : ScriptsSet r w (.pkh k) r w
  | wpkh {k} : ScriptsSet r w (.wpkh k) r w
  | sh {m x} : MiniIs U m x → ScriptsSet r w (.sh m) (some (U.encode x)) w
  | shWpkh {k} {pk : L.pubkey.T} : U.derive k = .ok pk →
      ScriptsSet r w (.shWpkh k) (some ([0x00, 0x14] ++ (L.hash160 pk.bytes).1)) w
  | shWsh {m x} : MiniIs U m x →
      ScriptsSet r w (.shWsh m) (some ([0x00, 0x20] ++ (L.sha256 (U.encode x)).1)) (some (U.encode x))
  | wsh {m x} : MiniIs U m x → ScriptsSet r w (.wsh m) r (some (U.encode x))

/-- The common fields after updating with a descriptor that is not taproot. -/
structure PlainUpdated (d : Plain U.Shape U.Key) (a b : Common L) : Prop where
  scripts : ScriptsSet U a.redeemScript a.witnessScript d b.redeemScript b.witnessScript
  derivation : Overwritten (LastOrigin U (plainKeys d)) a.bip32Derivation b.bip32Derivation
  internalKey : b.tapInternalKey = a.tapInternalKey
  origins : b.tapKeyOrigins = a.tapKeyOrigins

/-- The hash of a tapscript, BIP-341. -/
def leafHash (L : Lib) (script : Bytes) : Hash32 :=
  let tag := (L.sha256 ("TapLeaf".toList.map fun c => c.toNat.toUInt8)).1
  L.sha256 (tag ++ tag ++ 0xc0 :: blob script)

/-- The leaf with this hash has a key that stands for `x`. -/
def InLeaf (ls : List (UInt8 × Mini U.Shape U.Key)) (x : L.xonly.T) (h : Hash32) : Prop :=
  ∃ l ∈ ls, ∃ m, MiniIs U l.2 m ∧ h = leafHash L (U.tapEncode m) ∧ ∃ pk ∈ m.keys, U.xonly pk = x

/-- The list has the elements of a set, in increasing order. -/
structure SetOf (l : List Hash32) (P : Hash32 → Prop) : Prop where
  sorted : l.Pairwise fun a b => OrdKey.lt a b = true
  mem : ∀ h, h ∈ l ↔ P h

/-- What a taproot key origin is afterwards. That of the internal key is new. Those there were keep their source, and get the
leaves that have the key. Other keys of leaves get the source of their first occurrence. -/
inductive OriginAfter (old : BMap L.xonly.T (List Hash32 × KeySource)) (ls : List (UInt8 × Mini U.Shape U.Key)) (ik : L.xonly.T)
    (s : KeySource) (x : L.xonly.T) : Option (List Hash32 × KeySource) → Prop
  | internal {l} : x = ik → SetOf l (InLeaf U ls x) → OriginAfter old ls ik s x (some (l, s))
  | known {hs t l} : x ≠ ik → old.get x = some (hs, t) → SetOf l (fun h => h ∈ hs ∨ InLeaf U ls x h) →
      OriginAfter old ls ik s x (some (l, t))
  | fresh {t l} : x ≠ ik → old.get x = none → FirstOrigin U (leafKeys ls) x t → SetOf l (InLeaf U ls x) →
      OriginAfter old ls ik s x (some (l, t))
  | absent : x ≠ ik → old.get x = none → (∀ t, ¬ FirstOrigin U (leafKeys ls) x t) → OriginAfter old ls ik s x none

/-- The common fields after updating with a taproot descriptor. -/
structure TrUpdated (ik : U.Key) (ls : List (UInt8 × Mini U.Shape U.Key)) (a b : Common L) : Prop where
  redeem : b.redeemScript = a.redeemScript
  witness : b.witnessScript = a.witnessScript
  derivation : b.bip32Derivation = a.bip32Derivation
  keys : ∃ pk s, KeyIs U ik pk s ∧ b.tapInternalKey = some (U.xonly pk) ∧
    ∀ x, OriginAfter U a.tapKeyOrigins ls (U.xonly pk) s x (b.tapKeyOrigins.get x)

/-- The control block of a script in the tree with these leaves; `x` is the internal key. -/
def BlockOf (x : L.xonly.T) (tree : List TapLeaf) (script : Bytes) (cb : L.ctrl.T) : Prop :=
  ∃ (T : Tree) (p : List Hash32), T.height ≤ 128 ∧ tree = T.list 0 ∧ BestPath L ⟨0xc0, by decide⟩ script T p ∧
    cb.bytes = controlBytes ⟨0xc0, by decide⟩ (U.outputOdd x (some (T.root L))) x.bytes p

/-- The last leaf with this control block. -/
def LastBlock (x : L.xonly.T) (xs : List (UInt8 × Mini U.Shape L.pubkey.T)) (cb : L.ctrl.T) (v : Bytes × LeafVersion) : Prop :=
  ∃ a l b, xs = a ++ l :: b ∧ BlockOf U x (treeOf U xs) (U.tapEncode l.2) cb ∧ v.1 = U.tapEncode l.2 ∧
    v.2.1 = 0xc0 ∧ ∀ j ∈ b, ¬ BlockOf U x (treeOf U xs) (U.tapEncode j.2) cb

/-- An input after updating. -/
structure InputUpdated (d : Descriptor U.Shape U.Key) (i j : Input L) : Prop where
  plain : ∀ e, d = .plain e → PlainUpdated U e (ofInput i) (ofInput j) ∧ j.tapScripts = i.tapScripts ∧
    j.tapMerkleRoot = i.tapMerkleRoot
  tr : ∀ ik ls, d = .tr ik ls → TrUpdated U ik ls (ofInput i) (ofInput j) ∧
    ∀ pk xs, U.derive ik = .ok pk → LeavesAre U ls xs → MerkleRoot L (treeOf U xs) j.tapMerkleRoot ∧
      Overwritten (LastBlock U (U.xonly pk) xs) i.tapScripts j.tapScripts
  rest : { j with
    redeemScript := i.redeemScript, witnessScript := i.witnessScript, bip32Derivation := i.bip32Derivation
    tapInternalKey := i.tapInternalKey, tapKeyOrigins := i.tapKeyOrigins, tapScripts := i.tapScripts
    tapMerkleRoot := i.tapMerkleRoot } = i

/-- An output after updating. -/
structure OutputUpdated (d : Descriptor U.Shape U.Key) (i j : Output L) : Prop where
  plain : ∀ e, d = .plain e → PlainUpdated U e (ofOutput i) (ofOutput j) ∧ j.tapTree = i.tapTree
  tr : ∀ ik ls, d = .tr ik ls → TrUpdated U ik ls (ofOutput i) (ofOutput j) ∧
    (ls = [] → j.tapTree = i.tapTree) ∧
    (ls ≠ [] → ∀ xs, LeavesAre U ls xs → ∃ (t : TapTree L) (T : Tree), j.tapTree = some t ∧ T.height ≤ 128 ∧ treeOf U xs = T.list 0 ∧
      t.leaves = (T.sorted L).list 0)
  rest : { j with
    redeemScript := i.redeemScript, witnessScript := i.witnessScript, bip32Derivation := i.bip32Derivation
    tapInternalKey := i.tapInternalKey, tapKeyOrigins := i.tapKeyOrigins, tapTree := i.tapTree } = i

/-- The leaves are those of a tree of height up to 128. -/
def TreeValid (d : Descriptor U.Shape U.Key) : Prop := ∀ ik ls xs, d = .tr ik ls → ls ≠ [] → LeavesAre U ls xs →
  ∃ T : Tree, T.height ≤ 128 ∧ treeOf U xs = T.list 0

/-- The keys of P2WPKH descriptors are compressed. -/
def Compressed (d : Descriptor U.Shape U.Key) : Prop := ∀ k pk, d = .plain (.wpkh k) ∨ d = .plain (.shWpkh k) →
  U.derive k = .ok pk → pk.bytes.length = 33

/-- Segwit descriptors. -/
def Segwit {T K : Type} : Descriptor T K → Prop
  | .tr _ _ => True
  | .plain (.wpkh _) | .plain (.shWpkh _) | .plain (.shWsh _) | .plain (.wsh _) => True
  | .plain (.bare _) | .plain (.pkh _) | .plain (.sh _) => False

/-- The UTXO fields that are there agree that the input spends `u`; a non-witness UTXO is the transaction spent from; without
one the descriptor is segwit. -/
def UtxoAgree (segwit : Prop) (t : TxIn) (i : Input L) (u : TxOut) : Prop :=
  (i.witnessUtxo = some u ∨ i.witnessUtxo = none ∧ i.nonWitnessUtxo ≠ none) ∧
  (∀ tx, i.nonWitnessUtxo = some tx →
    txid L tx = t.previousOutput.txid ∧ tx.output[t.previousOutput.vout.toNat]? = some u) ∧
  (i.nonWitnessUtxo = none → segwit)

/-- Why updating an input is refused. -/
inductive InputRefusal (p : Psbt L) (n : Nat) (d : Descriptor U.Shape U.Key) : UpdateErr → Prop
  | bounds : p.inputs.length ≤ n → InputRefusal p n d (.indexOutOfBounds n p.inputs.length)
  | noInput : n < p.inputs.length → p.unsignedTx.input.length ≤ n → InputRefusal p n d .missingInputUtxo
  | utxo {t i} : HasInput p n t i → (∀ u, ¬ UtxoAgree (Segwit d) t i u) → InputRefusal p n d .utxoCheck
  | derivation {t i u e} : HasInput p n t i → UtxoAgree (Segwit d) t i u → FirstFailure U (allKeys d) e →
      InputRefusal p n d (.derivation e)
  | script {t i u s} : HasInput p n t i → UtxoAgree (Segwit d) t i u → ScriptOf U d s → s ≠ u.scriptPubkey →
      InputRefusal p n d .mismatchedScriptPubkey

/-- Why updating an output is refused. -/
inductive OutputRefusal (p : Psbt L) (n : Nat) (d : Descriptor U.Shape U.Key) : UpdateErr → Prop
  | bounds : p.outputs.length ≤ n → OutputRefusal p n d (.indexOutOfBounds n p.outputs.length)
  | noOutput : n < p.outputs.length → p.unsignedTx.output.length ≤ n → OutputRefusal p n d .missingTxOut
  | derivation {t o e} : p.outputs[n]? = some o → p.unsignedTx.output[n]? = some t → FirstFailure U (allKeys d) e →
      OutputRefusal p n d (.derivation e)
  | script {t o s} : p.outputs[n]? = some o → p.unsignedTx.output[n]? = some t → ScriptOf U d s → s ≠ t.scriptPubkey →
      OutputRefusal p n d .mismatchedScriptPubkey

end Psbt.Spec.V0
