/-
What an error of the parsers claims about the bytes. Each error names one cause; here is written down, for each cause, what
has to be so for the error to be true. Nothing here refers to how the parsers work: a table says which key types exist and
what their keys and values look like (BIP-174, BIP-370, BIP-371, BIP-375).
-/
import Verif.Spec.RawMap
import Verif.Spec.Limits
import Verif.Spec.Wire
import Verif.Spec.TapTree
import Verif.Model.V0.Psbt
namespace Psbt.Spec
open Psbt

/-! ### Bytes that are no value of a type -/

/-- `Why b e`: the bytes `b` are not what they should be, in the way the error `e` says. -/
abbrev Why := Bytes → SerErr → Prop

/-- A compact size cannot be read from the front of the bytes. -/
inductive SizeFault : Bytes → CErr → Prop
  | nothing : SizeFault [] .eof
  | short {m : UInt8} {k : Nat} {t : Bytes} : (m, k) ∈ [((0xFD : UInt8), 2), (0xFE, 4), (0xFF, 8)] → t.length < k →
      SizeFault (m :: t) .eof
  | notShortest {m : UInt8} {k least : Nat} {x t : Bytes} :
      (m, k, least) ∈ [((0xFD : UInt8), 2, 253), (0xFE, 4, 2 ^ 16), (0xFF, 8, 2 ^ 32)] →
      x.length = k → leValue x < least → SizeFault (m :: (x ++ t)) .nonMinimalVarInt

/-- A byte string with its length in front cannot be read from the front of the bytes. -/
inductive BlobFault : Bytes → CErr → Prop
  | size {b : Bytes} {c : CErr} : SizeFault b c → BlobFault b c
  | short {n : Nat} {t : Bytes} : n < 2 ^ 64 → t.length < n → BlobFault (compact n ++ t) .eof

/-- Every byte string is such a value. -/
def never : Why := fun _ _ => False
/-- The length is not that of the hash. -/
def notHash (n : Nat) : Why := fun b e => b.length ≠ n ∧ e = .invalidHash
/-- The library does not take the bytes. -/
def notTaken (F : Foreign) (x : SerErr) : Why := fun b e => F.parse b = none ∧ e = x
/-- Not a number of `n` bytes: too few or too many. -/
def notNumber (n : Nat) : Why := fun b e =>
  b.length < n ∧ e = .consensus .eof ∨ n < b.length ∧ e = .consensus .parseFailed
/-- The bytes are not written by `f`. -/
def notWritten {α : Type} (f : α → Bytes) : Why := fun b e => (∀ v, b ≠ f v) ∧ ∃ c, e = .consensus c
/-- Not a block height: not a number, or one that stands for a time. -/
def notHeight : Why := fun b e => notNumber 4 b e ∨ ∃ n, IsLE32 n b ∧ 500000000 ≤ n ∧ e = .lockTime n
/-- Not a time: not a number, or one that stands for a block height. -/
def notTime : Why := fun b e => notNumber 4 b e ∨ ∃ n, IsLE32 n b ∧ n < 500000000 ∧ e = .lockTime n
/-- Not a fingerprint followed by child numbers. -/
def notKeySource : Why := fun b e =>
  b.length < 4 ∧ e = .notEnoughData ∨ b.length % 4 ≠ 0 ∧ e = .consensus .eof
/-- Not a DER signature followed by a standard signature hash type. -/
def notEcdsaSig (L : Lib) : Why := fun b e =>
  b = [] ∧ e = .invalidEcdsaSignature ∨
  ∃ s t, b = s ++ [t] ∧
    ((t ∉ [0x01, 0x02, 0x03, 0x81, 0x82, 0x83] ∧ e = .nonStandardSighashType t.toUInt32) ∨
     (L.derSig.parse s = none ∧ e = .invalidEcdsaSignature))
/-- Not a Schnorr signature, alone or followed by a signature hash type of BIP-341. -/
def notTapSig : Why := fun b e =>
  b.length ≠ 64 ∧ b.length ≠ 65 ∧ e = .invalidTaprootSignature ∨
  b.length = 65 ∧ ∃ s t, b = s ++ [t] ∧ t ∉ [0x00, 0x01, 0x02, 0x03, 0x81, 0x82, 0x83] ∧
    e = .nonStandardSighashType t.toUInt32
/-- Not an x-only key followed by a leaf hash. -/
def notKeyAndLeaf (L : Lib) : Why := fun b e =>
  b.length < 32 ∧ e = .notEnoughData ∨
  ∃ k h, b = k ++ h ∧ k.length = 32 ∧
    (L.xonly.parse k = none ∧ e = .invalidXOnlyPublicKey ∨ h.length ≠ 32 ∧ e = .invalidHash)
/-- Not a script followed by a leaf version, which is even and not 0x50. -/
def notLeafScript : Why := fun b e =>
  b = [] ∧ e = .notEnoughData ∨
  ∃ s v, b = s ++ [v] ∧ (v.toNat % 2 = 1 ∨ v = 0x50) ∧ e = .invalidLeafVersion
/-- Leaf hashes with their number in front. -/
def hashesBytes (hs : List Hash32) : Bytes := compact hs.length ++ hs.flatMap (fun h => h.1)
/-- Not leaf hashes followed by a key source. -/
def notTapOrigin : Why := fun b e =>
  (∀ hs r, b ≠ hashesBytes hs ++ r) ∧ (∃ c, e = .consensus c) ∨
  ∃ hs r, b = hashesBytes hs ++ r ∧ notKeySource r e

/-- A leaf of a tree in a PSBT (BIP-371): depth, leaf version, script. -/
def treeLeaf (l : TapLeaf) : Bytes := l.depth :: l.ver.1 :: blob l.script
/-- Some tree, not higher than allowed, has leaves that begin like this. -/
def Begins (ls : List TapLeaf) : Prop := ∃ T : Tree, T.height ≤ 128 ∧ ∃ r, T.list 0 = ls ++ r
/-- Not the leaves of a tree: after some leaves there is a single byte, a script that cannot be read, a wrong leaf version
or a leaf at a place where no tree has one; or all is well but the tree is not complete. -/
def notTree : Why := fun b e =>
  ∃ ls r, b = ls.flatMap treeLeaf ++ r ∧
    ((r.length = 1 ∧ e = .taproot "Invalid Taproot Builder") ∨
     (∃ d v t c, r = d :: v :: t ∧ BlobFault t c ∧ e = .consensus c) ∨
     (∃ d v s t, r = d :: v :: (blob s ++ t) ∧ (v.toNat % 2 = 1 ∨ v = 0x50) ∧ e = .invalidLeafVersion) ∨
     (∃ l t, r = treeLeaf l ++ t ∧ ¬ Begins (ls ++ [l]) ∧ e = .taproot "Tree not in DFS order") ∨
     (r = [] ∧ (∀ T : Tree, T.height ≤ 128 → T.list 0 ≠ ls) ∧ e = .tapTree))
/-- Not 64 bytes; the error gives the length found and the length wanted. -/
def notDleq : Why := fun b e => b.length ≠ 64 ∧ e = .invalidDleqProof b.length 64
/-- Not a PSBT version that exists. -/
def notVersion : Why := fun b e =>
  notNumber 4 b e ∨ ∃ n, IsLE32 n b ∧ n ≠ 0 ∧ n ≠ 2 ∧ e = .unsupportedVersion n

/-- No identifier, subtype and key data within the limits are written like this. -/
def NotProprietary (b : Bytes) : Prop :=
  ∀ (id : Bytes) (sub : UInt8) (data : Bytes), id.length ≤ MAX_VALUE → data.length ≤ 1024 → b ≠ blob id ++ sub :: data

/-! ### Pairs that do not belong into a map -/

/-- The errors both versions of PSBT have for a pair, and what they are called. -/
structure Words (ε : Type) where
  /-- The key occurred before. -/
  again : RawKey → ε
  /-- Key data is missing. -/
  noKeyData : RawKey → ε
  /-- There is key data where there should be none. -/
  keyData : RawKey → ε
  /-- The key data or the value is no value of its type. -/
  unreadable : SerErr → ε
  /-- The value does not hash to the key data. -/
  preimage : HashTy → ε
  /-- The type belongs to the other version of PSBT. -/
  excluded : UInt8 → ε

def v2Words : Words InsErr where
  again := .duplicateKey
  noKeyData := .invalidKeyDataEmpty
  keyData := .invalidKeyDataNotEmpty
  unreadable := .deser
  preimage := .hashPreimage
  excluded := .excludedKey

def v0Words : Words V0.Err where
  again := .duplicateKey
  noKeyData := .invalidKey
  keyData := .invalidKey
  unreadable := .ser
  preimage := .invalidPreimageHashPair
  excluded := .excludedKey

/-- The complaints a pair of some key type can give rise to: about its key alone, about an earlier pair, about its value. -/
structure Field (ε : Type) where
  key : RawKey → ε → Prop := fun _ _ => False
  again : Pair → Pair → ε → Prop := fun _ _ _ => False
  value : Pair → ε → Prop := fun _ _ => False

/-- The complaint is justified: about the pair `p` after the pairs `ps`. -/
def Field.Fault {ε : Type} (f : Field ε) (ps : List Pair) (p : Pair) (e : ε) : Prop :=
  f.key p.key e ∨ (∃ q ∈ ps, f.again q p e) ∨ f.value p e

section
variable {ε : Type} (W : Words ε)

/-- The same key occurred before. -/
def sameKey (q p : Pair) (e : ε) : Prop := q.key = p.key ∧ e = W.again p.key

/-- A field without key data. -/
def single (w : Why) : Field ε where
  key k e := k.key ≠ [] ∧ e = W.keyData k
  again := sameKey W
  value p e := ∃ s, w p.value s ∧ e = W.unreadable s

/-- A field with key data; `same` says which key data stands for the same key. -/
def keyed (wk : Why) (same : Bytes → Bytes → Prop) (wv : Why) : Field ε where
  key k e := k.key = [] ∧ e = W.noKeyData k ∨ ∃ s, wk k.key s ∧ e = W.unreadable s
  again q p e := q.key.ty = p.key.ty ∧ same q.key.key p.key.key ∧ e = W.again p.key
  value p e := ∃ s, wv p.value s ∧ e = W.unreadable s

/-- Preimages under their hashes. -/
def preimages (n : Nat) (hash : Bytes → FixedBytes n) (ty : HashTy) : Field ε where
  key k e := k.key = [] ∧ e = W.noKeyData k ∨ ∃ s, notHash n k.key s ∧ e = W.unreadable s
  again := sameKey W
  value p e := (hash p.value).1 ≠ p.key.key ∧ e = W.preimage ty

/-- Proprietary pairs. -/
def proprietary : Field ε where
  key k e := NotProprietary k.key ∧ ∃ c, e = W.unreadable (.consensus c)
  again := sameKey W

/-- Pairs of unknown types. -/
def other : Field ε where
  again := sameKey W

/-- Types of the other version. -/
def excluded : Field ε where
  key k e := e = W.excluded k.ty

end

/-- Two byte strings the library reads as the same thing. -/
def alike (F : Foreign) (a b : Bytes) : Prop := ∃ x, F.parse a = some x ∧ F.parse b = some x
/-- The same for an x-only key followed by a leaf hash. -/
def alikeKeyAndLeaf (L : Lib) (a b : Bytes) : Prop :=
  alike L.xonly (a.take 32) (b.take 32) ∧ a.drop 32 = b.drop 32

/-! ### The maps of PSBT v2 -/

/-- A field without key data and a value of `n` bytes. -/
def sized2 (n : Nat) : Field InsErr where
  key k e := k.key ≠ [] ∧ e = .invalidKeyDataNotEmpty k
  again := sameKey v2Words
  value p e := p.value.length ≠ n ∧ e = .valueWrongLength p.value.length n

/-- The version of the PSBT. -/
def version2 : Field InsErr where
  key k e := k.key ≠ [] ∧ e = .invalidKeyDataNotEmpty k
  again := sameKey v2Words
  value p e := p.value.length ≠ 4 ∧ e = .valueWrongLength p.value.length 4 ∨
    ∃ v, IsLE32 v p.value ∧ v ≠ 2 ∧ e = .wrongVersion v

/-- The number of inputs or outputs. -/
def count2 : Field InsErr where
  key k e := k.key ≠ [] ∧ e = .invalidKeyDataNotEmpty k
  again := sameKey v2Words
  value p e := ∃ c, SizeFault p.value c ∧ e = .consensus c

/-- The key source written in a value. -/
def keySourceBytes (k : KeySource) : Bytes := k.1.1 ++ k.2.flatMap le32

/-- Extended public keys. -/
def xpub2 (L : Lib) : Field InsErr where
  key k e := k.key = [] ∧ e = .invalidKeyDataEmpty k ∨ L.xpub.parse k.key = none ∧ e = .bip32
  again q p e := q.key.ty = p.key.ty ∧ alike L.xpub q.key.key p.key.key ∧
    ∃ old, q.value = keySourceBytes old ∧ e = .duplicateXpub old
  value p e := p.value.length < 4 ∧ e = .xpubInvalidFingerprint ∨
    p.value.length % 4 ≠ 0 ∧ e = .xpubInvalidPath p.value.length

/-- Proprietary pairs of the global map. -/
def proprietary2 : Field InsErr where
  key k e := k.key = [] ∧ e = .invalidKeyDataEmpty k ∨ NotProprietary k.key ∧ e = .invalidProprietaryKey
  again := sameKey v2Words

/-- Silent payments: values of `n` bytes under scan keys. -/
def scan2 (L : Lib) (n : Nat) : Field InsErr where
  key k e := k.key = [] ∧ e = .invalidKeyDataEmpty k ∨ k.key.length ≠ 33 ∧ e = .keyWrongLength k.key.length 33
  again q p e := q.key.ty = p.key.ty ∧ alike L.compressed q.key.key p.key.key ∧ e = .duplicateKey p.key
  value p e := p.value.length ≠ n ∧ e = .valueWrongLength p.value.length n

/-- The key types of the global map. -/
def global2 (L : Lib) (t : UInt8) : Field InsErr :=
  if t = 0x00 then excluded v2Words
  else if t = 0x01 then xpub2 L
  else if t = 0x02 then sized2 4
  else if t = 0x03 then sized2 4
  else if t = 0x04 then count2
  else if t = 0x05 then count2
  else if t = 0x06 then sized2 1
  else if t = 0x07 ∧ L.sp = true then scan2 L 33
  else if t = 0x08 ∧ L.sp = true then scan2 L 64
  else if t = 0xFB then version2
  else if t = 0xFC then proprietary2
  else other v2Words

/-- The key types of an input that both versions have. -/
def input {ε : Type} (W : Words ε) (L : Lib) (t : UInt8) (rest : Field ε) : Field ε :=
  if t = 0x00 then single W (notWritten txBytes)
  else if t = 0x01 then single W (notWritten txOutBytes)
  else if t = 0x02 then keyed W (notTaken L.pubkey .invalidPublicKey) (alike L.pubkey) (notEcdsaSig L)
  else if t = 0x03 then single W (notNumber 4)
  else if t = 0x04 then single W never
  else if t = 0x05 then single W never
  else if t = 0x06 then keyed W (notTaken L.secpPk .invalidSecp256k1PublicKey) (alike L.secpPk) notKeySource
  else if t = 0x07 then single W never
  else if t = 0x08 then single W (notWritten witnessBytes)
  else if t = 0x0a then preimages W 20 L.ripemd160 .ripemd
  else if t = 0x0b then preimages W 32 L.sha256 .sha256
  else if t = 0x0c then preimages W 20 L.hash160 .hash160
  else if t = 0x0d then preimages W 32 L.sha256d .hash256
  else if t = 0x13 then single W notTapSig
  else if t = 0x14 then keyed W (notKeyAndLeaf L) (alikeKeyAndLeaf L) notTapSig
  else if t = 0x15 then keyed W (notTaken L.ctrl .invalidControlBlock) (alike L.ctrl) notLeafScript
  else if t = 0x16 then keyed W (notTaken L.xonly .invalidXOnlyPublicKey) (alike L.xonly) notTapOrigin
  else if t = 0x17 then single W (notTaken L.xonly .invalidXOnlyPublicKey)
  else if t = 0x18 then single W (notHash 32)
  else if t = 0xFC then proprietary W
  else rest

/-- The key types of an input. -/
def input2 (L : Lib) (t : UInt8) : Field InsErr :=
  input v2Words L t <|
    if t = 0x0e then { single v2Words (notHash 32) with key := fun _ _ => False }
    else if t = 0x0f then { single v2Words (notNumber 4) with key := fun _ _ => False }
    else if t = 0x10 then single v2Words (notNumber 4)
    else if t = 0x11 then single v2Words notTime
    else if t = 0x12 then single v2Words notHeight
    else if t = 0x1d ∧ L.sp = true then scan2 L 33
    else if t = 0x1e ∧ L.sp = true then scan2 L 64
    else other v2Words

/-- The key types of an output that both versions have. -/
def output {ε : Type} (W : Words ε) (L : Lib) (t : UInt8) (rest : Field ε) : Field ε :=
  if t = 0x00 then single W never
  else if t = 0x01 then single W never
  else if t = 0x02 then keyed W (notTaken L.secpPk .invalidSecp256k1PublicKey) (alike L.secpPk) notKeySource
  else if t = 0x05 then single W (notTaken L.xonly .invalidXOnlyPublicKey)
  else if t = 0x06 then single W notTree
  else if t = 0x07 then keyed W (notTaken L.xonly .invalidXOnlyPublicKey) (alike L.xonly) notTapOrigin
  else if t = 0xFC then proprietary W
  else rest

/-- The key types of an output. -/
def output2 (L : Lib) (t : UInt8) : Field InsErr :=
  output v2Words L t <|
    if t = 0x03 then { single v2Words (notNumber 8) with key := fun _ _ => False }
    else if t = 0x04 then { single v2Words never with key := fun _ _ => False }
    else if t = 0x09 ∧ L.sp = true then sized2 66
    else if t = 0x0a ∧ L.sp = true then sized2 4
    else other v2Words

/-- Some pair is of this type. -/
def Has (t : UInt8) (ps : List Pair) : Prop := ∃ p ∈ ps, p.key.ty = t

/-- What is wrong with a global map as a whole. -/
def globalEnd2 (L : Lib) (ps : List Pair) (e : DecErr) : Prop :=
  ¬ Has 0xFB ps ∧ e = .missingVersion ∨ ¬ Has 0x02 ps ∧ e = .missingTxVersion ∨
  ¬ Has 0x04 ps ∧ e = .missingInputCount ∨ ¬ Has 0x05 ps ∧ e = .missingOutputCount ∨
  L.sp = true ∧ ¬ (Has 0x07 ps ↔ Has 0x08 ps) ∧ e = .fieldMismatch

/-- What is wrong with an input map as a whole. -/
def inputEnd2 (L : Lib) (ps : List Pair) (e : DecErr) : Prop :=
  ¬ Has 0x0e ps ∧ e = .missingPreviousTxid ∨ ¬ Has 0x0f ps ∧ e = .missingSpentOutputIndex ∨
  L.sp = true ∧ ¬ (Has 0x1d ps ↔ Has 0x1e ps) ∧ e = .fieldMismatch

/-- What is wrong with an output map as a whole. -/
def outputEnd2 (L : Lib) (ps : List Pair) (e : DecErr) : Prop :=
  ¬ Has 0x03 ps ∧ e = .missingValue ∨ L.sp = false ∧ ¬ Has 0x04 ps ∧ e = .missingScriptPubkey ∨
  L.sp = true ∧ Has 0x0a ps ∧ ¬ Has 0x09 ps ∧ e = .labelWithoutInfo

/-! ### Complaints of the v2 parser that are not true -/

/-- The key occurs for the first time, but is said to occur again, as an earlier pair has the same type. -/
def sameType : Field InsErr where
  again q p e := q.key.ty = p.key.ty ∧ q.key ≠ p.key ∧ e = .duplicateKey p.key

/-- The number of inputs is said to occur again, as the number of outputs comes before it. -/
def countMisled : Field InsErr where
  again q p e := q.key = ⟨0x05, []⟩ ∧ p.key = ⟨0x04, []⟩ ∧ e = .duplicateKey p.key

/-- An empty value is said to be key data that should not be there. -/
def xpubMisled : Field InsErr where
  value p e := p.value = [] ∧ e = .invalidKeyDataNotEmpty p.key

/-- Key data of 33 bytes that is no public key is said to have the wrong length, and so is such a value. -/
def scanMisled (L : Lib) (share : Prop) : Field InsErr where
  key k e := k.key.length = 33 ∧ L.compressed.parse k.key = none ∧ e = .keyWrongLength 33 33
  value p e := share ∧ p.value.length = 33 ∧ L.compressed.parse p.value = none ∧ e = .valueWrongLength 33 33

def globalMisled (L : Lib) (t : UInt8) : Field InsErr :=
  if t = 0x01 then xpubMisled
  else if t = 0x04 then countMisled
  else if t = 0x07 ∧ L.sp = true then scanMisled L True
  else if t = 0x08 ∧ L.sp = true then scanMisled L False
  else {}

def inputMisled (L : Lib) (t : UInt8) : Field InsErr :=
  if t = 0x0e ∨ t = 0x0f then sameType
  else if t = 0x1d ∧ L.sp = true then scanMisled L True
  else if t = 0x1e ∧ L.sp = true then scanMisled L False
  else {}

def outputMisled (L : Lib) (t : UInt8) : Field InsErr :=
  if t = 0x03 ∨ t = 0x04 then sameType
  else if (t = 0x09 ∨ t = 0x0a) ∧ L.sp = true then sameType
  else {}

/-- Some pair is of this type and has this value. -/
def HasValue (t : UInt8) (v : Bytes) (ps : List Pair) : Prop := ∃ p ∈ ps, p.key.ty = t ∧ p.value = v

/-- A transaction id of zeros or an index of ones is said to be missing. -/
def inputEndMisled (ps : List Pair) (e : DecErr) : Prop :=
  HasValue 0x0e (List.replicate 32 0) ps ∧ e = .missingPreviousTxid ∨
  HasValue 0x0f [0xff, 0xff, 0xff, 0xff] ps ∧ e = .missingSpentOutputIndex

/-- An amount of zero or an empty script is said to be missing. -/
def outputEndMisled (ps : List Pair) (e : DecErr) : Prop :=
  HasValue 0x03 (List.replicate 8 0) ps ∧ e = .missingValue ∨
  HasValue 0x04 [] ps ∧ e = .missingScriptPubkey

/-! ### The maps of PSBT v0 -/

/-- The unsigned transaction. -/
def tx0 : Field V0.Err where
  key k e := k.key ≠ [] ∧ e = .invalidKey k
  again := sameKey v0Words
  value p e := (∀ t r, p.value ≠ unsignedTxBytes t ++ r) ∧ (∃ c, e = .consensus c) ∨
    (∃ t r, p.value = unsignedTxBytes t ++ r ∧ r ≠ []) ∧ e = .partialDataConsumption

/-- Extended public keys. There is one error for all that can be wrong. -/
def xpub0 (L : Lib) : Field V0.Err where
  key k e := (k.key = [] ∨ L.xpub.parse k.key = none) ∧ e = .xpubKey
  again q p e := q.key.ty = p.key.ty ∧ alike L.xpub q.key.key p.key.key ∧ e = .xpubKey
  value p e := (p.value = [] ∨ p.value.length % 4 ≠ 0) ∧ e = .xpubKey

/-- The version of the PSBT. -/
def version0 : Field V0.Err where
  key k e := k.key ≠ [] ∧ e = .invalidKey k
  again := sameKey v0Words
  value p e := ¬ IsLE32 0 p.value ∧ e = .version

/-- The key types of the global map. -/
def global0 (L : Lib) (t : UInt8) : Field V0.Err :=
  if t = 0x00 then tx0
  else if t = 0x01 then xpub0 L
  else if t = 0x02 ∨ t = 0x03 ∨ t = 0x04 ∨ t = 0x05 ∨ t = 0x06 then excluded v0Words
  else if t = 0xFB then version0
  else if t = 0xFC then proprietary v0Words
  else other v0Words

/-- The key types of an input. -/
def input0 (L : Lib) (t : UInt8) : Field V0.Err :=
  input v0Words L t <|
    if t = 0x0e ∨ t = 0x0f ∨ t = 0x10 ∨ t = 0x11 ∨ t = 0x12 then excluded v0Words else other v0Words

/-- The key types of an output. -/
def output0 (L : Lib) (t : UInt8) : Field V0.Err :=
  output v0Words L t <| if t = 0x03 ∨ t = 0x04 then excluded v0Words else other v0Words

/-- What is wrong with a global map as a whole. -/
def globalEnd0 (ps : List Pair) (e : V0.Err) : Prop := ¬ Has 0x00 ps ∧ e = .mustHaveUnsignedTx

/-! ### Whole maps -/

/-- Pairs one after the other. -/
def pairsBytes (ps : List Pair) : Bytes := ps.flatMap fun q => pairBytes q.key.ty q.key.key q.value

/-- The pair that is complained about, after the pairs before it. -/
def AtPair {ε E : Type} (field : UInt8 → Field ε) (refused : ε → E) (b : Bytes) (e : E) : Prop :=
  ∃ ps p r x, b = pairsBytes ps ++ (pairBytes p.key.ty p.key.key p.value ++ r) ∧ (∀ q ∈ ps, PairOk q) ∧ PairOk p ∧
    (field p.key.ty).Fault ps p x ∧ e = refused x

/-- No pair and no end of a map can be read from the front of the bytes: the length of the key cannot be read, there are fewer
bytes than it says, or it is beyond the limit; or so for the value. -/
inductive Torn : Bytes → CErr → Prop
  | size {b : Bytes} {c : CErr} : SizeFault b c → Torn b c
  | keyLimit {n : Nat} {t : Bytes} : n + 1 < 2 ^ 64 → MAX_KEY < n → Torn (compact (1 + n) ++ t) .oversized
  | keyShort {n : Nat} {t : Bytes} : n ≤ MAX_KEY → t.length < 1 + n → Torn (compact (1 + n) ++ t) .eof
  | value {ty : UInt8} {k t : Bytes} {c : CErr} : k.length ≤ MAX_KEY → BlobFault t c →
      Torn (compact (1 + k.length) ++ [ty] ++ k ++ t) c
  | valueLimit {ty : UInt8} {k t : Bytes} {n : Nat} : k.length ≤ MAX_KEY → n < 2 ^ 64 → MAX_VALUE < n →
      Torn (compact (1 + k.length) ++ [ty] ++ k ++ compact n ++ t) .eof

/-- After some pairs there is neither a pair nor the end of the map. -/
def AtTear {E : Type} (torn : SerErr → E) (b : Bytes) (e : E) : Prop :=
  ∃ ps r c, b = pairsBytes ps ++ r ∧ (∀ q ∈ ps, PairOk q) ∧ Torn r c ∧ e = torn (.consensus c)

/-- The map as a whole is complained about. -/
def AtEnd {E : Type} (ended : List Pair → E → Prop) (b : Bytes) (e : E) : Prop :=
  ∃ ps r, b = mapBytes ps ++ r ∧ (∀ q ∈ ps, PairOk q) ∧ ended ps e

/-- The bytes begin with no map that is in order, for the reason given. -/
def MapFault {ε E : Type} (field : UInt8 → Field ε) (refused : ε → E) (torn : SerErr → E) (ended : List Pair → E → Prop)
    (b : Bytes) (e : E) : Prop :=
  AtPair field refused b e ∨ AtTear torn b e ∨ AtEnd ended b e

/-! ### Whole PSBTs -/

/-- The magic bytes and the separator. -/
def HEAD : Bytes := [0x70, 0x73, 0x62, 0x74, 0xff]

/-- The map gives this number under this type. -/
def Announces (t : UInt8) (g : List Pair) (n : Nat) : Prop :=
  ∃ q ∈ g, q.key = ⟨t, []⟩ ∧ ∃ r, q.value = compact n ++ r

/-- A map of a PSBT that is not in order: the global map; the input map after `is`, where the global map says that there are more;
the output map after `os`, where the global map says that there are more. `ins` and `outs` say how many there are. -/
inductive Placed {E E' : Type} (ins outs : List Pair → Nat → Prop) (onGlobal onInput onOutput : E → E')
    (global input output : Bytes → E → Prop) : Bytes → E' → Prop
  | global {d : Bytes} {e : E} : global d e → Placed ins outs onGlobal onInput onOutput global input output (HEAD ++ d) (onGlobal e)
  | input {g : List Pair} {is : List (List Pair)} {n : Nat} {d : Bytes} {e : E} : (∀ m ∈ g :: is, ∀ q ∈ m, PairOk q) →
      ins g n → is.length < n → input d e →
      Placed ins outs onGlobal onInput onOutput global input output (HEAD ++ mapBytes g ++ is.flatMap mapBytes ++ d) (onInput e)
  | output {g : List Pair} {is os : List (List Pair)} {n : Nat} {d : Bytes} {e : E} : (∀ m ∈ g :: is ++ os, ∀ q ∈ m, PairOk q) →
      ins g is.length → outs g n → os.length < n → output d e →
      Placed ins outs onGlobal onInput onOutput global input output
        (HEAD ++ mapBytes g ++ is.flatMap mapBytes ++ os.flatMap mapBytes ++ d) (onOutput e)

/-- Is not a PSBT v2, for the reason given. -/
inductive Fault2 (L : Lib) : Bytes → V2.DeserErr → Prop
  | magic {b : Bytes} : b.take 4 ≠ [0x70, 0x73, 0x62, 0x74] → Fault2 L b .invalidMagic
  | separator {b : Bytes} : b.take 4 = [0x70, 0x73, 0x62, 0x74] → b[4]? ≠ some 0xff → Fault2 L b .invalidSeparator
  | placed {b : Bytes} {e : V2.DeserErr} :
      Placed (Announces 0x04) (Announces 0x05) .decodeGlobal .decodeInput .decodeOutput
        (MapFault (global2 L) .insertPair .deserPair (globalEnd2 L)) (MapFault (input2 L) .insertPair .deserPair (inputEnd2 L))
        (MapFault (output2 L) .insertPair .deserPair (outputEnd2 L)) b e → Fault2 L b e

/-- The untrue complaints about a PSBT v2. -/
def Misled2 (L : Lib) (b : Bytes) (e : V2.DeserErr) : Prop :=
  Placed (Announces 0x04) (Announces 0x05) .decodeGlobal .decodeInput .decodeOutput
    (AtPair (globalMisled L) .insertPair)
    (fun b e => AtPair (inputMisled L) .insertPair b e ∨ AtEnd inputEndMisled b e)
    (fun b e => AtPair (outputMisled L) .insertPair b e ∨ AtEnd outputEndMisled b e) b e

/-- The unsigned transaction in a global map. -/
def UnsignedTx (g : List Pair) (t : Tx) : Prop := ∃ q ∈ g, q.key = ⟨0x00, []⟩ ∧ q.value = unsignedTxBytes t

/-- Is not a PSBT v0, for the reason given. The global map has to end within 4,000,000 bytes. -/
inductive Fault0 (L : Lib) : Bytes → V0.Err → Prop
  | magic {b : Bytes} : b.take 4 ≠ [0x70, 0x73, 0x62, 0x74] → Fault0 L b .invalidMagic
  | separator {b : Bytes} : b.take 4 = [0x70, 0x73, 0x62, 0x74] → b[4]? ≠ some 0xff → Fault0 L b .invalidSeparator
  | placed {b : Bytes} {e : V0.Err} :
      Placed (fun g n => ∃ t, UnsignedTx g t ∧ n = t.input.length) (fun g n => ∃ t, UnsignedTx g t ∧ n = t.output.length) id id id
        (fun d e => MapFault (global0 L) id .ser globalEnd0 (d.take 4000000) e)
        (MapFault (input0 L) id .ser (fun _ _ => False)) (MapFault (output0 L) id .ser (fun _ _ => False)) b e → Fault0 L b e
  | scriptSig {g : List Pair} {t : Tx} {r : Bytes} : (∀ q ∈ g, PairOk q) → UnsignedTx g t → (∃ i ∈ t.input, i.scriptSig ≠ []) →
      Fault0 L (HEAD ++ mapBytes g ++ r) .unsignedTxHasScriptSigs

end Psbt.Spec
