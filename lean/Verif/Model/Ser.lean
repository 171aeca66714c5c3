/-
PSBT field codecs: src/serialize.rs (and src/v0/bitcoin/serialize.rs, which is the same code).
-/
import Verif.Model.Lib
namespace Psbt

/-- `serialize::Error`, src/serialize.rs:380-434 (payloads that come from dependencies are dropped). -/
inductive SerErr where
  | notEnoughData
  | invalidProprietaryKey
  | noMorePairs
  | nonStandardSighashType (n : UInt32)
  | invalidHash
  | consensus (e : CErr)
  | invalidPublicKey
  | invalidSecp256k1PublicKey
  | invalidXOnlyPublicKey
  | invalidEcdsaSignature
  | invalidTaprootSignature
  | invalidControlBlock
  | invalidLeafVersion
  | taproot (s : String)
  | tapTree
  | partialDataConsumption
  | lockTime (n : UInt32)
  | unsupportedVersion (n : UInt32)
  | invalidDleqProof (got expected : Nat)
  deriving DecidableEq, Repr

/-- The traits `Serialize` and `Deserialize` of one type, src/serialize.rs:31-41. -/
structure Codec (α : Type) where
  ser : α → Bytes
  deser : Bytes → Except SerErr α

/-- `v2_impl_psbt_de_serialize!`, src/macros.rs:23-33: consensus encoding, all bytes consumed. -/
def consensusCodec {α : Type} (e : α → Bytes) (d : Dec α) : Codec α where
  ser := e
  deser b := mapErr .consensus (consensusDeser d b)

/-- `Option::ok_or`. -/
def okOr {ε α : Type} (e : ε) : Option α → Except ε α
  | some a => .ok a
  | none => .error e

/-- A foreign type whose parse failure maps to `e`. -/
def Foreign.codec (F : Foreign) (e : SerErr) : Codec F.T where
  ser a := a.bytes
  deser b := okOr e (F.parse b)

/-- `v2_impl_psbt_hash_de_serialize!`, src/macros.rs:35-47: exactly `n` bytes. Used for `ripemd160`, `sha256`,
`hash160`, `sha256d`, `TapLeafHash`, `TapNodeHash`, `Txid` (src/serialize.rs:54-60). -/
def hashCodec (n : Nat) : Codec (FixedBytes n) where
  ser a := a.1
  deser b := if h : b.length = n then .ok ⟨b, h⟩ else .error .invalidHash

/-- `Amount` (src/serialize.rs:48). -/
def amountCodec : Codec UInt64 := consensusCodec encU64 decU64
/-- `Transaction` (src/serialize.rs:49). -/
def txCodec : Codec Tx := consensusCodec encTx decTx
/-- `TxOut` (src/serialize.rs:51). -/
def txOutCodec : Codec TxOut := consensusCodec encTxOut decTxOut
/-- `Witness` (src/serialize.rs:52). -/
def witnessCodec : Codec (List Bytes) := consensusCodec encWitness decWitness
/-- `u32` (:161-170), `Sequence` (:172-181), `PsbtSighashType` (:216-225), `LockTime` (:47) and
`transaction::Version` (:50), all represented by their `u32`. -/
def u32Codec : Codec UInt32 := consensusCodec encU32 decU32
/-- `ScriptBuf` (src/serialize.rs:65-71) and `Vec<u8>` (:208-214): the bytes themselves. -/
def rawCodec : Codec Bytes := ⟨id, .ok⟩

/-- `LOCK_TIME_THRESHOLD`. -/
def LOCK_TIME_THRESHOLD : UInt32 := 500000000

/-- `absolute::Height`: below the threshold. -/
abbrev Height := { n : UInt32 // n < LOCK_TIME_THRESHOLD }
/-- `absolute::Time`: at or above the threshold. -/
abbrev Time := { n : UInt32 // LOCK_TIME_THRESHOLD ≤ n }

/-- `absolute::Height`, src/serialize.rs:183-193. -/
def heightCodec : Codec Height where
  ser h := encU32 h.1
  deser b := do
    let n ← mapErr .consensus (consensusDeser decU32 b)
    if h : n < LOCK_TIME_THRESHOLD then .ok ⟨n, h⟩ else .error (.lockTime n)

/-- `absolute::Time`, src/serialize.rs:195-205. -/
def timeCodec : Codec Time where
  ser h := encU32 h.1
  deser b := do
    let n ← mapErr .consensus (consensusDeser decU32 b)
    if h : LOCK_TIME_THRESHOLD ≤ n then .ok ⟨n, h⟩ else .error (.lockTime n)

/-- `bip32::KeySource`: fingerprint and derivation path (child numbers as `u32`). -/
abbrev KeySource := FixedBytes 4 × List UInt32

/-- Path of a `KeySource`, the loop at src/serialize.rs:150-155. Structural recursion on the remaining bytes, four
at a time; a leftover of one to three bytes is the end-of-data error of `u32::consensus_decode`. -/
def decPath : Bytes → Except CErr (List UInt32)
  | [] => .ok []
  | a :: b :: c :: d :: r => do
    let p ← decPath r
    .ok (UInt32.ofNat (leDec [a, b, c, d]) :: p)
  | _ => .error .eof

/-- `KeySource`, src/serialize.rs:126-159. -/
def keySourceCodec : Codec KeySource where
  ser k := k.1.1 ++ k.2.flatMap encU32
  deser b :=
    if h : b.length < 4 then .error .notEnoughData
    else do
      let p ← mapErr .consensus (decPath (b.drop 4))
      .ok (⟨b.take 4, by simp at h ⊢; omega⟩, p)

/-- `EcdsaSighashType::from_standard`. -/
def ecdsaStandard (n : UInt32) : Bool :=
  n = 0x01 || n = 0x02 || n = 0x03 || n = 0x81 || n = 0x82 || n = 0x83

/-- `TapSighashType::from_consensus_u8`. -/
def tapStandard (n : UInt8) : Bool :=
  n = 0x00 || n = 0x01 || n = 0x02 || n = 0x03 || n = 0x81 || n = 0x82 || n = 0x83

/-- `EcdsaSighashType`, as its byte. -/
abbrev EcdsaTy := { n : UInt8 // ecdsaStandard n.toUInt32 = true }
/-- `TapSighashType`, as its byte. -/
abbrev TapTy := { n : UInt8 // tapStandard n = true }

/-- `bitcoin::ecdsa::Signature`. -/
structure EcdsaSig (L : Lib) where
  der : L.derSig.T
  ty : EcdsaTy
  deriving DecidableEq

/-- `ecdsa::Signature`, src/serialize.rs:97-124; `to_vec` is the DER signature followed by the type byte,
`from_slice` splits off the last byte. -/
def ecdsaSigCodec (L : Lib) : Codec (EcdsaSig L) where
  ser s := s.der.bytes ++ [s.ty.1]
  deser b :=
    match b.getLast? with
    | none => .error .invalidEcdsaSignature
    | some t =>
      if h : ecdsaStandard t.toUInt32 = true then
        match L.derSig.parse b.dropLast with
        | some d => .ok ⟨d, t, h⟩
        | none => .error .invalidEcdsaSignature
      else .error (.nonStandardSighashType t.toUInt32)

/-- `bitcoin::taproot::Signature`. -/
structure TapSig where
  sig : FixedBytes 64
  ty : TapTy
  deriving DecidableEq

/-- `taproot::Signature`, src/serialize.rs:238-253. 64 bytes mean the default type; with 65 bytes the last one is the
type. `to_vec` omits the default type. -/
def tapSigCodec : Codec TapSig where
  ser s := if s.ty.1 = 0 then s.sig.1 else s.sig.1 ++ [s.ty.1]
  deser b :=
    if h : b.length = 64 then .ok ⟨⟨b, h⟩, ⟨0, by decide⟩⟩
    else if h : b.length = 65 then
      match b.getLast? with
      | none => .error .invalidTaprootSignature
      | some t =>
        if ht : tapStandard t = true then .ok ⟨⟨b.dropLast, by simp [h]⟩, ⟨t, ht⟩⟩
        else .error (.nonStandardSighashType t.toUInt32)
    else .error .invalidTaprootSignature

/-- `PublicKey`, src/serialize.rs:73-85. -/
def pubkeyCodec (L : Lib) : Codec L.pubkey.T := L.pubkey.codec .invalidPublicKey
/-- `secp256k1::PublicKey`, src/serialize.rs:87-95. -/
def secpPkCodec (L : Lib) : Codec L.secpPk.T := L.secpPk.codec .invalidSecp256k1PublicKey
/-- `XOnlyPublicKey`, src/serialize.rs:228-236. -/
def xonlyCodec (L : Lib) : Codec L.xonly.T := L.xonly.codec .invalidXOnlyPublicKey
/-- `ControlBlock`, src/serialize.rs:276-284. -/
def ctrlCodec (L : Lib) : Codec L.ctrl.T := L.ctrl.codec .invalidControlBlock

/-- `(XOnlyPublicKey, TapLeafHash)`, src/serialize.rs:255-274. -/
def xonlyLeafCodec (L : Lib) : Codec (L.xonly.T × Hash32) where
  ser p := p.1.bytes ++ p.2.1
  deser b :=
    if b.length < 32 then .error .notEnoughData
    else do
      let k ← (xonlyCodec L).deser (b.take 32)
      let h ← (hashCodec 32).deser (b.drop 32)
      .ok (k, h)

/-- `LeafVersion::from_consensus`. -/
def leafVersion? (v : UInt8) : Option LeafVersion :=
  if h : v.toNat % 2 = 0 ∧ v ≠ 0x50 then some ⟨v, h⟩ else none

/-- `(ScriptBuf, LeafVersion)`, src/serialize.rs:287-307. -/
def leafScriptCodec : Codec (Bytes × LeafVersion) where
  ser p := p.1 ++ [p.2.1]
  deser b :=
    match b.getLast? with
    | none => .error .notEnoughData
    | some v =>
      match leafVersion? v with
      | some lv => .ok (b.dropLast, lv)
      | none => .error .invalidLeafVersion

/-- `(Vec<TapLeafHash>, KeySource)`, src/serialize.rs:309-325. -/
def tapOriginCodec : Codec (List Hash32 × KeySource) where
  ser p := encList (fun h : Hash32 => h.1) p.1 ++ keySourceCodec.ser p.2
  deser b := do
    let (hs, r) ← mapErr .consensus (decList decHash32 b)
    let k ← keySourceCodec.deser r
    .ok (hs, k)

/-- The leaf loop of src/serialize.rs:352-367, with the builder in the state `br`; the leaves read are returned too. The recursion
consumes at least two bytes per step; `fuel` is the number of bytes, so the second clause is never reached from
`tapTreeCodec`. -/
def decTapLeaves (sha : Bytes → FixedBytes 32) : Nat → TapBuilder → Bytes → Except SerErr (List TapLeaf × TapBuilder)
  | _, br, [] => .ok ([], br)
  | 0, _, _ :: _ => .error .notEnoughData
  | _ + 1, _, [_] => .error (.taproot "Invalid Taproot Builder")
  | fuel + 1, br, d :: v :: r => do
    let (s, r) ← mapErr .consensus (decVecFin r)
    match leafVersion? v with
    | none => .error .invalidLeafVersion
    | some lv =>
      match br.addLeaf sha ⟨d, lv, s⟩ with
      | .error _ => .error (.taproot "Tree not in DFS order")
      | .ok br => do
        let (ls, br) ← decTapLeaves sha fuel br r
        .ok (⟨d, lv, s⟩ :: ls, br)

/-- `TapTree`, src/serialize.rs:327-370. `TapTree::try_from` takes the builder; here the tree is made from the leaves the
builder was fed with, which is the same (`decTapLeaves_ok`). -/
def tapTreeCodec (L : Lib) : Codec (TapTree L) where
  ser t := t.leaves.flatMap encTapLeaf
  deser b := do
    let (ls, _) ← decTapLeaves L.sha256 b.length [] b
    match h : L.tapBuild ls with
    | some m => .ok ⟨m, L.tap_canon ls m h⟩
    | none => .error .tapTree

/-- `DleqProof`, src/v2/dleq.rs:109-122. -/
def dleqCodec : Codec (FixedBytes 64) where
  ser a := a.1
  deser b := if h : b.length = 64 then .ok ⟨b, h⟩ else .error (.invalidDleqProof b.length 64)

/-- `Version`, src/version.rs:37-59: only 0 and 2 are read. -/
def versionCodec : Codec UInt32 where
  ser v := encU32 v
  deser b := do
    let n ← mapErr .consensus (consensusDeser decU32 b)
    if n = 0 ∨ n = 2 then .ok n else .error (.unsupportedVersion n)

end Psbt
