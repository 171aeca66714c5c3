/-
What the model takes from the crate's dependencies without modelling it: parsing of elliptic-curve objects
and hash functions. Everything is a field of `Lib`, so every theorem holds for
every choice of them that satisfies the stated laws.
-/
import Verif.Lemmas.TapBuilder
namespace Psbt

/-- A type of rust-bitcoin / secp256k1 values given by its byte parser. `dec b = some c` means: parsing `b`
succeeds and the parsed value serialises to `c`. A value is represented by its canonical serialisation.
The laws: parsing a serialised value gives it back; serialising never grows; no value serialises to nothing.
`ord` is the type's Rust `Ord`, any strict total order. -/
structure Foreign where
  dec : Bytes → Option Bytes
  ord : OrdKey Bytes
  canon : ∀ b c, dec b = some c → dec c = some c
  shrink : ∀ b c, dec b = some c → c.length ≤ b.length
  nonempty : ∀ b c, dec b = some c → c ≠ []

/-- Values of a foreign type. -/
structure Foreign.T (F : Foreign) where
  bytes : Bytes
  ok : F.dec bytes = some bytes
  deriving DecidableEq

theorem Foreign.T.ext' {F : Foreign} {a b : F.T} (h : a.bytes = b.bytes) : a = b := by
  cases a; cases b; simp_all

/-- Parse. -/
def Foreign.parse (F : Foreign) (b : Bytes) : Option F.T :=
  match h : F.dec b with
  | some c => some ⟨c, F.canon b c h⟩
  | none => none

instance (F : Foreign) : OrdKey F.T := @OrdKey.ofInj F.T Bytes F.ord Foreign.T.bytes (fun _ _ => Foreign.T.ext')

/-- The dependencies. -/
structure Lib where
  /-- Is the `silent-payments` cargo feature on? -/
  sp : Bool
  /-- `bitcoin::PublicKey`. -/
  pubkey : Foreign
  /-- `secp256k1::PublicKey`. -/
  secpPk : Foreign
  /-- `XOnlyPublicKey`. -/
  xonly : Foreign
  /-- `CompressedPublicKey` (33 bytes; keys and ECDH shares of silent payments). -/
  compressed : Foreign
  /-- DER-encoded `secp256k1::ecdsa::Signature`. -/
  derSig : Foreign
  /-- `Ord` of `taproot::ControlBlock`. -/
  ctrlOrd : OrdKey Bytes
  /-- `bip32::Xpub`. -/
  xpub : Foreign
  ripemd160 : Bytes → FixedBytes 20
  sha256 : Bytes → FixedBytes 32
  hash160 : Bytes → FixedBytes 20
  sha256d : Bytes → FixedBytes 32
  /-- `size_of::<Input>()` and `size_of::<Output>()` (and their v0 counterparts). -/
  inputSize : Nat
  outputSize : Nat
  xonly_len : ∀ b c, xonly.dec b = some c → b.length = 32 ∧ c.length = 32
  inputSize_pos : 0 < inputSize
  outputSize_pos : 0 < outputSize

/-- `ControlBlock::decode` and `ControlBlock::serialize` of rust-bitcoin, called at src/serialize.rs:276-283: a byte with the leaf
version and the parity of the output key, the internal key, and up to 128 hashes. -/
def ctrlDec (xonly : Foreign) (b : Bytes) : Option Bytes :=
  match b with
  | [] => none
  | h :: r =>
    if r.length < 32 ∨ (r.length - 32) % 32 ≠ 0 ∨ 32 * MAX_TREE_DEPTH < r.length - 32 then none
    else if h &&& 0xfe = 0x50 then none
    else (xonly.dec (r.take 32)).map fun c => h :: (c ++ r.drop 32)

/-- `taproot::ControlBlock`. -/
def Lib.ctrl (L : Lib) : Foreign where
  dec := ctrlDec L.xonly
  ord := L.ctrlOrd
  canon b c h := by
    unfold ctrlDec at h
    split at h
    · cases h
    · rename_i v r
      split at h
      · cases h
      · rename_i hl
        split at h
        · cases h
        · rename_i hv
          cases hd : L.xonly.dec (r.take 32) with
          | none => rw [hd] at h; cases h
          | some d =>
            rw [hd] at h; cases h
            have e := (L.xonly_len _ _ hd).2
            have e2 : (d ++ r.drop 32).length = r.length := by
              rw [List.length_append, e, List.length_drop]; omega
            simp only [ctrlDec, e2]
            rw [if_neg hl, if_neg hv, List.take_append_of_le_length (by omega), List.take_of_length_le (by omega),
              L.xonly.canon _ _ hd, Option.map_some]
            rw [List.drop_append_of_le_length (by omega), List.drop_of_length_le (by omega), List.nil_append]
  shrink b c h := by
    unfold ctrlDec at h
    split at h
    · cases h
    · rename_i v r
      split at h
      · cases h
      · rename_i hl
        split at h
        · cases h
        · rename_i hv
          cases hd : L.xonly.dec (r.take 32) with
          | none => rw [hd] at h; cases h
          | some d =>
            rw [hd] at h; cases h
            have e := (L.xonly_len _ _ hd).2
            simp only [List.length_cons, List.length_append, e, List.length_drop]; omega
  nonempty b c h := by
    unfold ctrlDec at h
    split at h
    · cases h
    · split at h
      · cases h
      · split at h
        · cases h
        · rename_i r _ _
          cases hd : L.xonly.dec (r.take 32) with
          | none => rw [hd] at h; cases h
          | some d => rw [hd] at h; cases h; simp

/-- A `TaprootBuilder` fed with the leaves, then `TapTree::try_from`, then `script_leaves()`: `none` if the builder rejects;
the leaves of the built tree in its own order otherwise. -/
def Lib.tapBuild (L : Lib) (ls : List TapLeaf) : Option (List TapLeaf) := tapBuildOf L.sha256 ls

theorem Lib.tap_canon (L : Lib) (l m : List TapLeaf) (h : L.tapBuild l = some m) : L.tapBuild m = some m := tapBuildOf_canon L.sha256 h

theorem Lib.tap_shrink (L : Lib) (l m : List TapLeaf) (h : L.tapBuild l = some m) :
    (m.flatMap encTapLeaf).length ≤ (l.flatMap encTapLeaf).length := tapBuildOf_shrink L.sha256 h

/-- `taproot::TapTree`: a leaf list as the builder returns it. -/
structure TapTree (L : Lib) where
  leaves : List TapLeaf
  ok : L.tapBuild leaves = some leaves
  deriving DecidableEq

/-- `isize::MAX`. -/
def ISIZE_MAX : Nat := 2 ^ 63 - 1

/-- `Vec::with_capacity(n)` for elements of `size` bytes panics with "capacity overflow" above `isize::MAX` bytes.
(Below that it may still abort when memory runs out; that is not modelled.) -/
def capacityOverflow (n size : Nat) : Bool := decide (ISIZE_MAX < n * size)

end Psbt
