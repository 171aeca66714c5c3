/-
What signing takes from the crate's dependencies, and the key providers (`GetKey`).
-/
import Verif.Model.Ser
namespace Psbt

/-- Keys and signatures of secp256k1 / rust-bitcoin. Signing is deterministic (RFC 6979 without extra entropy), as
`Secp256k1::sign_ecdsa` is. -/
structure SigLib (L : Lib) where
  /-- `bitcoin::PrivateKey`. -/
  SK : Type
  /-- `PrivateKey::public_key`. -/
  pub : SK → L.pubkey.T
  /-- `Secp256k1::sign_ecdsa`. -/
  signEcdsa : Hash32 → SK → L.derSig.T
  /-- `Keypair::from_secret_key`; `secp256k1::Keypair`. -/
  Keypair : Type
  keypair : SK → Keypair
  /-- `tap_tweak(..).to_keypair()` with a merkle root or none. -/
  tapTweak : Keypair → Option Hash32 → Keypair
  /-- `Secp256k1::sign_schnorr_no_aux_rand`. With the feature `rand` signatures are not deterministic;
  that is modelled in `Model/World.lean`. -/
  signSchnorr : Hash32 → Keypair → FixedBytes 64
  /-- `From<PublicKey> for XOnlyPublicKey`. -/
  xonly : L.pubkey.T → L.xonly.T
  /-- `PublicKey::new` of a `secp256k1::PublicKey`. -/
  ofSecp : L.secpPk.T → L.pubkey.T
  /-- `bip32::Xpriv`. -/
  Xpriv : Type
  /-- `Xpriv::fingerprint`. -/
  fingerprint : Xpriv → FixedBytes 4
  /-- The field `Xpriv::parent_fingerprint`. -/
  parentFingerprint : Xpriv → FixedBytes 4
  /-- `Xpriv::derive_priv`; `none`: a `bip32::Error`. -/
  derive : Xpriv → List UInt32 → Option Xpriv
  /-- `Xpriv::to_priv`. -/
  toPriv : Xpriv → SK

/-- `KeyRequest`, src/v2/mod.rs:1004-1012. -/
inductive KeyRequest (L : Lib) where
  | pubkey (pk : L.pubkey.T)
  | bip32 (ks : KeySource)
  deriving DecidableEq

/-- `GetKeyError`, src/v2/mod.rs:1115-1121. -/
inductive GetKeyErr where
  | bip32 | notSupported
  deriving DecidableEq, Repr

/-- A key provider (`impl GetKey`, src/v2/mod.rs:1014-1029), as a function of the request; providers that answer the
same request differently at different times are modelled in `Model/World.lean`. -/
abbrev Provider {L : Lib} (S : SigLib L) := KeyRequest L → Except GetKeyErr (Option S.SK)

variable {L : Lib} (S : SigLib L)

/-- `impl GetKey for Xpriv`, src/v2/mod.rs:1031-1052 (src/v0/bitcoin/mod.rs:756-777 is the same). -/
def getKeyXpriv (x : S.Xpriv) : Provider S
  | .pubkey _ => .error .notSupported
  | .bip32 (fp, path) =>
    if S.fingerprint x = fp then
      match S.derive x path with
      | some k => .ok (some (S.toPriv k))
      | none => .error .bip32
    else .ok none

/-- The loop of src/v2/mod.rs:1075-1081. -/
def getKeySetLoop (fp : FixedBytes 4) (path : List UInt32) : List S.Xpriv → Except GetKeyErr (Option S.SK)
  | [] => .ok none
  | x :: xs =>
    if S.parentFingerprint x = fp then
      match S.derive x path with
      | some k => .ok (some (S.toPriv k))
      | none => .error .bip32
    else getKeySetLoop fp path xs

/-- `impl GetKey for BTreeSet<Xpriv>` and `HashSet<Xpriv>`, src/v2/mod.rs:1060-1089 (src/v0/bitcoin/mod.rs:801-823).
The set is given as the list of its elements in iteration order. -/
def getKeySet (xs : List S.Xpriv) : Provider S
  | .pubkey _ => .error .notSupported
  | .bip32 (fp, path) => getKeySetLoop S fp path xs

/-- `impl GetKey for BTreeMap<PublicKey, PrivateKey>` and `HashMap`, src/v2/mod.rs:1091-1111
(src/v0/bitcoin/mod.rs:831-844). -/
def getKeyMap (m : BMap L.pubkey.T S.SK) : Provider S
  | .pubkey pk => .ok (m.get pk)
  | .bip32 _ => .error .notSupported

end Psbt
