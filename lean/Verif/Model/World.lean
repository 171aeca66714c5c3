/-
Signing with key providers that may answer the same request differently each time, and with the randomness that the feature
`rand` adds to Schnorr signatures. What is shared by both versions.
-/
import Verif.Model.V2.Sign
namespace Psbt
variable {L : Lib}

/-- What signing meets outside the PSBT. -/
structure World (S : SigLib L) where
  /-- The state of the key provider: `get_key` takes `&self` (src/v2/mod.rs:1014-1029), but an implementation may keep a
  state behind a cell, ask a device or a user. -/
  σ : Type
  /-- `GetKey::get_key`. -/
  ask : σ → KeyRequest L → Except GetKeyErr (Option S.SK) × σ
  /-- The 32-byte strings drawn from the thread's random number generator, in the order they are drawn. -/
  aux : Nat → Hash32
  /-- `Secp256k1::sign_schnorr` (feature `rand`): the signature as a function of the message, the key and the random
  string it draws. -/
  signAux : Hash32 → S.Keypair → Hash32 → FixedBytes 64

/-- The state of the provider and the number of random strings drawn so far. -/
abbrev World.State {S : SigLib L} (W : World S) := W.σ × Nat

variable {S : SigLib L} (W : World S)

/-- The key for one entry of the key origins, src/v2/mod.rs:788-794 and src/v0/bitcoin/mod.rs:373-379. -/
def findKeyW (pk : L.secpPk.T) (ks : KeySource) (s : W.σ) : Option S.SK × W.σ :=
  match W.ask s (.bip32 ks) with
  | (.ok (some sk), s) => (some sk, s)
  | (_, s) =>
    match W.ask s (.pubkey (S.ofSecp pk)) with
    | (.ok (some sk), s) => (some sk, s)
    | (_, s) => (none, s)

/-- The loop of `bip32_sign_ecdsa`, src/v2/mod.rs:787-811 and src/v0/bitcoin/mod.rs:372-395. -/
def signLoopW {ε : Type} (res : Except ε (Hash32 × EcdsaTy)) :
    List (L.secpPk.T × KeySource) → BMap L.pubkey.T (EcdsaSig L) → List L.pubkey.T → W.σ →
      Except ε (BMap L.pubkey.T (EcdsaSig L) × List L.pubkey.T) × W.σ
  | [], sigs, used, s => (.ok (sigs, used), s)
  | (pk, ks) :: ds, sigs, used, s =>
    match findKeyW W pk ks s with
    | (none, s) => signLoopW res ds sigs used s
    | (some sk, s) =>
      match res with
      | .error e => (.error e, s)
      | .ok (msg, ty) => signLoopW res ds (sigs.insert (S.pub sk) ⟨S.signEcdsa msg sk, ty⟩) (used ++ [S.pub sk]) s

end Psbt
