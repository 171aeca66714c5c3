/- Histories of a sighash cache. -/
import Verif.Model.V2.SignCached
import Verif.Model.V0.SignCached
namespace Psbt.Spec

/-- Hashing twice is hashing the hash, as for SHA256d. -/
def DoubleHash (L : Lib) : Prop := ∀ b, L.sha256d b = L.sha256 (L.sha256 b).1

/-- The caches that exist for `tx`: a new one, and what a cache has become after messages were asked for with it, of any PSBT
of any version and for any input, whether computed or not. Messages of `sighash_msg` may be asked for PSBTs whose spent
outputs satisfy `P`. -/
inductive Cached {L : Lib} (tx : Tx) (P : List TxOut → Prop) : SighashCache → Prop
  | new : Cached tx P (.new tx)
  | v2 {c} (p : V2.Psbt L) (n : Nat) : Cached tx P c → Cached tx P (p.sighashEcdsaCached n c).2
  | v0 {c} (p : V0.Psbt L) (n : Nat) : Cached tx P c → Cached tx P (p.sighashEcdsaCached n c).2
  | msg {c} (p : V0.Psbt L) (n : Nat) (leaf : Option Hash32) : (∀ us, p.prevouts = .ok us → P us) → Cached tx P c →
      Cached tx P (p.sighashMsgCached n leaf c).2

end Psbt.Spec
