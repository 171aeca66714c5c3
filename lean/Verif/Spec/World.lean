/- What signing may do in a world where providers change their answers and nonces are random. -/
import Verif.Spec.V0Sign
import Verif.Model.World
namespace Psbt.Spec
variable {L : Lib} {S : SigLib L}

/-- The provider, in some state, answers with this key when asked for the origin of the entry `d`, or for its public key. -/
def Gave (W : World S) (d : L.secpPk.T × KeySource) (sk : S.SK) : Prop :=
  ∃ s, answer (W.ask s (.bip32 d.2)).1 = some sk ∨ answer (W.ask s (.pubkey (S.ofSecp d.1))).1 = some sk

/-- The provider always answers as `k` does. -/
def Steady (W : World S) (k : Provider S) : Prop := ∀ s r, (W.ask s r).1 = k r

/-- `new` has the signatures `old` has, and may have more. Those it has in addition satisfy `Made`, together with the number
of a random string. The numbers are among `c`, …, `c' - 1`, and no two signatures have the same number. -/
def Drawn {α : Type} (Made : α → TapSig → Nat → Prop) (old new : α → Option TapSig) (c c' : Nat) : Prop :=
  ∃ f : α → Nat,
    (∀ a, new a = old a ∨ (old a = none ∧ c ≤ f a ∧ f a < c' ∧ ∃ t, new a = some t ∧ Made a t (f a))) ∧
    ∀ a b, new a ≠ old a → new b ≠ old b → f a = f b → a = b

/-- The keys that signing a PSBT v2 reports, by input. -/
def reported : Except (BMap Nat (List L.pubkey.T) × BMap Nat SignErr) (BMap Nat (List L.pubkey.T)) → BMap Nat (List L.pubkey.T)
  | .ok used => used
  | .error (used, _) => used

namespace V0
open Psbt.V0

/-- A place for a taproot signature in a PSBT: the index of the input, and nothing for the key path, or a public key and a
leaf. -/
abbrev TapSlot (L : Lib) := Nat × Option (L.xonly.T × Hash32)

/-- The signature in a place of an input, of a PSBT. -/
def tapSigOf (i : Input L) : Option (L.xonly.T × Hash32) → Option TapSig
  | none => i.tapKeySig
  | some k => i.tapScriptSigs.get k
def tapSigAt (p : Psbt L) (a : TapSlot L) : Option TapSig := (p.inputs[a.1]?).bind fun i => tapSigOf i a.2

/-- The signature `t` was made with the key that the provider gave for the origin that the input lists for the public key
(the internal key for the key path, which must be listed without leaves; otherwise the key must be listed with the leaf), on
the message there is to sign in this place, with the random string number `d`. -/
def TapMade (W : World S) (p : Psbt L) (a : TapSlot L) (t : TapSig) (d : Nat) : Prop :=
  ∃ i lhs ks sk s, p.inputs[a.1]? = some i ∧ answer (W.ask s (.bip32 ks)).1 = some sk ∧
    match a.2 with
    | none => ∃ x m, i.tapInternalKey = some x ∧ i.tapKeyOrigins.get x = some (lhs, ks) ∧ lhs = [] ∧ TapSigns p a.1 none m t.ty ∧
        t.sig = W.signAux m (S.tapTweak (S.keypair sk) i.tapMerkleRoot) (W.aux d)
    | some (x, lh) => ∃ m, i.tapKeyOrigins.get x = some (lhs, ks) ∧ lh ∈ lhs ∧ TapSigns p a.1 (some lh) m t.ty ∧
        t.sig = W.signAux m (S.keypair sk) (W.aux d)

/-- The two PSBTs differ at most in the bytes of taproot signatures: they have them in the same places, with the same sighash
types. -/
def SameButNonces (p q : Psbt L) : Prop :=
  erase p = erase q ∧ (∀ n : Nat, (p.inputs[n]?).map Input.partialSigs = (q.inputs[n]?).map Input.partialSigs) ∧
  ∀ a, (tapSigAt p a).map (·.ty) = (tapSigAt q a).map (·.ty)

end V0
end Psbt.Spec
