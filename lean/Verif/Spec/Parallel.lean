/- Several signers: what signing one after the other, and signing copies and combining them, should come to. -/
import Verif.Spec.Sign
import Verif.Spec.Roles
import Verif.Model.V2.Combine
namespace Psbt.Spec
open Psbt.V2

variable {L : Lib}

/-- The PSBT after these signers signed it one after the other. -/
def signInTurn (S : SigLib L) (tx : Tx) : Psbt L → List (Provider S) → Out Empty (Psbt L)
  | p, [] => .ok p
  | p, k :: ks =>
    match p.sign S tx k with
    | .ok (q, _) => signInTurn S tx q ks
    | .error e => .error e

/-- The PSBT obtained by combining a first one with copies, each of them the PSBT `p` signed by one signer. -/
def combineCopies (S : SigLib L) (tx : Tx) (p : Psbt L) : Psbt L → List (Provider S) → Option (Psbt L)
  | a, [] => some a
  | a, k :: ks =>
    match p.sign S tx k with
    | .ok (b, _) => match a.combine b with
      | .ok c => combineCopies S tx p c ks
      | .error _ => none
    | .error _ => none

/-- Two private keys with the same public key sign alike. -/
def Deterministic (S : SigLib L) : Prop := ∀ m sk sk', S.pub sk = S.pub sk' → S.signEcdsa m sk = S.signEcdsa m sk'

/-- A signer with these keys replaces no signature of the PSBT by a different one. -/
def KeepsSignatures (p q : Psbt L) : Prop :=
  ∀ (n : Nat) (i j : Input L) pk s, p.inputs[n]? = some i → q.inputs[n]? = some j →
    i.partialSigs.get pk = some s → j.partialSigs.get pk = some s

/-- The modifiable flags allow no change that would invalidate a signature of type `ty` (BIP-370): if inputs may be added
the type has ANYONECANPAY, if outputs may be added it is NONE, and a SINGLE signature is announced. -/
def Permits (p : Psbt L) (ty : EcdsaTy) : Prop :=
  (flag p 0 = true → ty.1 = 0x81 ∨ ty.1 = 0x82 ∨ ty.1 = 0x83) ∧
  (flag p 1 = true → ty.1 = 0x02 ∨ ty.1 = 0x82) ∧
  (ty.1 = 0x03 ∨ ty.1 = 0x83 → flag p 2 = true)

/-- The modifiable flags allow no change that would invalidate a signature the PSBT carries. -/
def HonestFlags (p : Psbt L) : Prop := ∀ i ∈ p.inputs, ∀ pk s, i.partialSigs.get pk = some s → Permits p s.ty

end Psbt.Spec
