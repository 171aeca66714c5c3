/- Several signers of a PSBT v0. -/
import Verif.Spec.V0Sign
import Verif.Spec.Parallel
import Verif.Model.V0.Combine
namespace Psbt.Spec.V0
open Psbt.V0

variable {L : Lib}

/-- The PSBT after these signers signed it one after the other. -/
def signInTurn (S : SigLib L) : Psbt L → List (Provider S) → Out Empty (Psbt L)
  | p, [] => .ok p
  | p, k :: ks =>
    match p.sign S k with
    | .ok (q, _) => signInTurn S q ks
    | .error e => .error e

/-- The PSBT obtained by combining a first one with copies, each of them the PSBT `p` signed by one signer. -/
def combineCopies (S : SigLib L) (p : Psbt L) : Psbt L → List (Provider S) → Option (Psbt L)
  | a, [] => some a
  | a, k :: ks =>
    match p.sign S k with
    | .ok (b, _) => match a.combine b with
      | (c, .ok ()) => combineCopies S p c ks
      | (_, .error _) => none
    | .error _ => none

/-- Two providers that both have a key for an origin have the same key pair. -/
def AgreeOnKeys (S : SigLib L) (ka kb : Provider S) : Prop :=
  ∀ ks sk sk', answer (ka (.bip32 ks)) = some sk → answer (kb (.bip32 ks)) = some sk' → S.keypair sk = S.keypair sk'

/-- No ECDSA signature of `p` is replaced by a different one in `q`. -/
def KeepsSignatures (p q : Psbt L) : Prop :=
  ∀ (n : Nat) (i j : Input L) pk s, p.inputs[n]? = some i → q.inputs[n]? = some j →
    i.partialSigs.get pk = some s → j.partialSigs.get pk = some s

/-- Where both have a signature for a leaf, it is the same. -/
def SameLeafSigs (p q : Psbt L) : Prop :=
  ∀ (n : Nat) (i j : Input L) x s s', p.inputs[n]? = some i → q.inputs[n]? = some j →
    i.tapScriptSigs.get x = some s → j.tapScriptSigs.get x = some s' → s = s'

end Psbt.Spec.V0
