/- Signers and combiners at work on one PSBT, in every way they can be arranged. -/
import Verif.Spec.V0Parallel
namespace Psbt.Spec

/-- How a PSBT came about: it is the original, or a signer signed what came about some way, or a combiner put together what
came about in two ways. -/
inductive Session (K : Type) where
  | original
  | sign (s : Session K) (k : K)
  | combine (s t : Session K)

/-- Who signed. -/
def Session.signers {K : Type} : Session K → List K
  | original => []
  | sign s k => s.signers ++ [k]
  | combine s t => s.signers ++ t.signers

/-- Nowhere is something signed combined into something that nobody signed. -/
def Session.Forward {K : Type} : Session K → Prop
  | original => True
  | sign s _ => s.Forward
  | combine s t => s.Forward ∧ t.Forward ∧ (s.signers = [] → t.signers = [])

section
open V2
variable {L : Lib}

/-- The PSBT v2 at the end of a session, if no step fails. -/
def afterSession (S : SigLib L) (p : Psbt L) : Session (Provider S) → Option (Psbt L)
  | .original => some p
  | .sign s k =>
    match afterSession S p s with
    | some q => match Signer.sign S q k with
      | .ok (r, _) => some r
      | .error _ => none
    | none => none
  | .combine s t =>
    match afterSession S p s, afterSession S p t with
    | some q, some r => match q.combine r with
      | .ok c => some c
      | .error _ => none
    | _, _ => none

/-- Input `n` has the signature `g` of the public key `pk`. -/
def HasSig (p : Psbt L) (n : Nat) (pk : L.pubkey.T) (g : EcdsaSig L) : Prop :=
  ∃ i, p.inputs[n]? = some i ∧ i.partialSigs.get pk = some g
end

namespace V0
open Psbt.V0
variable {L : Lib}

/-- The PSBT v0 at the end of a session, if no step panics or fails to combine. What a signer reports makes no difference. -/
def afterSession (S : SigLib L) (p : Psbt L) : Session (Provider S) → Option (Psbt L)
  | .original => some p
  | .sign s k =>
    match afterSession S p s with
    | some q => match q.sign S k with
      | .ok (r, _) => some r
      | .error _ => none
    | none => none
  | .combine s t =>
    match afterSession S p s, afterSession S p t with
    | some q, some r => match q.combine r with
      | (c, .ok ()) => some c
      | (_, .error _) => none
    | _, _ => none

/-- Where an input has a signature: of a public key, of the output key of a taproot output, or of a key for a leaf. -/
inductive SigAt (L : Lib) where
  | ecdsa (pk : L.pubkey.T)
  | keyPath
  | leaf (x : L.xonly.T) (h : Hash32)

/-- The signatures there. -/
abbrev SigAt.Sig : SigAt L → Type
  | .ecdsa _ => EcdsaSig L
  | _ => TapSig

/-- Input `n` has this signature there. -/
def HasSig (p : Psbt L) (n : Nat) : (a : SigAt L) → a.Sig → Prop
  | .ecdsa pk, g => ∃ i, p.inputs[n]? = some i ∧ i.partialSigs.get pk = some g
  | .keyPath, g => ∃ i, p.inputs[n]? = some i ∧ i.tapKeySig = some g
  | .leaf x h, g => ∃ i, p.inputs[n]? = some i ∧ i.tapScriptSigs.get (x, h) = some g

end V0
end Psbt.Spec
