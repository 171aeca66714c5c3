/- C127: what the errors of the checks around finalizing mean. -/
import Verif.Spec.Fee
import Verif.Spec.Sign
import Verif.Spec.LockTime
import Verif.Spec.V0Finalize
import Verif.Model.V2.Finalize
namespace Psbt.Spec
open Psbt

variable {L : Lib}

/-- All signatures have the type that is declared. -/
def SigsFit (declared : EcdsaTy → Prop) (sigs : BMap L.pubkey.T (EcdsaSig L)) : Prop :=
  ∃ ty, declared ty ∧ ∀ pk sig, sigs.get pk = some sig → sig.ty = ty

/-- What is wrong with the signatures of an input: there is no standard type they could have (`none`), or the signature under `pk`, and
none under a key before it, has another type than is declared; given are the type declared, that of the signature, and the key. -/
inductive SigsWrong (declared : EcdsaTy → Prop) (sigs : BMap L.pubkey.T (EcdsaSig L)) : Option (EcdsaTy × EcdsaTy × L.pubkey.T) → Prop
  | nonStandard : (∀ ty, ¬ declared ty) → SigsWrong declared sigs none
  | other {ty pk sig} : declared ty → sigs.get pk = some sig → sig.ty ≠ ty →
      (∀ pk' sig', OrdKey.lt pk' pk = true → sigs.get pk' = some sig' → sig'.ty = ty) → SigsWrong declared sigs (some (ty, sig.ty, pk))

/-- `i` is element `n`, and `ok` holds of all before. -/
def FirstAt {α : Type} (ok : Nat → α → Prop) (l : List α) (n : Nat) (i : α) : Prop :=
  l[n]? = some i ∧ ∀ m j, m < n → l[m]? = some j → ok m j

/-- The error tells what is wrong with the first input, of a PSBT v2, whose signatures do not fit. -/
inductive SigsTold (p : V2.Psbt L) : V2.PartialSigsErr L → Prop
  | nonStandard {n i} : FirstAt (fun _ j => SigsFit (DeclaredType j) j.partialSigs) p.inputs n i →
      SigsWrong (DeclaredType i) i.partialSigs none → SigsTold p (.nonStandardInput n)
  | other {n i ty got pk} : FirstAt (fun _ j => SigsFit (DeclaredType j) j.partialSigs) p.inputs n i →
      SigsWrong (DeclaredType i) i.partialSigs (some (ty, got, pk)) → SigsTold p (.wrongFlag n ty got pk)

/-- Why a PSBT v2 cannot be given to the finalizer. -/
inductive FinalizerTold (p : V2.Psbt L) : V2.FinalizerErr L → Prop
  | funding {n i e} : FirstAt (fun _ j => ∃ u, FundedBy j u) p.inputs n i → FundingFails i e → FinalizerTold p (.fundingUtxo e)
  | lockTime {e} : (∀ i ∈ p.inputs, ∃ u, FundedBy i u) → Conflict p → FinalizerTold p (.lockTime e)
  | sigs {e} : (∀ i ∈ p.inputs, ∃ u, FundedBy i u) → ¬ Conflict p → SigsTold p e → FinalizerTold p (.partialSigs e)

namespace V0

/-- The error tells what the sanity check of a PSBT v0 finds first: the numbers of inputs differ, or the signatures of some input do
not fit. -/
inductive SanityTold (p : V0.Psbt L) : V0.FinErr L → Prop
  | count : p.unsignedTx.input.length ≠ p.inputs.length → SanityTold p (.wrongInputCount p.unsignedTx.input.length p.inputs.length)
  | nonStandard {n i} : p.unsignedTx.input.length = p.inputs.length →
      FirstAt (fun _ j => SigsFit (DeclaredType j) j.partialSigs) p.inputs n i →
      SigsWrong (DeclaredType i) i.partialSigs none → SanityTold p (.input .nonStandardSighashType n)
  | other {n i ty got pk} : p.unsignedTx.input.length = p.inputs.length →
      FirstAt (fun _ j => SigsFit (DeclaredType j) j.partialSigs) p.inputs n i →
      SigsWrong (DeclaredType i) i.partialSigs (some (ty, got, pk)) → SanityTold p (.input (.wrongSighashFlag ty got pk) n)

/-- Nothing is wrong with that. -/
def Sane (p : V0.Psbt L) : Prop := p.unsignedTx.input.length = p.inputs.length ∧ SigTypes p

/-- Why a transaction cannot be extracted, with its scripts checked, from a PSBT v0. -/
inductive ExtractTold (M : MsLib L) (p : V0.Psbt L) : V0.FinErr L → Prop
  | sanity {e} : SanityTold p e → ExtractTold M p e
  | missing {n i} : Sane p → FirstAt (fun _ j => j.finalScriptSig ≠ none ∨ j.finalScriptWitness ≠ none) p.inputs n i →
      i.finalScriptSig = none → i.finalScriptWitness = none → ExtractTold M p (.missingWitness n)
  | unfunded {n} : Sane p → AllFinal p → FirstUnfunded p n → ExtractTold M p (.input .missingUtxo n)
  | rejected {n i e} : Sane p → AllFinal p →
      FirstAt (fun m j => Verdict M p m (j.finalScriptSig.getD []) (j.finalScriptWitness.getD []) none) p.inputs n i →
      Verdict M p n (i.finalScriptSig.getD []) (i.finalScriptWitness.getD []) (some e) → ExtractTold M p (.input (.interpreter e) n)

end V0
end Psbt.Spec
