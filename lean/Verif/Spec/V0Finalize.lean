/- What finalizing a PSBT v0 with miniscript gives, and what is extracted. -/
import Verif.Spec.Finalize
import Verif.Spec.V0Sign
import Verif.Model.V0.Finalize
namespace Psbt.Spec.V0
open Psbt.V0 Psbt.Spec

variable {L : Lib} (M : MsLib L)

/-- There is one input map for each input of the unsigned transaction, and non-witness UTXOs that are needed have the output
that is spent. -/
def Sound (p : Psbt L) : Prop := p.inputs.length = p.unsignedTx.input.length ∧ IndicesInRange p

/-- The keys known from the BIP-32 derivations, and from the taproot key origins, of all inputs in order. -/
def derivationKeys (p : Psbt L) : List L.secpPk.T := p.inputs.flatMap fun j => j.bip32Derivation.l.map Prod.fst
def originKeys (p : Psbt L) : List L.xonly.T := p.inputs.flatMap fun j => j.tapKeyOrigins.l.map Prod.fst

/-- What an input holds. -/
def held (i : Input L) : Held L :=
  ⟨i.tapKeySig, i.tapScriptSigs, i.tapScripts, i.partialSigs, i.bip32Derivation.l.map Prod.fst, i.ripemd160Preimages,
    i.sha256Preimages, i.hash160Preimages, i.hash256Preimages⟩

/-- Nothing is known about the output spent. -/
def Unfunded (i : Input L) : Prop := i.witnessUtxo = none ∧ i.nonWitnessUtxo = none

/-- The script sig and the witness made for the input at `n`, or why there are none. -/
inductive Scripts (p : Psbt L) (n : Nat) (mall : Bool) : Except (MsInputErr L) (Bytes × List Bytes) → Prop
  | unfunded {t i} : HasInput p n t i → Unfunded i → Scripts p n mall (.error .missingUtxo)
  | tap {t i u w} : HasInput p n t i → FundedBy t i u → P2tr u.scriptPubkey →
      TapResult M mall (tapHashMap (originKeys p)) (p.satisfier M n i) (.ok w) → Scripts p n mall (.ok ([], w))
  | tapFails {t i u e} : HasInput p n t i → FundedBy t i u → P2tr u.scriptPubkey →
      TapResult M mall (tapHashMap (originKeys p)) (p.satisfier M n i) (.error e) → Scripts p n mall (.error e)
  | other {t i u d s w} : HasInput p n t i → FundedBy t i u → ¬ P2tr u.scriptPubkey →
      Descr M (hashMap M (derivationKeys p)) i.partialSigs.l u.scriptPubkey i.redeemScript i.witnessScript (.ok d) →
      M.satisfy mall d (p.satisfier M n i) = some (w, s) → Scripts p n mall (.ok (s, w))
  | otherFails {t i u e} : HasInput p n t i → FundedBy t i u → ¬ P2tr u.scriptPubkey →
      Descr M (hashMap M (derivationKeys p)) i.partialSigs.l u.scriptPubkey i.redeemScript i.witnessScript (.error e) →
      Scripts p n mall (.error e)
  | unsatisfied {t i u d} : HasInput p n t i → FundedBy t i u → ¬ P2tr u.scriptPubkey →
      Descr M (hashMap M (derivationKeys p)) i.partialSigs.l u.scriptPubkey i.redeemScript i.witnessScript (.ok d) →
      M.satisfy mall d (p.satisfier M n i) = none → Scripts p n mall (.error .miniscript)

/-- An input that has the UTXO fields of `i`, the script sig and the witness unless they are empty, and nothing else. -/
def onlyFinal (i : Input L) (scriptSig : Bytes) (witness : List Bytes) : Input L :=
  { Input.default L with
    nonWitnessUtxo := i.nonWitnessUtxo, witnessUtxo := i.witnessUtxo
    finalScriptSig := if scriptSig = [] then none else some scriptSig
    finalScriptWitness := if witness = [] then none else some witness }

/-- The first input nothing is known about. -/
def FirstUnfunded (p : Psbt L) (k : Nat) : Prop :=
  (∃ i, p.inputs[k]? = some i ∧ Unfunded i) ∧ ∀ m i, m < k → p.inputs[m]? = some i → ¬ Unfunded i

/-- What the interpreter says about a script sig and a witness for the input at `n`, in the unsigned transaction, with its
lock time and the sequence number of the input, all outputs spent being known. -/
def Verdict (p : Psbt L) (n : Nat) (s : Bytes) (w : List Bytes) (r : Option InterpErr) : Prop :=
  ∃ t i u us, HasInput p n t i ∧ FundedBy t i u ∧ Funding p.unsignedTx.input p.inputs us ∧
    M.interp ⟨u.scriptPubkey, s, w, t.sequence, p.unsignedTx.lockTime, p.unsignedTx, n, us⟩ = r

/-- What becomes of the input at `n`, or the error. Scripts are used only if the interpreter accepts them. -/
inductive Result (p : Psbt L) (n : Nat) (mall : Bool) : Except (FinErr L) (Input L) → Prop
  | done {i s w} : p.inputs[n]? = some i → Scripts M p n mall (.ok (s, w)) → Verdict M p n s w none →
      Result p n mall (.ok (onlyFinal i s w))
  | fails {e} : Scripts M p n mall (.error e) → Result p n mall (.error (.input e n))
  | unfunded {s w k} : Scripts M p n mall (.ok (s, w)) → FirstUnfunded p k → Result p n mall (.error (.input .missingUtxo k))
  | refused {s w e} : Scripts M p n mall (.ok (s, w)) → Verdict M p n s w (some e) →
      Result p n mall (.error (.input (.interpreter e) n))

/-- Scripts can be made for the input at `n`, and the interpreter accepts them. -/
def Satisfiable (p : Psbt L) (n : Nat) (mall : Bool) (s : Bytes) (w : List Bytes) : Prop :=
  Scripts M p n mall (.ok (s, w)) ∧ Verdict M p n s w none

/-- The input at `n` can be satisfied if malleable satisfactions are allowed, and cannot if they are not. -/
def OnlyMalleable (p : Psbt L) (n : Nat) : Prop :=
  (∃ s w, Satisfiable M p n true s w) ∧ ∀ s w, ¬ Scripts M p n false (.ok (s, w))

/-- The PSBT with one input replaced. -/
def withInput (p : Psbt L) (n : Nat) (j : Input L) : Psbt L := { p with inputs := p.inputs.set n j }

/-- The PSBT with the first `n` inputs taken from a list. -/
def withFirst (p : Psbt L) (n : Nat) (is : List (Input L)) : Psbt L := { p with inputs := is.take n ++ p.inputs.drop n }

/-- An input after finalizing: replaced if that succeeded, as it was otherwise. -/
def chosen (i : Input L) : Except (FinErr L) (Input L) → Input L
  | .ok j => j
  | .error _ => i

/-- The errors among results, in order. -/
def errors {α : Type} : List (Except (FinErr L) α) → List (FinErr L)
  | [] => []
  | .ok _ :: rs => errors rs
  | .error e :: rs => e :: errors rs

/-- The key hashes in the scripts of the input at `n` can be replaced with the keys this input lists as well as with those
of more inputs. -/
def SelfContained (p : Psbt L) (n : Nat) : Prop := ∀ t i u, HasInput p n t i → FundedBy t i u →
  (∀ keys ctx s ms, (∀ k ∈ i.bip32Derivation.l.map Prod.fst, k ∈ keys) → (i.witnessScript = some s ∨ u.scriptPubkey = s) →
    M.parse ctx s = some ms → M.substitute (hashMap M keys) ms = M.substitute (hashMap M (i.bip32Derivation.l.map Prod.fst)) ms) ∧
  ∀ keys cb s ver ms, (∀ k ∈ i.tapKeyOrigins.l.map Prod.fst, k ∈ keys) → (cb, s, ver) ∈ i.tapScripts.l → M.tapParse s = some ms →
    M.tapSubstitute (tapHashMap keys) ms = M.tapSubstitute (tapHashMap (i.tapKeyOrigins.l.map Prod.fst)) ms

/-- The partial signatures of every input have the sighash type it declares (ALL if it declares none), and that is a
standard one. -/
def SigTypes (p : Psbt L) : Prop :=
  ∀ i ∈ p.inputs, ∃ ty, DeclaredType i ty ∧ ∀ pk sig, i.partialSigs.get pk = some sig → sig.ty = ty

/-- Every input has a final script sig or a final witness. -/
def AllFinal (p : Psbt L) : Prop := ∀ i ∈ p.inputs, i.finalScriptSig ≠ none ∨ i.finalScriptWitness ≠ none

/-- `s` is `t` with the final scripts of `i` filled in; what is missing is left as it is. -/
def FilledIn (t : TxIn) (i : Input L) (s : TxIn) : Prop :=
  s.previousOutput = t.previousOutput ∧ s.sequence = t.sequence ∧
  (i.finalScriptSig = some s.scriptSig ∨ i.finalScriptSig = none ∧ s.scriptSig = t.scriptSig) ∧
  (i.finalScriptWitness = some s.witness ∨ i.finalScriptWitness = none ∧ s.witness = t.witness)

/-- Spends that are signed as in BIP-143. -/
def segwitV0 : OutputType → Prop
  | .wpkh | .wsh | .shWpkh | .shWsh => True
  | .bare | .sh | .tr => False

/-- The message to be signed for the input at `n`, and which kind it is: the one that signing uses, where it knows the type
of spend. For witness programs of unknown version or length it is a legacy message. -/
inductive MsgFor (p : Psbt L) (n : Nat) (leaf : Option Hash32) : SighashMsg → Prop
  | tap {h ty} : TapSigns p n leaf h ty → MsgFor p n leaf (.tap h)
  | segwit {t i u o h ty} : HasInput p n t i → FundedBy t i u → SpendType u.scriptPubkey i.redeemScript o → segwitV0 o →
      Signs p n h ty → MsgFor p n leaf (.segwitV0 h)
  | legacy {t i u o h ty} : HasInput p n t i → FundedBy t i u → SpendType u.scriptPubkey i.redeemScript o → ¬ segwitV0 o →
      Signs p n h ty → MsgFor p n leaf (.legacy h)
  | unknown {t i u h ty} : HasInput p n t i → FundedBy t i u → (∀ o, ¬ SpendType u.scriptPubkey i.redeemScript o) → DeclaredType i ty →
      legacySighash L p.unsignedTx n u.scriptPubkey ty = some h → MsgFor p n leaf (.legacy h)

end Psbt.Spec.V0
