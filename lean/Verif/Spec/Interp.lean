/- Running the script interpreter on the final scripts of a PSBT v2. -/
import Verif.Spec.V2Finalize
import Verif.Spec.Hash
namespace Psbt.Spec
open Psbt.V2

variable {L : Lib} (M : MsLib L)

/-- Every input has a final script sig and a final witness. -/
def AllFinal (p : Psbt L) : Prop := ∀ i ∈ p.inputs, i.finalScriptSig ≠ none ∧ i.finalScriptWitness ≠ none

/-- The lock time an input asks for: its height, else its time, else none. -/
inductive Asks (i : Input L) : UInt32 → Prop
  | height {h} : i.minHeight = some h → Asks i h.1
  | time {t} : i.minHeight = none → i.minTime = some t → Asks i t.1
  | nothing : i.minHeight = none → i.minTime = none → Asks i 0

/-- The interpreter, run on the final scripts of input `i` at index `n` of the transaction `tx` that spends `us`, ends with
`r`, `none` being success. It is told the sequence number of the input, or 0xFFFFFFFF, and the lock time the input asks for. -/
def Run (tx : Tx) (us : List TxOut) (n : Nat) (i : Input L) (r : Option InterpErr) : Prop :=
  ∃ u s w c, FundedBy i u ∧ i.finalScriptSig = some s ∧ i.finalScriptWitness = some w ∧ Asks i c ∧
    M.interp ⟨u.scriptPubkey, s, w, i.sequence.getD 0xFFFFFFFF, c, tx, n, us⟩ = r

/-- The strings hashed on the way to the taproot message of the input at `n`, which spends `u`, in a transaction that spends `us`. -/
def tapStrings (L : Lib) (tx : Tx) (us : List TxOut) (n : Nat) (u : TxOut) (leaf : Option Hash32) (ty : TapTy) : List Bytes :=
  if ty.1 = 0x81 ∨ ty.1 = 0x82 ∨ ty.1 = 0x83 then tapHashed L tx [] n u leaf ty else tapHashed L tx us n u leaf ty

end Psbt.Spec
