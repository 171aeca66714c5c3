/- What the identifier of a transaction commits to, and native segwit outputs. -/
import Verif.Spec.Chain
import Verif.Spec.Script
import Verif.Model.Miniscript
import Verif.Model.V0.Finalize
import Verif.Model.V0.Extract
namespace Psbt.Spec

/-- The two transactions agree in everything but the witnesses of their inputs. -/
def SameBody (t u : Tx) : Prop :=
  t.version = u.version ∧ t.lockTime = u.lockTime ∧ t.output = u.output ∧
  t.input.map (fun i => (i.previousOutput, i.scriptSig, i.sequence)) = u.input.map fun i => (i.previousOutput, i.scriptSig, i.sequence)

/-- All that the identifier commits to is smaller than a machine word can count. -/
def Countable (t : Tx) : Prop :=
  t.input.length < 2 ^ 64 ∧ t.output.length < 2 ^ 64 ∧ (∀ i ∈ t.input, i.scriptSig.length < 2 ^ 64) ∧
  ∀ o ∈ t.output, o.scriptPubkey.length < 2 ^ 64

/-- The outputs that are spent with a witness only. -/
def Native (spk : Bytes) : Prop := P2wpkh spk ∨ P2wsh spk ∨ P2tr spk

/-- BIP-141, BIP-341: the interpreter accepts no script sig for a native segwit output. -/
def NoScriptSig {L : Lib} (M : MsLib L) : Prop := ∀ a : InterpArgs, Native a.spk → M.interp a = none → a.scriptSig = []

namespace V0
open Psbt.V0

/-- The transaction is got out of the PSBT in one of the ways there are. -/
inductive Extracts {L : Lib} (M : MsLib L) (q : Psbt L) : Tx → Prop
  | checked {t} : q.extract M = .ok t → Extracts M q t
  | unchecked : Extracts M q q.extractUnchecked
  | limited {t} (max) : q.extractWithLimit max = .ok t → Extracts M q t
  | default {t} : q.extractTx = .ok t → Extracts M q t

end V0
end Psbt.Spec
