/- What an error of `sighash_msg` claims about the PSBT. -/
import Verif.Spec.SignTold
import Verif.Spec.V0Finalize
namespace Psbt.Spec.V0
open Psbt Psbt.V0

variable {L : Lib}

/-- The outputs spent by all inputs are known, and input `n`, with map `i`, spends `u`. -/
def AllKnown (p : Psbt L) (n : Nat) (i : Input L) (u : TxOut) : Prop :=
  (∀ j ∈ p.inputs, ¬ Unfunded j) ∧ ∃ t, HasInput p n t i ∧ FundedBy t i u

/-- Why there is no message for input `n` of a PSBT v0. -/
inductive MsgFault (p : Psbt L) (n : Nat) : SighashErr → Prop
  | index : p.inputs.length ≤ n → MsgFault p n (.indexOutOfBounds n p.inputs.length)
  | funding {j} : n < p.inputs.length → j ∈ p.inputs → Unfunded j → MsgFault p n .missingSpendUtxos
  | tapType {i u s} : AllKnown p n i u → P2tr u.scriptPubkey → i.sighashType = some s → s ∉ taprootTypes →
      MsgFault p n .invalidSighashType
  | noOutput {i u ty} : AllKnown p n i u → P2tr u.scriptPubkey → DeclaredTapType i ty → tapCommitsOutput ty →
      p.unsignedTx.output.length ≤ n → MsgFault p n (.taproot .singleMissingOutput)
  | ecdsaType {i u s} : AllKnown p n i u → ¬ P2tr u.scriptPubkey → i.sighashType = some s → s ∉ ecdsaTypes →
      MsgFault p n .invalidSighashType
  | witnessScript {i u ty t} : AllKnown p n i u → SpendType u.scriptPubkey i.redeemScript t → t = .wsh ∨ t = .shWsh →
      DeclaredType i ty → i.witnessScript = none → MsgFault p n .missingWitnessScript
  | redeemScript {i u ty} : AllKnown p n i u → SpendType u.scriptPubkey i.redeemScript .sh → DeclaredType i ty →
      i.redeemScript = none → MsgFault p n .missingRedeemScript

end Psbt.Spec.V0
