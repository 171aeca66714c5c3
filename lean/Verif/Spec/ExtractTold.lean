/- C123: what the errors of computing a fee mean. Inputs are looked at in order, then outputs, then the difference. -/
import Verif.Spec.V0Fee
namespace Psbt.Spec

/-- Inputs before `k` spend these outputs, worth less than 2^64 satoshi together, and `i` is input `k`. -/
def Reached {L : Lib} (p : V2.Psbt L) (k : Nat) (us : List TxOut) (i : V2.Input L) : Prop :=
  Funding (p.inputs.take k) us ∧ total (us.map TxOut.value) < 2 ^ 64 ∧ p.inputs[k]? = some i

/-- The first thing that prevents computing the fee of a PSBT v2. -/
def FeeTold {L : Lib} (p : V2.Psbt L) : FeeErr → Prop
  | .fundingUtxo f => ∃ k us i, Reached p k us i ∧ FundingFails i f
  | .inputOverflow => ∃ k us i u, Reached p k us i ∧ FundedBy i u ∧ 2 ^ 64 ≤ total (us.map TxOut.value) + u.value.toNat
  | .outputOverflow => ∃ us, Funding p.inputs us ∧ total (us.map TxOut.value) < 2 ^ 64 ∧ 2 ^ 64 ≤ totalOut p
  | .negative => ∃ us, Funding p.inputs us ∧ total (us.map TxOut.value) < totalOut p ∧ totalOut p < 2 ^ 64

namespace V0

/-- Inputs before `k` spend these outputs, worth less than 2^64 satoshi together, `t` is transaction input `k`, and `i` its
map. -/
def Reached {L : Lib} (p : V0.Psbt L) (k : Nat) (us : List TxOut) (t : TxIn) (i : V0.Input L) : Prop :=
  Funding (p.unsignedTx.input.take k) (p.inputs.take k) us ∧ total (us.map TxOut.value) < 2 ^ 64 ∧
  p.unsignedTx.input[k]? = some t ∧ p.inputs[k]? = some i

/-- What the outputs of the transaction add up to. -/
def totalOut {L : Lib} (p : V0.Psbt L) : Nat := total (p.unsignedTx.output.map TxOut.value)

/-- The first thing that prevents computing the fee of a PSBT v0. -/
def FeeTold {L : Lib} (p : V0.Psbt L) : V0.Err → Prop
  | .missingUtxo => ∃ k us t i, Reached p k us t i ∧ i.witnessUtxo = none ∧ i.nonWitnessUtxo = none
  | .psbtUtxoOutOfbounds => ∃ k us t i tx, Reached p k us t i ∧ i.witnessUtxo = none ∧ i.nonWitnessUtxo = some tx ∧
      tx.output.length ≤ t.previousOutput.vout.toNat
  | .feeOverflow =>
      (∃ k us t i u, Reached p k us t i ∧ FundedBy t i u ∧ 2 ^ 64 ≤ total (us.map TxOut.value) + u.value.toNat) ∨
      ∃ us, Funding p.unsignedTx.input p.inputs us ∧ total (us.map TxOut.value) < 2 ^ 64 ∧ 2 ^ 64 ≤ totalOut p
  | .negativeFee => ∃ us, Funding p.unsignedTx.input p.inputs us ∧
      total (us.map TxOut.value) < totalOut p ∧ totalOut p < 2 ^ 64
  | _ => False

end V0
end Psbt.Spec
