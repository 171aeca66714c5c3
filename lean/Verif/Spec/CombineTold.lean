/- What an error of combining claims about the two PSBTs. -/
import Verif.Spec.Combine
import Verif.Model.V2.Combine
import Verif.Model.V0.Psbt
namespace Psbt.Spec
open Psbt V2

variable {L : Lib}

/-- Two sources of one extended key contradict each other: neither path is an ending of the other. -/
def Contradict (s t : KeySource) : Prop := ¬ s.2 <:+ t.2 ∧ ¬ t.2 <:+ s.2

instance (s t : KeySource) : Decidable (Contradict s t) := inferInstanceAs (Decidable (_ ∧ _))

/-- Both maps have the extended key `x`, with sources `s` and `t` that contradict each other. -/
def Clash (m n : BMap L.xpub.T KeySource) (x : L.xpub.T) (s t : KeySource) : Prop :=
  m.get x = some s ∧ n.get x = some t ∧ Contradict s t

/-- `x` is the first such key in the order of the serialised keys. -/
def FirstClash (m n : BMap L.xpub.T KeySource) (x : L.xpub.T) (s t : KeySource) : Prop :=
  Clash m n x s t ∧ ∀ y s' t', OrdKey.lt y x = true → ¬ Clash m n y s' t'

/-- Global maps that can be combined. -/
structure GlobalsFit (a b : Global L) : Prop where
  version : a.version = b.version
  txVersion : a.txVersion = b.txVersion
  keySources : ∀ x s t, ¬ Clash a.xpubs b.xpubs x s t

/-- Why two global maps cannot be combined. -/
inductive GlobalFault (a b : Global L) : GlobalCombErr L → Prop
  | version : a.version ≠ b.version → GlobalFault a b (.version a.version b.version)
  | txVersion : a.version = b.version → a.txVersion ≠ b.txVersion → GlobalFault a b (.txVersion a.txVersion b.txVersion)
  | keySources {x s t} : a.version = b.version → a.txVersion = b.txVersion → FirstClash a.xpubs b.xpubs x s t →
      s.2.length ≤ t.2.length → GlobalFault a b (.inconsistentKeySources x)

/-- The first pair of inputs that spend different outputs. -/
def FirstInput (p q : Psbt L) (i j : Input L) : Prop :=
  ∃ k : Nat, p.inputs[k]? = some i ∧ q.inputs[k]? = some j ∧
    ∀ k' < k, ∀ i' j', p.inputs[k']? = some i' → q.inputs[k']? = some j' →
      i'.previousTxid = j'.previousTxid ∧ i'.spentOutputIndex = j'.spentOutputIndex

/-- The first pair of outputs that differ in amount or script. -/
def FirstOutput (p q : Psbt L) (i j : Output L) : Prop :=
  ∃ k : Nat, p.outputs[k]? = some i ∧ q.outputs[k]? = some j ∧
    ∀ k' < k, ∀ i' j', p.outputs[k']? = some i' → q.outputs[k']? = some j' →
      i'.amount = j'.amount ∧ i'.scriptPubkey = j'.scriptPubkey

/-- Paired inputs spend the same outputs. -/
def InputsFit (p q : Psbt L) : Prop := ∀ (k : Nat) i j, p.inputs[k]? = some i → q.inputs[k]? = some j →
  i.previousTxid = j.previousTxid ∧ i.spentOutputIndex = j.spentOutputIndex

/-- Why two PSBTs v2 cannot be combined. -/
inductive CombineFault (p q : Psbt L) : CombErr L → Prop
  | global {e} : GlobalFault p.global q.global e → CombineFault p q (.global e)
  | txid {i j} : GlobalsFit p.global q.global → FirstInput p q i j → i.previousTxid ≠ j.previousTxid →
      CombineFault p q (.input (.previousTxid i.previousTxid j.previousTxid))
  | vout {i j} : GlobalsFit p.global q.global → FirstInput p q i j → i.previousTxid = j.previousTxid →
      i.spentOutputIndex ≠ j.spentOutputIndex → CombineFault p q (.input (.spentOutputIndex i.spentOutputIndex j.spentOutputIndex))
  | amount {i j} : GlobalsFit p.global q.global → InputsFit p q → FirstOutput p q i j → i.amount ≠ j.amount →
      CombineFault p q (.output (.amount i.amount j.amount))
  | script {i j} : GlobalsFit p.global q.global → InputsFit p q → FirstOutput p q i j → i.amount = j.amount →
      i.scriptPubkey ≠ j.scriptPubkey → CombineFault p q (.output (.scriptPubkey i.scriptPubkey j.scriptPubkey))

namespace V0

/-- Why two PSBTs v0 cannot be combined. -/
inductive CombineFault (p q : Psbt.V0.Psbt L) : Psbt.V0.Err → Prop
  | unsignedTx : p.unsignedTx ≠ q.unsignedTx → CombineFault p q (.unexpectedUnsignedTx p.unsignedTx q.unsignedTx)
  | keySources {x s t} : p.unsignedTx = q.unsignedTx → FirstClash p.xpub q.xpub x s t → s.2.length ≤ t.2.length →
      CombineFault p q (.combineInconsistentKeySources x.bytes)

end V0
end Psbt.Spec
