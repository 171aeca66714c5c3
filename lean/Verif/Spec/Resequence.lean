/- Which sequence numbers the signatures of an input of a PSBT v2 cover, and which strings are hashed for their message. -/
import Verif.Spec.Roles
import Verif.Spec.Sign
namespace Psbt.Spec
open Psbt.V2

variable {L : Lib}

/-- The sequence number the PSBT gives for the input with this index: the one stated, 0 if none is stated. -/
def sequenceAt (p : Psbt L) (k : Nat) : Option UInt32 := p.inputs[k]?.map fun i => i.sequence.getD 0

/-- A signature of type `ty` for the input with index `n` covers the sequence number of the input with index `k`: its own one always, those
of others only if its type is ALL. -/
def CoversSequence (ty : EcdsaTy) (n k : Nat) : Prop := k = n ∨ ty.1 = 0x01

/-- The two PSBTs agree on the sequence numbers that such a signature covers. -/
def SameCovered (p q : Psbt L) (ty : EcdsaTy) (n : Nat) : Prop := ∀ k, CoversSequence ty n k → sequenceAt p k = sequenceAt q k

/-- The strings hashed for the message to sign for input `i` at index `n` of `tx`, which spends `u`. -/
inductive HashedFor (tx : Tx) (n : Nat) (i : Input L) (u : TxOut) (ty : EcdsaTy) : List Bytes → Prop
  | bare : SpendType u.scriptPubkey i.redeemScript .bare → HashedFor tx n i u ty (legacyHashed tx n u.scriptPubkey ty)
  | sh {r : Bytes} : SpendType u.scriptPubkey i.redeemScript .sh → i.redeemScript = some r →
      HashedFor tx n i u ty (legacyHashed tx n r ty)
  | wpkh {h : FixedBytes 20} : u.scriptPubkey = [0x00, 0x14] ++ h.1 →
      HashedFor tx n i u ty (segwitHashed L tx n ([0x76, 0xa9, 0x14] ++ h.1 ++ [0x88, 0xac]) u.value ty)
  | shWpkh {h : FixedBytes 20} : P2sh u.scriptPubkey → i.redeemScript = some ([0x00, 0x14] ++ h.1) →
      HashedFor tx n i u ty (segwitHashed L tx n ([0x76, 0xa9, 0x14] ++ h.1 ++ [0x88, 0xac]) u.value ty)
  | wsh {w : Bytes} : P2wsh u.scriptPubkey → i.witnessScript = some w → HashedFor tx n i u ty (segwitHashed L tx n w u.value ty)
  | shWsh {r w : Bytes} : P2sh u.scriptPubkey → i.redeemScript = some r → P2wsh r → i.witnessScript = some w →
      HashedFor tx n i u ty (segwitHashed L tx n w u.value ty)

/-- The scripts of the input and of the output it spends are there and of a length that can be encoded. -/
structure ProperScripts (i : Input L) (u : TxOut) : Prop where
  spk : u.scriptPubkey ≠ [] ∧ u.scriptPubkey.length < 2 ^ 64
  redeem : ∀ r, i.redeemScript = some r → r ≠ [] ∧ r.length < 2 ^ 64
  witness : ∀ w, i.witnessScript = some w → w.length < 2 ^ 64

/-- The hash function fails on strings hashed for the two messages: two different ones collide, or one hashes to zero, which BIP-143 uses
for what is not signed. -/
def HashFails (tx tx' : Tx) (n : Nat) (i j : Input L) (u : TxOut) (ty : EcdsaTy) : Prop :=
  ∃ xs ys, HashedFor tx n i u ty xs ∧ HashedFor tx' n j u ty ys ∧ (Collides L.sha256d xs ys ∨ HitsZero L.sha256d (xs ++ ys))

end Psbt.Spec
