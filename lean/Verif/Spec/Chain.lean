/- The outputs that exist on a block chain, what a transaction spends of them, and which signatures depend on their amounts. -/
import Verif.Spec.Encoding
import Verif.Spec.Fee
import Verif.Spec.V0Checks
import Verif.Spec.V0Finalize
namespace Psbt.Spec

/-- Some transaction of the chain has the id that the outpoint names, and `u` is its output with the outpoint's index. -/
def Creates (L : Lib) (chain : List Tx) (o : OutPoint) (u : TxOut) : Prop :=
  ∃ tx ∈ chain, txid L tx = o.txid ∧ tx.output[o.vout.toNat]? = some u

/-- These inputs really spend these outputs, one by one. -/
inductive Spends (L : Lib) (chain : List Tx) : List OutPoint → List TxOut → Prop
  | nil : Spends L chain [] []
  | cons {o u os us} : Creates L chain o u → Spends L chain os us → Spends L chain (o :: os) (u :: us)

/-- A transaction with outputs of `out` in total, that really spends the outputs `us`, pays the fee `f`. -/
def Pays (us : List TxOut) (out f : Nat) : Prop := total (us.map TxOut.value) = out + f

/-- Two different transactions, one of each list, have the same id. -/
def SameId (L : Lib) (xs ys : List Tx) : Prop := Collides L.sha256d (xs.map unsignedTxBytes) (ys.map unsignedTxBytes)

/-- The previous transactions that a PSBT v2 carries. -/
def previous {L : Lib} (p : Psbt.V2.Psbt L) : List Tx := p.inputs.filterMap Psbt.V2.Input.nonWitnessUtxo

namespace V0
open Psbt.V0
variable {L : Lib}

/-- The previous transactions that a PSBT carries. -/
def previous (p : Psbt L) : List Tx := p.inputs.filterMap Input.nonWitnessUtxo

/-- Every input carries the transaction it spends from, and a witness UTXO beside it is the output spent. -/
def FullyFunded (p : Psbt L) : Prop :=
  ∀ n t i, HasInput p n t i → ∃ tx, i.nonWitnessUtxo = some tx ∧ ∀ u, i.witnessUtxo = some u → tx.output[t.previousOutput.vout.toNat]? = some u

/-- The PSBT with these outputs as the ones spent. -/
def withUtxos (p : Psbt L) (us : List TxOut) : Psbt L :=
  { p with inputs := List.zipWith (fun i u => { i with witnessUtxo := some u }) p.inputs us }

/-- The script code of BIP-143 for an input that spends `u`. -/
inductive SegwitCode (i : Input L) (u : TxOut) : Bytes → Prop
  | wpkh {h : FixedBytes 20} : u.scriptPubkey = [0x00, 0x14] ++ h.1 → SegwitCode i u ([0x76, 0xa9, 0x14] ++ h.1 ++ [0x88, 0xac])
  | shWpkh {h : FixedBytes 20} : P2sh u.scriptPubkey → i.redeemScript = some ([0x00, 0x14] ++ h.1) →
      SegwitCode i u ([0x76, 0xa9, 0x14] ++ h.1 ++ [0x88, 0xac])
  | wsh {w : Bytes} : P2wsh u.scriptPubkey → i.witnessScript = some w → SegwitCode i u w
  | shWsh {r w : Bytes} : P2sh u.scriptPubkey → i.redeemScript = some r → P2wsh r → i.witnessScript = some w → SegwitCode i u w

/-- Kinds of signatures that depend on amounts: as in BIP-143, and as in BIP-341 for the key path or a leaf. -/
inductive Kind
  | segwit
  | taproot (leaf : Option Hash32)

/-- Index `n` is spent with signatures of this kind, and `m` is the message to sign. -/
inductive SignsAs (p : Psbt L) (n : Nat) : Kind → Hash32 → Prop
  | segwit {t i u o m ty} : HasInput p n t i → FundedBy t i u → SpendType u.scriptPubkey i.redeemScript o → segwitV0 o →
      Signs p n m ty → SignsAs p n .segwit m
  | taproot {leaf m ty} : TapSigns p n leaf m ty → SignsAs p n (.taproot leaf) m

/-- The hash function fails on strings hashed for the messages of index `n` in the two PSBTs: two different ones have the same hash, or
one has the hash zero that BIP-143 uses for what is not signed. -/
def HashBreaks (p q : Psbt L) (n : Nat) : Kind → Prop
  | .segwit => ∃ t i u code ty t' i' u' code' ty', HasInput p n t i ∧ FundedBy t i u ∧ SegwitCode i u code ∧ DeclaredType i ty ∧
      HasInput q n t' i' ∧ FundedBy t' i' u' ∧ SegwitCode i' u' code' ∧ DeclaredType i' ty' ∧
      (Collides L.sha256d (segwitHashed L p.unsignedTx n code u.value ty) (segwitHashed L q.unsignedTx n code' u'.value ty') ∨
       HitsZero L.sha256d (segwitHashed L p.unsignedTx n code u.value ty ++ segwitHashed L q.unsignedTx n code' u'.value ty'))
  | .taproot leaf => ∃ ty ty' xs ys, TapHashed p n leaf ty xs ∧ TapHashed q n leaf ty' ys ∧ Collides L.sha256 xs ys

end V0
end Psbt.Spec
