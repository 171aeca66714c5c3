/- Scripts that take preimages of hashes, or timelocks, in a PSBT v2. -/
import Verif.Spec.Locked
import Verif.Spec.V2Sessions
namespace Psbt.Spec
open Psbt.V2

variable {L : Lib}

/-- The preimages in the input are preimages of the hashes they are given for. (Reading a PSBT makes sure of it, C15.) -/
structure HashesRight (i : Input L) : Prop where
  sha256 : ∀ h b, i.sha256Preimages.get h = some b → L.sha256 b = h
  hash256 : ∀ h b, i.hash256Preimages.get h = some b → L.sha256d b = h
  hash160 : ∀ h b, i.hash160Preimages.get h = some b → L.hash160 b = h
  ripemd160 : ∀ h b, i.ripemd160Preimages.get h = some b → L.ripemd160 b = h

variable (S : SigLib L)

/-- The signers have the keys, the input has the preimages, of 32 bytes as miniscript demands, and no timelocks are demanded. -/
structure HashesMet (ks : List (Provider S)) (i : Input L) (x : Demands L.pubkey.T) : Prop where
  keys : ∀ pk ∈ x.keys, SomeSigner S ks i pk
  sha256 : ∀ h ∈ x.sha256, ∃ b, i.sha256Preimages.get h = some b ∧ b.length = 32
  hash256 : ∀ h ∈ x.hash256, ∃ b, i.hash256Preimages.get h = some b ∧ b.length = 32
  hash160 : ∀ h ∈ x.hash160, ∃ b, i.hash160Preimages.get h = some b ∧ b.length = 32
  ripemd160 : ∀ h ∈ x.ripemd160, ∃ b, i.ripemd160Preimages.get h = some b ∧ b.length = 32
  after : x.after = []
  older : x.older = []

/-- How the input is spent with a script that takes preimages. -/
inductive HashSpend (enough : MsCtx → Bytes → Demands L.pubkey.T → Prop) (ks : List (Provider S)) (i : Input L) (spk : Bytes) : Prop
  | wsh {w x} : CommitsWsh L spk w → i.redeemScript = none → i.witnessScript = some w → enough .segwitv0 w x →
      HashesMet S ks i x → HashSpend enough ks i spk
  | shWsh {r w x} : CommitsSh L spk r → i.redeemScript = some r → CommitsWsh L r w → i.witnessScript = some w →
      enough .segwitv0 w x → HashesMet S ks i x → HashSpend enough ks i spk

/-- The input states no sequence number and requires no lock time. -/
def NoLocks (i : Input L) : Prop := i.sequence = none ∧ i.minTime = none ∧ i.minHeight = none

/-- The signers can spend the input at `n`, as in C124 or by a script that takes preimages. -/
inductive CanSpendHashes (enough : MsCtx → Bytes → Demands L.pubkey.T → Prop) (enough₂ : MsCtx → Bytes → List L.pubkey.T → Prop)
    (ks : List (Provider S)) (p : Psbt L) (n : Nat) : Prop
  | known : CanSpend S enough₂ ks p n → CanSpendHashes enough enough₂ ks p n
  | hashes {i u ty} : HasInput p n i → i.witnessUtxo = some u → i.partialSigs = .empty → DeclaredType i ty → NoLocks i →
      HashesRight i → HashSpend S enough ks i u.scriptPubkey → CanSpendHashes enough enough₂ ks p n

/-- Every way to spend outputs with this script takes a timelock: where the interpreter accepts, the lock time is not 0, or the
sequence number is one of a relative lock. -/
def Timelocked (M : MsLib L) (spk : Bytes) : Prop :=
  ∀ a, a.spk = spk → M.interp a = none → 0 < a.cltv.toNat ∨ a.csv.toNat < 2 ^ 31

end Psbt.Spec
