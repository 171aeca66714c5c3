/- What signing a PSBT v2 should do. -/
import Verif.Model.V2.Sign
import Verif.Spec.Script
import Verif.Spec.Fee
import Verif.Spec.Hash
namespace Psbt.Spec
open Psbt.V2

variable {L : Lib}

/-- The sighash type an ECDSA signature of the input has to use: the one the input declares, ALL if it declares none. -/
def DeclaredType (i : Input L) (ty : EcdsaTy) : Prop :=
  (i.sighashType = none ∧ ty.1 = 0x01) ∨ i.sighashType = some ty.1.toUInt32

/-- `m` is the message to sign for input `i` at index `n` of `tx`, spending the output `u`, with sighash type `ty`: which
algorithm, which script code and which amount depend on the type of spend as in BIP-143 and BIP-174. -/
inductive Message (tx : Tx) (n : Nat) (i : Input L) (u : TxOut) (ty : EcdsaTy) (m : Hash32) : Prop
  | bare : SpendType u.scriptPubkey i.redeemScript .bare →
      legacySighash L tx n u.scriptPubkey ty = some m → Message tx n i u ty m
  | sh {r : Bytes} : SpendType u.scriptPubkey i.redeemScript .sh → i.redeemScript = some r →
      legacySighash L tx n r ty = some m → Message tx n i u ty m
  | wpkh {h : FixedBytes 20} : u.scriptPubkey = [0x00, 0x14] ++ h.1 →
      segwitSighash L tx n ([0x76, 0xa9, 0x14] ++ h.1 ++ [0x88, 0xac]) u.value ty = some m → Message tx n i u ty m
  | shWpkh {h : FixedBytes 20} : P2sh u.scriptPubkey → i.redeemScript = some ([0x00, 0x14] ++ h.1) →
      segwitSighash L tx n ([0x76, 0xa9, 0x14] ++ h.1 ++ [0x88, 0xac]) u.value ty = some m → Message tx n i u ty m
  | wsh {w : Bytes} : P2wsh u.scriptPubkey → i.witnessScript = some w →
      segwitSighash L tx n w u.value ty = some m → Message tx n i u ty m
  | shWsh {r w : Bytes} : P2sh u.scriptPubkey → i.redeemScript = some r → P2wsh r → i.witnessScript = some w →
      segwitSighash L tx n w u.value ty = some m → Message tx n i u ty m

/-- The input with this index exists, in the list of inputs and by the declared count. -/
def HasInput (p : Psbt L) (n : Nat) (i : Input L) : Prop := p.inputs[n]? = some i ∧ n < p.global.inputCount.toNat

/-- Does a sighash type commit to the other inputs, to all outputs, to the output of the same index? (BIP-143) -/
def commitsInputs (ty : EcdsaTy) : Prop := ty.1 = 0x01 ∨ ty.1 = 0x02 ∨ ty.1 = 0x03
def commitsSequences (ty : EcdsaTy) : Prop := ty.1 = 0x01
def commitsOutputs (ty : EcdsaTy) : Prop := ty.1 = 0x01 ∨ ty.1 = 0x81
def commitsOutput (ty : EcdsaTy) : Prop := ty.1 = 0x03 ∨ ty.1 = 0x83

/-- The PSBT without its partial signatures and modifiable flags. -/
def erase (p : Psbt L) : Psbt L :=
  { p with
    global := { p.global with txModifiableFlags := 0 }
    inputs := p.inputs.map fun i => { i with partialSigs := .empty } }

/-- The input is one that ECDSA signing applies to: it exists, is funded, and is spent in a known way other than taproot. -/
def Signable (p : Psbt L) (n : Nat) (i : Input L) : Prop :=
  Spec.HasInput p n i ∧ ∃ u t, Spec.FundedBy i u ∧ Spec.SpendType u.scriptPubkey i.redeemScript t ∧ t ≠ .tr

/-- Input `i` at index `n` of the PSBT has the message `m` to sign, with sighash type `ty`. -/
def Signs (tx : Tx) (p : Psbt L) (n : Nat) (i : Input L) (m : Hash32) (ty : EcdsaTy) : Prop :=
  HasInput p n i ∧ ∃ u, FundedBy i u ∧ DeclaredType i ty ∧ Message tx n i u ty m

/-- The key a provider returned, if any. -/
def answer {α : Type} : Except GetKeyErr (Option α) → Option α
  | .ok (some a) => some a
  | _ => none

/-- The keys a provider has for the input, in the order of the input's key origins: by origin, else by public key. -/
def keysFor (S : SigLib L) (k : Provider S) (i : Input L) : List S.SK :=
  i.bip32Derivations.l.filterMap fun d => (answer (k (.bip32 d.2))).or (answer (k (.pubkey (S.ofSecp d.1))))

/-- Signatures with these keys on `m`, stored under the keys' public keys, replacing older signatures of the same keys. -/
def addSigs (S : SigLib L) (m : Hash32) (ty : EcdsaTy) : List S.SK → BMap L.pubkey.T (EcdsaSig L) → BMap L.pubkey.T (EcdsaSig L)
  | [], sigs => sigs
  | sk :: sks, sigs => addSigs S m ty sks (sigs.insert (S.pub sk) ⟨S.signEcdsa m sk, ty⟩)

end Psbt.Spec
