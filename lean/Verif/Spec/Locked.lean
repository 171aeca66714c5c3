/-
Scripts that take more than signatures: preimages of hashes, and timelocks. What it takes of a PSBT v0 and its signers to spend
them, and what is expected of rust-miniscript.
-/
import Verif.Spec.ScriptPath
namespace Psbt.Spec
open Psbt

variable {L : Lib}

/-- What one way to spend a script takes: signatures of these keys, preimages of these hashes, and these timelocks met. -/
structure Demands (K : Type) where
  keys : List K
  sha256 : List (FixedBytes 32)
  hash256 : List (FixedBytes 32)
  hash160 : List (FixedBytes 20)
  ripemd160 : List (FixedBytes 20)
  after : List AbsLock
  older : List RelLock

/-- The answers include all of it; `has` tells of which keys there are signatures. -/
structure Sufficient {K : Type} (sat : Satisfier L) (has : K → Prop) (x : Demands K) : Prop where
  keys : ∀ pk ∈ x.keys, has pk
  sha256 : ∀ h ∈ x.sha256, sat.sha256 h ≠ none
  hash256 : ∀ h ∈ x.hash256, sat.hash256 h ≠ none
  hash160 : ∀ h ∈ x.hash160, sat.hash160 h ≠ none
  ripemd160 : ∀ h ∈ x.ripemd160, sat.ripemd160 h ≠ none
  after : ∀ l ∈ x.after, sat.after l = true
  older : ∀ l ∈ x.older, sat.older l = true

/-- Preimages are preimages, and locks said to be met are met, in an input with sequence number `csv` of a transaction of this
version with lock time `cltv`. -/
structure Truthful (sat : Satisfier L) (version csv cltv : UInt32) : Prop where
  sha256 : ∀ h b, sat.sha256 h = some b → L.sha256 b.1 = h
  hash256 : ∀ h b, sat.hash256 h = some b → L.sha256d b.1 = h
  hash160 : ∀ h b, sat.hash160 h = some b → L.hash160 b.1 = h
  ripemd160 : ∀ h b, sat.ripemd160 h = some b → L.ripemd160 b.1 = h
  after : ∀ l, sat.after l = true → CltvPasses (absOperand l) cltv csv
  older : ∀ l, sat.older l = true → CsvPasses (relOperand l) version csv

/-- The signatures are made with the secret keys of their public keys, over `m`, with this sighash type. -/
def ValidSigs (S : SigLib L) (sat : Satisfier L) (m : Hash32) (ty : EcdsaTy) : Prop :=
  ∀ pk sig, sat.ecdsaSig pk = some sig → ∃ sk, S.pub sk = pk ∧ sig = ⟨S.signEcdsa m sk, ty⟩

/-- What is expected of rust-miniscript for scripts whose keys are written out. `enough ctx s x`: `s` is such a script of the
context, and `x` suffices to spend it. Then it is a miniscript that descriptors can be made of, right answers that include
what suffices satisfy it, and the interpreter accepts what comes out. -/
structure LockLaws (S : SigLib L) (M : MsLib L) (enough : MsCtx → Bytes → Demands L.pubkey.T → Prop) : Prop where
  segwit : ∀ w x, enough .segwitv0 w x → ∃ ms, M.parse .segwitv0 w = some ms ∧
    ∀ map, M.accepts (.wsh (M.substitute map ms)) = true ∧ M.accepts (.shWsh (M.substitute map ms)) = true
  legacy : ∀ r x, enough .legacy r x → ∃ ms, M.parse .legacy r = some ms ∧ M.accepts (.sh ms) = true
  wsh : ∀ mall w x ms map sat u m ty csv cltv tx n us, enough .segwitv0 w x → M.parse .segwitv0 w = some ms →
    CommitsWsh L u.scriptPubkey w → us.length = tx.input.length → us[n]? = some u →
    segwitSighash L tx n w u.value ty = some m → Sufficient sat (fun pk => sat.ecdsaSig pk ≠ none) x →
    ValidSigs S sat m ty → Truthful sat tx.version csv cltv →
    ∃ wit, M.satisfy mall (.wsh (M.substitute map ms)) sat = some (wit, []) ∧ wit ≠ [] ∧
      M.interp ⟨u.scriptPubkey, [], wit, csv, cltv, tx, n, us⟩ = none
  shWsh : ∀ mall w x ms map sat u r m ty csv cltv tx n us, enough .segwitv0 w x → M.parse .segwitv0 w = some ms →
    CommitsSh L u.scriptPubkey r → CommitsWsh L r w → us.length = tx.input.length → us[n]? = some u →
    segwitSighash L tx n w u.value ty = some m → Sufficient sat (fun pk => sat.ecdsaSig pk ≠ none) x →
    ValidSigs S sat m ty → Truthful sat tx.version csv cltv →
    ∃ wit, M.satisfy mall (.shWsh (M.substitute map ms)) sat = some (wit, push r) ∧ wit ≠ [] ∧
      M.interp ⟨u.scriptPubkey, push r, wit, csv, cltv, tx, n, us⟩ = none
  sh : ∀ mall r x ms sat u m ty csv cltv tx n us, enough .legacy r x → M.parse .legacy r = some ms →
    CommitsSh L u.scriptPubkey r → us.length = tx.input.length → us[n]? = some u →
    legacySighash L tx n r ty = some m → Sufficient sat (fun pk => sat.ecdsaSig pk ≠ none) x →
    ValidSigs S sat m ty → Truthful sat tx.version csv cltv →
    ∃ sig, M.satisfy mall (.sh ms) sat = some ([], sig) ∧ sig ≠ [] ∧
      M.interp ⟨u.scriptPubkey, sig, [], csv, cltv, tx, n, us⟩ = none

/-- What is expected of rust-miniscript for leaf scripts whose keys are written out, as `LeafLaws` for those that need nothing but
signatures. -/
structure LeafLockLaws (S : SigLib L) (M : MsLib L) (enough : Bytes → Demands L.xonly.T → Prop)
    (proves : Bytes → Bytes → Bytes → LeafVersion → Prop) : Prop where
  parse : ∀ s x, enough s x → ∃ ms, M.tapParse s = some ms ∧ ∀ map, M.tapEncode (M.tapSubstitute map ms) = s
  satisfy : ∀ mall s x ms map sat, enough s x → M.tapParse s = some ms →
    Sufficient sat (fun k => sat.tapLeafScriptSig k (V0.leafHash L s) ≠ none) x → M.tapSatisfy mall (M.tapSubstitute map ms) sat ≠ none
  run : ∀ mall s x ms map sat stack cb u m ty csv cltv tx n us q, enough s x → M.tapParse s = some ms →
    M.tapSatisfy mall (M.tapSubstitute map ms) sat = some stack → proves u.scriptPubkey cb s ⟨0xc0, by decide⟩ →
    us.length = tx.input.length → us[n]? = some u → (q = .all us ∨ q = .one n u) →
    tapSighash L tx n q (some (V0.leafHash L s)) ty = .ok m → GoodLeafSigs S sat (V0.leafHash L s) m ty →
    Truthful sat tx.version csv cltv → M.interp ⟨u.scriptPubkey, [], stack ++ [s, cb], csv, cltv, tx, n, us⟩ = none

namespace V0
open Psbt.V0

variable (S : SigLib L)

/-- The preimages in the input are preimages of the hashes they are given for. (Reading a PSBT makes sure of it, C15.) -/
structure RightPreimages (i : Input L) : Prop where
  sha256 : ∀ h b, i.sha256Preimages.get h = some b → L.sha256 b = h
  hash256 : ∀ h b, i.hash256Preimages.get h = some b → L.sha256d b = h
  hash160 : ∀ h b, i.hash160Preimages.get h = some b → L.hash160 b = h
  ripemd160 : ∀ h b, i.ripemd160Preimages.get h = some b → L.ripemd160 b = h

/-- There are signers for the keys, the input has the preimages, of 32 bytes as miniscript demands, and the timelocks are met in
input `t` of `tx`. `has` tells for which keys there are signers. -/
structure Meets {K : Type} (has : K → Prop) (tx : Tx) (t : TxIn) (i : Input L) (x : Demands K) : Prop where
  keys : ∀ pk ∈ x.keys, has pk
  sha256 : ∀ h ∈ x.sha256, ∃ b, i.sha256Preimages.get h = some b ∧ b.length = 32
  hash256 : ∀ h ∈ x.hash256, ∃ b, i.hash256Preimages.get h = some b ∧ b.length = 32
  hash160 : ∀ h ∈ x.hash160, ∃ b, i.hash160Preimages.get h = some b ∧ b.length = 32
  ripemd160 : ∀ h ∈ x.ripemd160, ∃ b, i.ripemd160Preimages.get h = some b ∧ b.length = 32
  after : ∀ l ∈ x.after, CltvPasses (absOperand l) tx.lockTime t.sequence
  older : ∀ l ∈ x.older, CsvPasses (relOperand l) tx.version t.sequence ∧ tx.version.toNat < 2 ^ 31

variable (enough : MsCtx → Bytes → Demands L.pubkey.T → Prop)

/-- How the input is spent with a script that takes more than signatures. -/
inductive LockedSpend (ks : List (Provider S)) (tx : Tx) (t : TxIn) (i : Input L) (spk : Bytes) : Prop
  | wsh {w x} : CommitsWsh L spk w → i.redeemScript = none → i.witnessScript = some w → enough .segwitv0 w x →
      Meets (Someone S ks i) tx t i x → LockedSpend ks tx t i spk
  | shWsh {r w x} : CommitsSh L spk r → i.redeemScript = some r → CommitsWsh L r w → i.witnessScript = some w →
      enough .segwitv0 w x → Meets (Someone S ks i) tx t i x → LockedSpend ks tx t i spk
  | sh {r x} : CommitsSh L spk r → i.redeemScript = some r → ¬ P2wpkh r → ¬ P2wsh r → i.witnessScript = none →
      enough .legacy r x → Meets (Someone S ks i) tx t i x → LockedSpend ks tx t i spk

variable (out : S.Keypair → FixedBytes 32) (enough' : Bytes → Demands L.xonly.T → Prop) (proves : Bytes → Bytes → Bytes → LeafVersion → Prop)

/-- The signers can spend the taproot input at `n`, which has no signatures yet, by a script that may take preimages and timelocks: as
`LeafSpend` (C114), with the preimages in the input and the timelocks met. -/
structure LockedLeaf (ks : List (Provider S)) (p : Psbt L) (n : Nat) (t : TxIn) (i : Input L) (u : TxOut) : Prop where
  input : HasInput p n t i
  funded : FundedBy t i u
  unsigned : i.tapKeySig = none ∧ i.tapScriptSigs = .empty
  message : ∃ m ty, TapSigns p n none m ty
  right : RightPreimages i
  scripts : ∀ cb s, i.tapScripts.get cb = some (s, ⟨0xc0, by decide⟩) →
    proves u.scriptPubkey cb.bytes s ⟨0xc0, by decide⟩ ∧ ∃ x, enough' s x
  one : ∃ (cb : L.ctrl.T) (s : Bytes) (x : Demands L.xonly.T), i.tapScripts.get cb = some (s, ⟨0xc0, by decide⟩) ∧ enough' s x ∧
    Meets (fun k => LeafSigner S ks i k (leafHash L s)) p.unsignedTx t i x
  leafKeys : ∀ k ∈ ks, ∀ x lh sk, leafKey S k i x lh = some sk → S.xonly (S.pub sk) = x
  pathKeys : ∀ k ∈ ks, ∀ sk, keyPathKey S k i = some sk →
    u.scriptPubkey = [0x51, 0x20] ++ (out (S.tapTweak (S.keypair sk) i.tapMerkleRoot)).1

/-- The signers can spend the input at `n`, with what is in the input: as in C114, or by a script with hashes or timelocks. -/
inductive CanSpendLocked (enough₁ : Bytes → List L.xonly.T → Prop) (enough₂ : MsCtx → Bytes → List L.pubkey.T → Prop)
    (ks : List (Provider S)) (p : Psbt L) (n : Nat) : Prop
  | known : CanSpendAny S out enough₁ proves enough₂ ks p n → CanSpendLocked enough₁ enough₂ ks p n
  | locked {t i u ty} : HasInput p n t i → FundedBy t i u → i.partialSigs = .empty → DeclaredType i ty → RightPreimages i →
      LockedSpend S enough ks p.unsignedTx t i u.scriptPubkey → CanSpendLocked enough₁ enough₂ ks p n
  | leaf {t i u} : LockedLeaf S out enough' proves ks p n t i u → CanSpendLocked enough₁ enough₂ ks p n

end V0
end Psbt.Spec
