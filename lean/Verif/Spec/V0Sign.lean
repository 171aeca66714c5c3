/- What signing a PSBT v0 should do. -/
import Verif.Model.V0.Sign
import Verif.Spec.V0Fee
import Verif.Spec.Sign
namespace Psbt.Spec.V0
open Psbt.V0 Psbt.Spec

variable {L : Lib}

/-- Index `n` has an input `t` in the unsigned transaction and an input map `i`. -/
def HasInput (p : Psbt L) (n : Nat) (t : TxIn) (i : Input L) : Prop :=
  p.unsignedTx.input[n]? = some t ∧ p.inputs[n]? = some i

/-- The input without its signatures. -/
def eraseInput (i : Input L) : Input L := { i with partialSigs := .empty, tapKeySig := none, tapScriptSigs := .empty }

/-- The PSBT without its signatures. -/
def erase (p : Psbt L) : Psbt L := { p with inputs := p.inputs.map eraseInput }

/-- The sighash type an ECDSA signature of the input has to use: the one the input declares, ALL if it declares none. -/
def DeclaredType (i : Input L) (ty : EcdsaTy) : Prop :=
  (i.sighashType = none ∧ ty.1 = 0x01) ∨ i.sighashType = some ty.1.toUInt32

/-- The sighash type a taproot signature of the input has to use: the one the input declares, DEFAULT if it declares none. -/
def DeclaredTapType (i : Input L) (ty : TapTy) : Prop :=
  (i.sighashType = none ∧ ty.1 = 0x00) ∨ i.sighashType = some ty.1.toUInt32

/-- `m` is the message to sign with ECDSA for input `i` at index `n` of `tx`, spending the output `u`, with sighash type
`ty`: which algorithm, which script code and which amount depend on the type of spend as in BIP-143 and BIP-174. -/
inductive Message (tx : Tx) (n : Nat) (i : Input L) (u : TxOut) (ty : EcdsaTy) (m : Hash32) : Prop
  | bare : SpendType u.scriptPubkey i.redeemScript .bare →
      legacySighash L tx n u.scriptPubkey ty = some m → Message tx n i u ty m
  | sh {r : Bytes} : SpendType u.scriptPubkey i.redeemScript .sh → i.redeemScript = some r →
      legacySighash L tx n r ty = some m → Message tx n i u ty m
  | wpkh {h : FixedBytes 20} : u.scriptPubkey = [0x00, 0x14] ++ h.1 →
      segwitSighash L tx n ([0x76, 0xa9, 0x14] ++ h.1 ++ [0x88, 0xac]) u.value ty = some m → Message tx n i u ty m
  | shWpkh {h : FixedBytes 20} : P2sh u.scriptPubkey → i.redeemScript = some ([0x00, 0x14] ++ h.1) →
      segwitSighash L tx n ([0x76, 0xa9, 0x14] ++ h.1 ++ [0x88, 0xac]) u.value ty = some m → Message tx n i u ty m
  | wsh {w : Bytes} : P2wsh u.scriptPubkey → i.witnessScript = some w →
      segwitSighash L tx n w u.value ty = some m → Message tx n i u ty m
  | shWsh {r w : Bytes} : P2sh u.scriptPubkey → i.redeemScript = some r → P2wsh r → i.witnessScript = some w →
      segwitSighash L tx n w u.value ty = some m → Message tx n i u ty m

/-- Index `n` of the PSBT has the message `m` to sign with ECDSA, with sighash type `ty`. -/
def Signs (p : Psbt L) (n : Nat) (m : Hash32) (ty : EcdsaTy) : Prop :=
  ∃ t i u, HasInput p n t i ∧ FundedBy t i u ∧ DeclaredType i ty ∧ Message p.unsignedTx n i u ty m

/-- Index `n` of the PSBT has the message `m` to sign for taproot, with sighash type `ty`: for the key path, or the given
leaf. With ANYONECANPAY the output spent has to be known, otherwise those of all inputs. -/
def TapSigns (p : Psbt L) (n : Nat) (leaf : Option Hash32) (m : Hash32) (ty : TapTy) : Prop :=
  ∃ t i u, HasInput p n t i ∧ FundedBy t i u ∧ P2tr u.scriptPubkey ∧ DeclaredTapType i ty ∧
    (((ty.1 = 0x81 ∨ ty.1 = 0x82 ∨ ty.1 = 0x83) ∧ tapSighash L p.unsignedTx n (.one n u) leaf ty = .ok m) ∨
     ((ty.1 = 0x00 ∨ ty.1 = 0x01 ∨ ty.1 = 0x02 ∨ ty.1 = 0x03) ∧
      ∃ us, Funding p.unsignedTx.input p.inputs us ∧ tapSighash L p.unsignedTx n (.all us) leaf ty = .ok m))

/-- Index `n` is spent in a known way: with ECDSA signatures, with taproot signatures. -/
def SpendsEcdsa (p : Psbt L) (n : Nat) : Prop :=
  ∃ t i u ty, HasInput p n t i ∧ FundedBy t i u ∧ SpendType u.scriptPubkey i.redeemScript ty ∧ ty ≠ .tr
def SpendsTaproot (p : Psbt L) (n : Nat) : Prop :=
  ∃ t i u, HasInput p n t i ∧ FundedBy t i u ∧ P2tr u.scriptPubkey

/-- Does a taproot sighash type commit to the other inputs, to all outputs, to the output of the same index? (BIP-341) -/
def tapCommitsInputs (ty : TapTy) : Prop := ty.1 = 0x00 ∨ ty.1 = 0x01 ∨ ty.1 = 0x02 ∨ ty.1 = 0x03
def tapCommitsOutputs (ty : TapTy) : Prop := ty.1 = 0x00 ∨ ty.1 = 0x01 ∨ ty.1 = 0x81
def tapCommitsOutput (ty : TapTy) : Prop := ty.1 = 0x03 ∨ ty.1 = 0x83

/-- The strings hashed on the way to the taproot message of index `n`. -/
def TapHashed (p : Psbt L) (n : Nat) (leaf : Option Hash32) (ty : TapTy) (xs : List Bytes) : Prop :=
  ((ty.1 = 0x81 ∨ ty.1 = 0x82 ∨ ty.1 = 0x83) ∧ ∃ t i u, HasInput p n t i ∧ FundedBy t i u ∧
    xs = tapHashed L p.unsignedTx [] n u leaf ty) ∨
  ((ty.1 = 0x00 ∨ ty.1 = 0x01 ∨ ty.1 = 0x02 ∨ ty.1 = 0x03) ∧ ∃ t i u us, HasInput p n t i ∧ FundedBy t i u ∧
    Funding p.unsignedTx.input p.inputs us ∧ xs = tapHashed L p.unsignedTx us n u leaf ty)

/-- Scripts of the outputs spent are shorter than 2^64 bytes. -/
def SmallUtxos (p : Psbt L) : Prop := ∀ n t i u, HasInput p n t i → FundedBy t i u → u.scriptPubkey.length < 2 ^ 64

variable (S : SigLib L)

/-- The keys a provider has for the input, in the order of the input's key origins: by origin, else by public key. -/
def keysFor (k : Provider S) (i : Input L) : List S.SK :=
  i.bip32Derivation.l.filterMap fun d => (answer (k (.bip32 d.2))).or (answer (k (.pubkey (S.ofSecp d.1))))

/-- The key to sign the key path with: the provider's key for the origin of the internal key, if that is listed without
leaf hashes and there is no signature yet. -/
def keyPathKey (k : Provider S) (i : Input L) : Option S.SK :=
  match i.tapKeySig, i.tapInternalKey with
  | none, some x =>
    match i.tapKeyOrigins.get x with
    | some ([], ks) => answer (k (.bip32 ks))
    | _ => none
  | _, _ => none

/-- The key to sign the leaf `lh` with for the public key `x`: the provider's key for its origin, if that lists the leaf and
there is no signature yet. -/
def leafKey (k : Provider S) (i : Input L) (x : L.xonly.T) (lh : Hash32) : Option S.SK :=
  match i.tapScriptSigs.get (x, lh), i.tapKeyOrigins.get x with
  | none, some (lhs, ks) => if lh ∈ lhs then answer (k (.bip32 ks)) else none
  | _, _ => none

/-- A message a taproot input has to be signed on, the provider having the key: none for the key path. -/
def Needs (k : Provider S) (i : Input L) (leaf : Option Hash32) : Prop :=
  (leaf = none ∧ (keyPathKey S k i).isSome) ∨ ∃ x lh, leaf = some lh ∧ (leafKey S k i x lh).isSome

/-- The signatures of `j` are those of `i` and one more for the key path, and for each leaf and public key, if they are
missing and the provider has the key. -/
def TapSigned (p : Psbt L) (n : Nat) (k : Provider S) (i j : Input L) : Prop :=
  (match keyPathKey S k i with
    | none => j.tapKeySig = i.tapKeySig
    | some sk => ∃ m ty, TapSigns p n none m ty ∧
        j.tapKeySig = some ⟨S.signSchnorr m (S.tapTweak (S.keypair sk) i.tapMerkleRoot), ty⟩) ∧
  (∀ x lh, match leafKey S k i x lh with
    | none => j.tapScriptSigs.get (x, lh) = i.tapScriptSigs.get (x, lh)
    | some sk => ∃ m ty, TapSigns p n (some lh) m ty ∧
        j.tapScriptSigs.get (x, lh) = some ⟨S.signSchnorr m (S.keypair sk), ty⟩) ∧
  j = { i with tapKeySig := j.tapKeySig, tapScriptSigs := j.tapScriptSigs }

/-- The keys reported for a taproot input: for each key origin the provider has the key of, the internal key if it signs
the key path, the provider's public key if it signs some leaf. -/
def tapKeysUsed (k : Provider S) (i : Input L) : List L.xonly.T :=
  i.tapKeyOrigins.l.flatMap fun (x, lhs, ks) =>
    match answer (k (.bip32 ks)) with
    | none => []
    | some sk =>
      (if (keyPathKey S k i).isSome ∧ i.tapInternalKey = some x then [x] else []) ++
      (if lhs.any fun lh => (leafKey S k i x lh).isSome then [S.xonly (S.pub sk)] else [])

/-- What signing reported: keys and errors, by input index. -/
def keysReported {α β : Type} (r : Except (BMap Nat α × BMap Nat β) (BMap Nat α)) : BMap Nat α :=
  match r with | .ok u => u | .error (u, _) => u
def errorsReported {α β : Type} (r : Except (BMap Nat α × BMap Nat β) (BMap Nat α)) : BMap Nat β :=
  match r with | .ok _ => .empty | .error (_, e) => e

end Psbt.Spec.V0
