/-
What the finalizers have to decide, stated on scripts, keys and PSBT fields: which descriptor spends an output, which
witness spends a taproot output, and when a timelock is met (BIP-65, BIP-112).
-/
import Verif.Spec.Encoding
import Verif.Spec.Script
import Verif.Model.Miniscript
namespace Psbt.Spec

variable {L : Lib} (M : MsLib L)

/-- The script pushes a key of 33 or 65 bytes and checks a signature. -/
def P2pk (k s : Bytes) : Prop := k.length = 33 ∧ s = [0x21] ++ k ++ [0xac] ∨ k.length = 65 ∧ s = [0x41] ++ k ++ [0xac]

/-- `s` commits to the key by its hash (legacy form). -/
def CommitsPkh (s : Bytes) (pk : L.pubkey.T) : Prop := s = [0x76, 0xa9, 0x14] ++ (L.hash160 pk.bytes).1 ++ [0x88, 0xac]
/-- `s` commits to the compressed key by its hash (segwit form). -/
def CommitsWpkh (s : Bytes) (pk : L.pubkey.T) : Prop := pk.bytes.length = 33 ∧ s = [0x00, 0x14] ++ (L.hash160 pk.bytes).1
/-- `s` commits to the script `r` by its hash (P2SH). -/
def CommitsSh (L : Lib) (s r : Bytes) : Prop := s = [0xa9, 0x14] ++ (L.hash160 r).1 ++ [0x87]
/-- `s` commits to the script `w` by its hash (P2WSH). -/
def CommitsWsh (L : Lib) (s w : Bytes) : Prop := s = [0x00, 0x20] ++ (L.sha256 w).1

/-- The first key with a property among signatures in order. -/
def FirstKey {S : Type} (sigs : List (L.pubkey.T × S)) (P : L.pubkey.T → Prop) (pk : L.pubkey.T) : Prop :=
  ∃ l s l', sigs = l ++ (pk, s) :: l' ∧ P pk ∧ ∀ x ∈ l, ¬ P x.1
/-- No key has the property. -/
def NoKey {S : Type} (sigs : List (L.pubkey.T × S)) (P : L.pubkey.T → Prop) : Prop := ∀ x ∈ sigs, ¬ P x.1

/-- The descriptor is made, unless rust-miniscript refuses to. -/
inductive Made (d : Desc L M.Ms) : Except (MsInputErr L) (Desc L M.Ms) → Prop
  | ok : M.accepts d = true → Made d (.ok d)
  | refused : M.accepts d = false → Made d (.error .miniscript)

/-- The script is one of the miniscripts of the context, and a descriptor is made from it; or it is not. -/
inductive Parsed (ctx : MsCtx) (s : Bytes) (mk : M.Ms → Desc L M.Ms) : Except (MsInputErr L) (Desc L M.Ms) → Prop
  | ok {ms r} : M.parse ctx s = some ms → Made M (mk ms) r → Parsed ctx s mk r
  | fails : M.parse ctx s = none → Parsed ctx s mk (.error .miniscript)

/-- What spends an output with script `spk`, given the redeem script, the witness script and the partial signatures of the
input; or what is wrong with them. `map` gives keys for key hashes inside scripts. -/
inductive Descr (map : BMap (FixedBytes 20) L.pubkey.T) (sigs : List (L.pubkey.T × EcdsaSig L)) (spk : Bytes)
    (redeem witness : Option Bytes) : Except (MsInputErr L) (Desc L M.Ms) → Prop
  /- 1. a key -/
  | pk {k pk} : P2pk k spk → L.pubkey.parse k = some pk → Descr map sigs spk redeem witness (.ok (.pk pk))
  | pkInvalid {k} : P2pk k spk → L.pubkey.parse k = none → Descr map sigs spk redeem witness (.error .keyErr)
  /- 2. a key hash -/
  | pkh {pk r} : P2pkh spk → FirstKey sigs (CommitsPkh spk) pk → Made M (.pkh pk) r → Descr map sigs spk redeem witness r
  | pkhMissing : P2pkh spk → NoKey sigs (CommitsPkh spk) → Descr map sigs spk redeem witness (.error .missingPubkey)
  /- 3. a key hash, segwit -/
  | wpkh {pk r} : P2wpkh spk → FirstKey sigs (CommitsWpkh spk) pk → Made M (.wpkh pk) r → Descr map sigs spk redeem witness r
  | wpkhMissing : P2wpkh spk → NoKey sigs (CommitsWpkh spk) → Descr map sigs spk redeem witness (.error .missingPubkey)
  /- 4. a script hash, segwit -/
  | wshRedeem : P2wsh spk → redeem ≠ none → Descr map sigs spk redeem witness (.error .nonEmptyRedeemScript)
  | wshMissing : P2wsh spk → redeem = none → witness = none → Descr map sigs spk redeem witness (.error .missingWitnessScript)
  | wshInvalid {w} : P2wsh spk → redeem = none → witness = some w → ¬ CommitsWsh L spk w →
      Descr map sigs spk redeem witness (.error (.invalidWitnessScript w spk))
  | wsh {w r} : redeem = none → witness = some w → CommitsWsh L spk w →
      Parsed M .segwitv0 w (fun ms => .wsh (M.substitute map ms)) r → Descr map sigs spk redeem witness r
  /- a script hash -/
  | shMissing : P2sh spk → redeem = none → Descr map sigs spk redeem witness (.error .missingRedeemScript)
  | shInvalid {s} : P2sh spk → redeem = some s → ¬ CommitsSh L spk s →
      Descr map sigs spk redeem witness (.error (.invalidRedeemScript s spk))
  /- 5. a segwit script hash inside -/
  | shWshMissing {s} : redeem = some s → CommitsSh L spk s → P2wsh s → witness = none →
      Descr map sigs spk redeem witness (.error .missingWitnessScript)
  | shWshInvalid {s w} : redeem = some s → CommitsSh L spk s → P2wsh s → witness = some w → ¬ CommitsWsh L s w →
      Descr map sigs spk redeem witness (.error (.invalidWitnessScript w s))
  | shWsh {s w r} : redeem = some s → CommitsSh L spk s → witness = some w → CommitsWsh L s w →
      Parsed M .segwitv0 w (fun ms => .shWsh (M.substitute map ms)) r → Descr map sigs spk redeem witness r
  /- 6. a segwit key hash inside -/
  | shWpkh {s pk r} : redeem = some s → CommitsSh L spk s → P2wpkh s → FirstKey sigs (CommitsWpkh s) pk →
      Made M (.shWpkh pk) r → Descr map sigs spk redeem witness r
  | shWpkhMissing {s} : redeem = some s → CommitsSh L spk s → P2wpkh s → NoKey sigs (CommitsWpkh s) →
      Descr map sigs spk redeem witness (.error .missingPubkey)
  /- 7. any other script inside -/
  | shWitness {s} : redeem = some s → CommitsSh L spk s → ¬ P2wsh s → ¬ P2wpkh s → witness ≠ none →
      Descr map sigs spk redeem witness (.error .nonEmptyWitnessScript)
  | sh {s r} : redeem = some s → CommitsSh L spk s → ¬ P2wsh s → ¬ P2wpkh s → witness = none →
      Parsed M .legacy s .sh r → Descr map sigs spk redeem witness r
  /- 8. any other output -/
  | bareWitness : (∀ k, ¬ P2pk k spk) → ¬ P2pkh spk → ¬ P2wpkh spk → ¬ P2wsh spk → ¬ P2sh spk → witness ≠ none →
      Descr map sigs spk redeem witness (.error .nonEmptyWitnessScript)
  | bareRedeem : (∀ k, ¬ P2pk k spk) → ¬ P2pkh spk → ¬ P2wpkh spk → ¬ P2wsh spk → ¬ P2sh spk → witness = none → redeem ≠ none →
      Descr map sigs spk redeem witness (.error .nonEmptyRedeemScript)
  | bare {r} : (∀ k, ¬ P2pk k spk) → ¬ P2pkh spk → ¬ P2wpkh spk → ¬ P2wsh spk → ¬ P2sh spk → witness = none → redeem = none →
      Parsed M .bare spk (fun ms => .bare (M.substitute map ms)) r → Descr map sigs spk redeem witness r

/-- A witness for the leaf with this control block: the script is a miniscript of leaf version 0xc0, and rust-miniscript
satisfies it; the witness ends with the script and the control block. -/
def LeafWitness (mall : Bool) (map : BMap (FixedBytes 20) L.xonly.T) (sat : Satisfier L) (cb : L.ctrl.T) (script : Bytes)
    (ver : LeafVersion) (w : List Bytes) : Prop :=
  ver.1 = 0xc0 ∧ ∃ ms stack, M.tapParse script = some ms ∧ M.tapSatisfy mall (M.tapSubstitute map ms) sat = some stack ∧
    w = stack ++ [M.tapEncode (M.tapSubstitute map ms), cb.bytes]

/-- The size by which witnesses are compared: all bytes of the elements, and the length of the element count as a compact
size. -/
def size (w : List Bytes) : Nat := w.flatten.length + (compact w.length).length

/-- How a taproot output is spent: by the signature of the output key if there is one, else by the leaf with the smallest
witness (the last one of these in the order of control blocks), and not at all if no leaf has a witness. -/
inductive TapResult (mall : Bool) (map : BMap (FixedBytes 20) L.xonly.T) (sat : Satisfier L) :
    Except (MsInputErr L) (List Bytes) → Prop
  | key {sig : TapSig} : sat.tapKeySpendSig = some sig →
      TapResult mall map sat (.ok [sig.sig.1 ++ if sig.ty.1 = 0 then [] else [sig.ty.1]])
  | leaf {l1 l2 cb script ver w} : sat.tapKeySpendSig = none → sat.tapControlBlocks.l = l1 ++ (cb, script, ver) :: l2 →
      LeafWitness M mall map sat cb script ver w →
      (∀ cb' script' ver' w', (cb', script', ver') ∈ l1 → LeafWitness M mall map sat cb' script' ver' w' → size w ≤ size w') →
      (∀ cb' script' ver' w', (cb', script', ver') ∈ l2 → LeafWitness M mall map sat cb' script' ver' w' → size w < size w') →
      TapResult mall map sat (.ok w)
  | none : sat.tapKeySpendSig = none →
      (∀ cb script ver w, (cb, script, ver) ∈ sat.tapControlBlocks.l → ¬ LeafWitness M mall map sat cb script ver w) →
      TapResult mall map sat (.error .couldNotSatisfyTr)

/-- The map holds, for every hash, the last of the keys with that hash. -/
def HashesTo {K K' : Type} (hash : K' → FixedBytes 20) (f : K → K') (keys : List K) (h : FixedBytes 20) (k : K') : Prop :=
  ∃ l1 a l2, keys = l1 ++ a :: l2 ∧ f a = k ∧ hash k = h ∧ ∀ b ∈ l2, hash (f b) ≠ h

/-- What an input holds that can be used to spend it. `keys`: the keys of the BIP-32 derivations. -/
structure Held (L : Lib) where
  tapKeySig : Option TapSig
  tapScriptSigs : BMap (L.xonly.T × Hash32) TapSig
  tapScripts : BMap L.ctrl.T (Bytes × LeafVersion)
  partialSigs : BMap L.pubkey.T (EcdsaSig L)
  keys : List L.secpPk.T
  ripemd160 : BMap (FixedBytes 20) Bytes
  sha256 : BMap (FixedBytes 32) Bytes
  hash160 : BMap (FixedBytes 20) Bytes
  hash256 : BMap (FixedBytes 32) Bytes

/-- The answers are exactly what is held: signatures by key (and leaf), keys and signatures by key hash, preimages by hash
if they have 32 bytes. -/
structure Answers (h : Held L) (s : Satisfier L) : Prop where
  keySpend : s.tapKeySpendSig = h.tapKeySig
  leafSig : ∀ pk leaf sig, s.tapLeafScriptSig pk leaf = some sig ↔ h.tapScriptSigs.get (pk, leaf) = some sig
  scripts : s.tapControlBlocks = h.tapScripts
  sig : ∀ pk sig, s.ecdsaSig pk = some sig ↔ h.partialSigs.get pk = some sig
  hashSig : ∀ kh pk sig, s.rawPkhEcdsaSig kh = some (pk, sig) → h.partialSigs.get pk = some sig ∧ L.hash160 pk.bytes = kh
  hashSigAll : ∀ pk sig, h.partialSigs.get pk = some sig → s.rawPkhEcdsaSig (L.hash160 pk.bytes) ≠ none
  hashLeafSig : ∀ kh leaf pk sig, s.rawPkhTapLeafScriptSig kh leaf = some (pk, sig) →
    h.tapScriptSigs.get (pk, leaf) = some sig ∧ L.hash160 pk.bytes = kh
  hashLeafSigAll : ∀ pk leaf sig, h.tapScriptSigs.get (pk, leaf) = some sig →
    s.rawPkhTapLeafScriptSig (L.hash160 pk.bytes) leaf ≠ none
  hashKey : ∀ kh pk, s.rawPkhPk kh = some pk → (∃ k ∈ h.keys, pk = M.ofSecp k) ∧ L.hash160 pk.bytes = kh
  hashKeyAll : ∀ k ∈ h.keys, s.rawPkhPk (L.hash160 (M.ofSecp k).bytes) ≠ none
  ripemd160 : ∀ x pre, s.ripemd160 x = some pre ↔ h.ripemd160.get x = some pre.1
  sha256 : ∀ x pre, s.sha256 x = some pre ↔ h.sha256.get x = some pre.1
  hash160 : ∀ x pre, s.hash160 x = some pre ↔ h.hash160.get x = some pre.1
  hash256 : ∀ x pre, s.hash256 x = some pre ↔ h.hash256.get x = some pre.1

/-- BIP-65: `CHECKLOCKTIMEVERIFY` with operand `n` passes in an input with the given sequence number. Heights are below
500,000,000, times are not. -/
def CltvPasses (n : UInt32) (txLockTime sequence : UInt32) : Prop :=
  (n.toNat < 500000000 ↔ txLockTime.toNat < 500000000) ∧ n.toNat ≤ txLockTime.toNat ∧ sequence.toNat ≠ 0xFFFFFFFF

/-- BIP-112: `CHECKSEQUENCEVERIFY` with operand `n` (whose bit 31 is not set) passes: the transaction version is at least
2, bit 31 of the sequence number is not set, bit 22 is the same, and the low 16 bits are at least as large. -/
def CsvPasses (n : UInt32) (txVersion sequence : UInt32) : Prop :=
  2 ≤ txVersion.toNat ∧ sequence.toNat < 2 ^ 31 ∧ (n.toNat / 2 ^ 22 % 2 = sequence.toNat / 2 ^ 22 % 2) ∧
    n.toNat % 2 ^ 16 ≤ sequence.toNat % 2 ^ 16

/-- The operand of an absolute lock. -/
def absOperand : AbsLock → UInt32
  | .blocks h => h.1
  | .seconds t => t.1
/-- The operand of a relative lock. -/
def relOperand : RelLock → UInt32
  | .blocks n => n.toUInt32
  | .time n => n.toUInt32 ||| 0x00400000

end Psbt.Spec
