/- C86: the sighash cache is only a cache. -/
import Verif.Lemmas.SighashCache
import Verif.Props.V0Taproot
import Verif.Props.V0SighashMsg
import Verif.Props.V2Sign
namespace Psbt
open Psbt

variable {L : Lib} {tx : Tx} {P : List TxOut → Prop} {c : SighashCache}

theorem cached_kept (hd : Spec.DoubleHash L) (h : Spec.Cached (L := L) tx P c) : Kept L tx P c := by
  induction h with
  | new => exact kept_new
  | v2 p n _ ih => exact (V2.sighashEcdsa_refines hd p n _ ih).2
  | v0 p n _ ih => exact (V0.sighashEcdsa_refines hd p n _ ih).2
  | msg p n leaf hp _ ih => exact (V0.sighashMsg_both hd p n leaf hp ih).1

/-- C86. Whatever the cache has been used for, `sighash_ecdsa` of a PSBT v2 gives what it gives with a new cache … -/
theorem C86_v2_ecdsa (hd : Spec.DoubleHash L) (h : Spec.Cached (L := L) tx P c) (p : V2.Psbt L) (n : Nat) :
    (p.sighashEcdsaCached n c).1 = p.sighashEcdsa n tx :=
  (V2.sighashEcdsa_refines hd p n c (cached_kept hd h)).1

/-- … and so does that of a PSBT v0. -/
theorem C86_v0_ecdsa (hd : Spec.DoubleHash L) (h : Spec.Cached (L := L) tx P c) (p : V0.Psbt L) (n : Nat) :
    (p.sighashEcdsaCached n c).1 = p.sighashEcdsa n tx :=
  (V0.sighashEcdsa_refines hd p n c (cached_kept hd h)).1

/-- C86. The same for `sighash_msg` of inputs that are not taproot. -/
theorem C86_msg_ecdsa (hd : Spec.DoubleHash L) (h : Spec.Cached (L := L) tx (fun _ => True) c) (p : V0.Psbt L) (n : Nat) (leaf : Option Hash32)
    (hn : ∀ u, p.getUtxo n = .ok u → isP2tr u.scriptPubkey = false) : (p.sighashMsgCached n leaf c).1 = p.sighashMsg n tx leaf :=
  (V0.sighashMsg_both hd p n leaf (fun _ _ => trivial) (cached_kept hd h)).2 (.inr hn)

/-- C86. For taproot this holds if all PSBTs for which the cache was used spend the same outputs. -/
theorem C86_msg_partial (hd : Spec.DoubleHash L) {us : List TxOut} (h : Spec.Cached (L := L) tx (· = us) c) (p : V0.Psbt L) (n : Nat)
    (leaf : Option Hash32) (hp : ∀ us', p.prevouts = .ok us' → us' = us) : (p.sighashMsgCached n leaf c).1 = p.sighashMsg n tx leaf :=
  (V0.sighashMsg_both hd p n leaf hp (cached_kept hd h)).2 (.inl ⟨us, rfl⟩)

/-- C86. Signing all inputs with one cache gives what signing them with a new cache each would give. -/
theorem C86_v2_sign (hd : Spec.DoubleHash L) (S : SigLib L) (p : V2.Psbt L) (tx : Tx) (k : Provider S) :
    p.signCached S tx k = p.sign S tx k := by
  unfold V2.Psbt.signCached V2.Psbt.sign
  rw [(V2.signAll_refines (P := fun _ => True) hd k _ _ _ (kept_new (tx := tx))).1]
  rfl

theorem C86_v0_sign (hd : Spec.DoubleHash L) (S : SigLib L) (p : V0.Psbt L) (k : Provider S) :
    p.signCached S k = p.sign S k := by
  unfold V0.Psbt.signCached V0.Psbt.sign
  rw [(V0.signAll_refines hd k _ _ _ kept_new).1]
  rfl

section Examples
open V0
theorem mix_double : Spec.DoubleHash mL := fun _ => rfl
/-- A PSBT and one of the same transaction that claims another amount for its taproot input. -/
def caA : V0.Psbt mL := mC
def caB : V0.Psbt mL := mP [{ mTap none with witnessUtxo := some ⟨999, V2.spkTr⟩ }, mOther] [⟨500, [0x51]⟩]
def caUsed : SighashCache := (caA.sighashMsgCached 0 none (.new caA.unsignedTx)).2
def caHash (r : Out SighashErr SighashMsg) : Option SighashMsg := match r with | .ok m => some m | _ => none
-- Caches that keep something, and hypotheses met.
example : Spec.Cached (L := mL) caA.unsignedTx (fun _ => True) caUsed ∧ caUsed.taproot.isSome = true ∧ caUsed.common.isSome = true :=
  ⟨.msg caA 0 none (fun _ _ => trivial) .new, by decide +kernel⟩
example : Spec.Cached (L := mL) caA.unsignedTx (· = [⟨1000, V2.spkTr⟩, ⟨3, V2.spkWpkh⟩]) (caA.sighashMsgCached 1 none caUsed).2 ∧
    (caA.sighashMsgCached 1 none caUsed).2.segwit.isSome = true ∧
    (caHash (caA.sighashMsgCached 0 none (caA.sighashMsgCached 1 none caUsed).2).1).isSome = true := by
  have : caA.prevouts = .ok [⟨1000, V2.spkTr⟩, ⟨3, V2.spkWpkh⟩] := by decide +kernel
  refine ⟨.msg caA 1 none (fun us h => ?_) (.msg caA 0 none (fun us h => ?_) .new), by decide +kernel, by decide +kernel⟩ <;>
    (rw [this] at h; exact (Except.ok.inj h).symm)
-- The theorems, applied to a cache that has been used.
example := C86_v0_ecdsa mix_double (.msg caA 0 none (fun _ _ => trivial) .new : Spec.Cached (L := mL) caA.unsignedTx (fun _ => True) caUsed) caA 1
example := C86_v2_ecdsa mix_double (.msg caA 0 none (fun _ _ => trivial) .new : Spec.Cached (L := mL) caA.unsignedTx (fun _ => True) caUsed)
example := C86_msg_ecdsa mix_double (.msg caA 0 none (fun _ _ => trivial) .new : Spec.Cached (L := mL) caA.unsignedTx (fun _ => True) caUsed) caA 1 none
  (by intro u hu; cases (show caA.getUtxo 1 = .ok ⟨3, V2.spkWpkh⟩ by decide +kernel).symm.trans hu; decide +kernel)
example : (caA.sighashMsgCached 0 none caUsed).1 = caA.sighashMsg 0 caA.unsignedTx none := by
  have : caA.prevouts = .ok [⟨1000, V2.spkTr⟩, ⟨3, V2.spkWpkh⟩] := by decide +kernel
  have h : ∀ us, caA.prevouts = .ok us → us = [⟨1000, V2.spkTr⟩, ⟨3, V2.spkWpkh⟩] := fun us h =>
    (Except.ok.inj (this.symm.trans h)).symm
  exact C86_msg_partial mix_double (.msg caA 0 none h .new) caA 0 none h
/-- The signing dependencies with that hash. -/
def mixSig : SigLib mL :=
  let s := Demo.sigLib false
  ⟨s.SK, s.pub, s.signEcdsa, s.Keypair, s.keypair, s.tapTweak, s.signSchnorr, s.xonly, s.ofSecp, s.Xpriv, s.fingerprint,
    s.parentFingerprint, s.derive, s.toPriv⟩
def caKey : mixSig.SK := (2 : UInt8)
def caKeys : Provider mixSig := fun _ => .ok (some caKey)
def caX : mL.xonly.T := mixSig.xonly (mixSig.pub caKey)
/-- Two taproot inputs and one that is not, all with a key. -/
def caTap : Input mL := { mTap none with tapInternalKey := some caX, tapKeyOrigins := BMap.empty.insert caX ([], (Demo.rep 4 1, [7])) }
def caEcdsa : Input mL := { mOther with bip32Derivation := BMap.empty.insert (Demo.val 33 (by decide) 5) (Demo.rep 4 1, [7]) }
def caSign : V0.Psbt mL := mP [caTap, caEcdsa, caTap] [⟨500, [0x51]⟩]
-- All three inputs get a signature, the two taproot inputs different ones.
example : ∃ q u a b c, caSign.signCached mixSig caKeys = .ok (q, .ok u) ∧ q.inputs = [a, b, c] ∧ b.partialSigs ≠ .empty ∧
    a.tapKeySig ≠ none ∧ a.tapKeySig ≠ c.tapKeySig :=
  ⟨_, _, _, _, _, rfl, rfl, by decide +kernel, by decide +kernel, by decide +kernel⟩
example := C86_v0_sign mix_double mixSig caSign caKeys
example := C86_v2_sign mix_double mixSig
end Examples

/-- C86 fails for taproot messages of another PSBT of the same transaction: with a cache that has been used for a PSBT that claims
other amounts, `sighash_msg` silently gives the message for those amounts. -/
theorem C86_stale_counterexample : ∃ (p q : V0.Psbt V0.mL) (c : SighashCache) (m m' : Hash32), q.unsignedTx = p.unsignedTx ∧
    Spec.Cached (L := V0.mL) p.unsignedTx (fun _ => True) c ∧
    q.sighashMsg 0 q.unsignedTx none = .ok (.tap m) ∧ (q.sighashMsgCached 0 none c).1 = .ok (.tap m') ∧ m ≠ m' ∧
    p.sighashMsg 0 p.unsignedTx none = .ok (.tap m') :=
  ⟨caA, caB, caUsed, (match caHash (caB.sighashMsg 0 caB.unsignedTx none) with | some (.tap m) => m | _ => zero32),
    (match caHash (caA.sighashMsg 0 caA.unsignedTx none) with | some (.tap m) => m | _ => zero32), by decide +kernel,
    .msg caA 0 none (fun _ _ => trivial) .new, by decide +kernel, by decide +kernel, by decide +kernel, by decide +kernel⟩

end Psbt
