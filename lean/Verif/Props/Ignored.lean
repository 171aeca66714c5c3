/-
C103: signing, finalizing, extracting and the fee do not depend on records that are there for others: extended keys,
derivation paths and scripts of outputs, silent payment data, proprietary and unknown records.
-/
import Verif.Lemmas.Ignored
import Verif.Props.Precedence
import Verif.Props.V2Complete
namespace Psbt
open Spec (SameResult)

namespace V2
open _root_.Psbt.Spec (Alike)
variable {L : Lib} {p q : Psbt L}

/-- Lifts `f (core p) = (f p).map core` to PSBTs that are alike. -/
theorem same_of_core {ε : Type} {f : Psbt L → Out ε (Psbt L)} (hf : ∀ p, (f (Spec.core p)).map Spec.core = (f p).map Spec.core)
    (h : Alike p q) : SameResult Eq Alike (f p) (f q) :=
  same_of_map (f := Spec.core) (fun _ => rfl) (fun _ _ e => e) (by rw [← hf p, ← hf q, h])

theorem same_of_coreFst {ε β : Type} {f : Psbt L → Out ε (Psbt L × β)} (hf : ∀ p, f (Spec.core p) = (f p).map coreFst)
    (h : Alike p q) : SameResult Eq (fun a b => Alike a.1 b.1 ∧ a.2 = b.2) (f p) (f q) :=
  same_of_map (f := coreFst) (fun _ => rfl) (fun _ _ e => Prod.mk.inj e) (by rw [← hf p, ← hf q, h])

theorem core_core (p : Psbt L) : Spec.core (Spec.core p) = Spec.core p := by
  simp only [Spec.core, List.map_map]
  rfl

/-- C103. The lock time, the unsigned transaction, the identifier and the fee of PSBTs that are alike are the same. -/
theorem C103_v2_transaction (h : Alike p q) :
    p.determineLockTime = q.determineLockTime ∧ p.unsignedTx = q.unsignedTx ∧ p.id = q.id ∧ p.fee = q.fee :=
  ⟨by rw [← determineLockTime_core p, ← determineLockTime_core q, h], by rw [← unsignedTx_core p, ← unsignedTx_core q, h],
    by rw [← id_core p, ← id_core q, h], by rw [← fee_core p, ← fee_core q, h]⟩

/-- C103. Signing PSBTs that are alike gives the same signatures and reports the same keys, or the same errors. -/
theorem C103_v2_sign (S : SigLib L) (k : Provider S) (h : Alike p q) :
    SameResult Eq (fun a b => Alike a.1 b.1 ∧ a.2 = b.2) (Signer.sign S p k) (Signer.sign S q k) ∧
    ∀ tx, SameResult Eq (fun a b => Alike a.1 b.1 ∧ a.2 = b.2) (p.sign S tx k) (q.sign S tx k) :=
  ⟨same_of_coreFst (f := fun p => Signer.sign S p k) (fun p => signer_core S p k) h,
    fun tx => same_of_coreFst (f := fun p => p.sign S tx k) (fun p => sign_core S p tx k) h⟩

/-- C103. The message a signature signs is the same for PSBTs that are alike. -/
theorem C103_v2_message (h : Alike p q) (n : Nat) (tx : Tx) : p.sighashEcdsa n tx = q.sighashEcdsa n tx := by
  rw [← sighashEcdsa_core p, ← sighashEcdsa_core q, h]

/-- C103. Finalizing PSBTs that are alike gives the same scripts and witnesses, or the same error. -/
theorem C103_v2_finalize (M : MsLib L) (debug : Bool) (h : Alike p q) :
    SameResult Eq Alike (Finalizer.new p) (Finalizer.new q) ∧
    SameResult Eq Alike (Finalizer.finalize M debug p) (Finalizer.finalize M debug q) :=
  ⟨same_of_core (f := Finalizer.new) (fun p => by
      rw [finalizerNew_core]
      rcases Finalizer.new p with (e | s) | a
      · rfl
      · rfl
      · exact congrArg Except.ok (core_core a)) h,
    same_of_core (f := Finalizer.finalize M debug) (fun p => finalize_core M debug p) h⟩

/-- C103. From PSBTs that are alike the same transaction is extracted, or it fails for the same reason. -/
theorem C103_v2_extract (h : Alike p q) :
    SameResult Eq Alike (Extractor.new p) (Extractor.new q) ∧ Extractor.extractUnchecked p = Extractor.extractUnchecked q ∧
    ∀ max, Extractor.extractWithLimit p max = Extractor.extractWithLimit q max :=
  ⟨same_of_core (f := Extractor.new) (fun p => by
      rw [extractor_core]
      rcases Extractor.new p with (e | s) | a
      · rfl
      · rfl
      · exact congrArg Except.ok (core_core a)) h,
    by rw [← extractUnchecked_core p, ← extractUnchecked_core q, h],
    fun max => by rw [← extractWithLimit_core p, ← extractWithLimit_core q, h]⟩

/-- C103. Two PSBTs are alike if their transaction data and what is needed to spend each input is the same: nothing else is
compared. -/
theorem C103_v2_alike {gp gq : Global L} {is js : List (Input L)} {os qs : List (Output L)}
    (hg : (gp.version, gp.txVersion, gp.fallbackLockTime, gp.txModifiableFlags, gp.inputCount, gp.outputCount) =
      (gq.version, gq.txVersion, gq.fallbackLockTime, gq.txModifiableFlags, gq.inputCount, gq.outputCount))
    (hi : is.map (fun i => { i with spEcdhShares := .empty, spDleqProofs := .empty, proprietaries := .empty, unknowns := .empty }) =
      js.map (fun i => { i with spEcdhShares := .empty, spDleqProofs := .empty, proprietaries := .empty, unknowns := .empty }))
    (ho : os.map (fun o => (o.amount, o.scriptPubkey)) = qs.map (fun o => (o.amount, o.scriptPubkey))) :
    Alike ⟨gp, is, os⟩ ⟨gq, js, qs⟩ := by
  have ho' : os.map Spec.coreOutput = qs.map Spec.coreOutput := by
    have := congrArg (List.map fun x : UInt64 × Bytes => Output.new L ⟨x.1, x.2⟩) ho
    rw [List.map_map, List.map_map] at this
    exact this
  obtain ⟨h1, h2, h3, h4, h5, h6⟩ : _ ∧ _ ∧ _ ∧ _ ∧ _ ∧ _ := by simpa only [Prod.mk.injEq] using hg
  unfold Alike Spec.core
  simp only [ho']
  congr 1
  simp only [Spec.coreGlobal, h1, h2, h3, h4, h5, h6]

-- The hypothesis is met by PSBTs that differ in all these records; signing, finalizing and extracting succeed.
def iNoise (p : Psbt zL) : Psbt zL :=
  ⟨{ p.global with
      xpubs := BMap.empty.insert (Demo.val 78 (by decide +kernel) 3) (Demo.rep 4 1, [7])
      proprietaries := BMap.empty.insert ⟨[1], 2, [3]⟩ [4]
      unknowns := BMap.empty.insert ⟨0xEE, [1]⟩ [2] },
    p.inputs.map fun i => { i with
      spEcdhShares := BMap.empty.insert (Demo.val 33 (by decide) 5) (Demo.val 33 (by decide) 6)
      unknowns := BMap.empty.insert ⟨0xEE, [1]⟩ [2] },
    p.outputs.map fun o => { o with redeemScript := some [1], spV0Label := some 3, unknowns := BMap.empty.insert ⟨0xEE, [1]⟩ [2] }⟩
theorem iNoise_alike (p : Psbt zL) : Alike (iNoise p) p :=
  C103_v2_alike rfl (by simp only [List.map_map]; rfl) (by simp only [List.map_map]; rfl)
example : iNoise (zP none) ≠ zP none ∧ ∃ q r, Alike q r ∧ (Signer.sign zS (iNoise (zP none)) zKeys).toOption.map Prod.fst = some q ∧
    (Signer.sign zS (zP none) zKeys).toOption.map Prod.fst = some r ∧ q ≠ r ∧ r ≠ zP none := by
  refine ⟨by decide +kernel, ?_⟩
  have h := (C103_v2_sign zS zKeys (iNoise_alike (zP none))).1
  have e : ∃ b, Signer.sign zS (zP none) zKeys = .ok b ∧ b.1 ≠ zP none := ⟨_, rfl, by decide +kernel⟩
  obtain ⟨b, e, hb⟩ := e
  have e' : ∃ a, Signer.sign zS (iNoise (zP none)) zKeys = .ok a ∧ a.1.global.unknowns ≠ .empty := ⟨_, rfl, by decide +kernel⟩
  obtain ⟨a, e', ha⟩ := e'
  have e2 : ∀ b, Signer.sign zS (zP none) zKeys = .ok b → b.1.global.unknowns = .empty := by
    intro b hb
    have : ∃ b, Signer.sign zS (zP none) zKeys = .ok b ∧ b.1.global.unknowns = .empty := ⟨_, rfl, by decide +kernel⟩
    obtain ⟨c, hc, hc'⟩ := this
    rw [hb] at hc
    rw [Except.ok.inj hc]; exact hc'
  rw [e, e'] at h
  cases h with
  | ok h => exact ⟨a.1, b.1, h.1, by rw [e']; rfl, by rw [e]; rfl, fun x => ha (by rw [x]; exact e2 b e), hb⟩
end V2

namespace V0
open Spec.V0 (Alike ErrAlike)
variable {L : Lib} {p q : Psbt L}

theorem same_of_core {ε : Type} {f : Psbt L → Out ε (Psbt L)} (hf : ∀ p, f (Spec.V0.core p) = (f p).map Spec.V0.core)
    (h : Alike p q) : SameResult Eq Alike (f p) (f q) :=
  same_of_map (f := Spec.V0.core) (fun _ => rfl) (fun _ _ e => e) (by rw [← hf p, ← hf q, h])

theorem same_of_coreFst {ε β : Type} {f : Psbt L → Out ε (Psbt L × β)} (hf : ∀ p, f (Spec.V0.core p) = (f p).map coreFst)
    (h : Alike p q) : SameResult Eq (fun a b => Alike a.1 b.1 ∧ a.2 = b.2) (f p) (f q) :=
  same_of_map (f := coreFst) (fun _ => rfl) (fun _ _ e => Prod.mk.inj e) (by rw [← hf p, ← hf q, h])

/-- C103. Signing PSBTs that are alike gives the same signatures and reports the same keys and errors. -/
theorem C103_v0_sign (S : SigLib L) (k : Provider S) (h : Alike p q) :
    SameResult Eq (fun a b => Alike a.1 b.1 ∧ a.2 = b.2) (p.sign S k) (q.sign S k) :=
  same_of_coreFst (f := fun p => p.sign S k) (fun p => sign_core S p k) h

/-- C103. The messages and the checks before signing are the same for PSBTs that are alike. -/
theorem C103_v0_message (h : Alike p q) (n : Nat) (tx : Tx) (leaf : Option Hash32) :
    p.sighashEcdsa n tx = q.sighashEcdsa n tx ∧ p.sighashTaproot n tx leaf = q.sighashTaproot n tx leaf ∧
    p.sighashMsg n tx leaf = q.sighashMsg n tx leaf ∧ p.signerChecks = q.signerChecks :=
  ⟨by rw [← sighashEcdsa_core p, ← sighashEcdsa_core q, h], by rw [← sighashTaproot_core p, ← sighashTaproot_core q, h],
    by rw [← sighashMsg_core p, ← sighashMsg_core q, h], by rw [← signerChecks_core p, ← signerChecks_core q, h]⟩

/-- C103. Finalizing PSBTs that are alike gives the same scripts and witnesses and the same errors, by all four functions. -/
theorem C103_v0_finalize (M : MsLib L) (mall : Bool) (h : Alike p q) :
    SameResult Eq (fun a b => Alike a.1 b.1 ∧ a.2 = b.2) (p.finalizeMut M mall) (q.finalizeMut M mall) ∧
    SameResult Eq (fun a b => Alike a.1 b.1 ∧ a.2 = b.2) (p.finalizeHelper M mall) (q.finalizeHelper M mall) ∧
    ∀ n, SameResult Eq Alike (p.finalizeInp M n) (q.finalizeInp M n) ∧ SameResult Eq Alike (p.finalizeInpMall M n) (q.finalizeInpMall M n) :=
  ⟨same_of_coreFst (f := fun p => p.finalizeMut M mall) (fun p => finalizeMut_core M mall p) h,
    same_of_coreFst (f := fun p => p.finalizeHelper M mall) (fun p => finalizeHelper_core M mall p) h,
    fun n => ⟨same_of_core (f := fun p => p.finalizeInp M n) (fun p => finalizeInp_core M p n) h,
      same_of_core (f := fun p => p.finalizeInpMall M n) (fun p => finalizeInpMall_core M p n) h⟩⟩

/-- C103. The fee of PSBTs that are alike is the same, and the same transaction is extracted, or it fails for the same
reason. -/
theorem C103_v0_extract (M : MsLib L) (h : Alike p q) :
    p.fee = q.fee ∧ p.extractUnchecked = q.extractUnchecked ∧ p.extract M = q.extract M ∧
    ∀ max, SameResult ErrAlike Eq (p.extractWithLimit max) (q.extractWithLimit max) := by
  have e1 : p.fee = q.fee := by rw [← fee_core p, ← fee_core q, h]
  have e2 : p.extractUnchecked = q.extractUnchecked := by rw [← extractUnchecked_core p, ← extractUnchecked_core q, h]
  refine ⟨e1, e2, by rw [← extract_core M p, ← extract_core M q, h], fun max => ?_⟩
  unfold Psbt.extractWithLimit
  rw [e1, e2]
  dsimp only
  split
  · exact .panic _
  · exact .err (.same _)
  · exact .err (.psbt h)
  · exact .err (.same _)
  · exact .panic _
  · exact same_of_map (f := fun x => x) (fun _ => .same _) (fun _ _ e => e) rfl

/-- C103. Two PSBTs are alike if their transaction and what is needed to spend each input is the same: nothing else is
compared. -/
theorem C103_v0_alike (ht : p.unsignedTx = q.unsignedTx) (hv : p.version = q.version) (hl : p.outputs.length = q.outputs.length)
    (hi : p.inputs.map (fun i => { i with proprietary := .empty, unknown := .empty }) =
      q.inputs.map (fun i => { i with proprietary := .empty, unknown := .empty })) : Alike p q := by
  have ho : p.outputs.map (fun _ => Output.default L) = q.outputs.map fun _ => Output.default L := by
    simp only [List.map_const', hl]
  rcases p with ⟨t, v, x, pr, u, is, os⟩
  rcases q with ⟨t', v', x', pr', u', js, qs⟩
  simp only at ht hv ho hi
  subst ht hv
  have hi' : is.map Spec.V0.coreInput = js.map Spec.V0.coreInput := hi
  simp only [Alike, Spec.V0.core, ho, hi']

-- The hypothesis is met by PSBTs that differ in all these records; signing and finalizing succeed.
def iNoise (p : Psbt gL) : Psbt gL :=
  { p with
    xpub := BMap.empty.insert (Demo.val 78 (by decide +kernel) 3) (Demo.rep 4 1, [7])
    proprietary := BMap.empty.insert ⟨[1], 2, [3]⟩ [4]
    unknown := BMap.empty.insert ⟨0xEE, [1]⟩ [2]
    inputs := p.inputs.map fun i => { i with unknown := BMap.empty.insert ⟨0xEE, [1]⟩ [2] }
    outputs := p.outputs.map fun o => { o with redeemScript := some [1], unknown := BMap.empty.insert ⟨0xEE, [1]⟩ [2] } }
theorem iNoise_alike (p : Psbt gL) : Alike (iNoise p) p :=
  C103_v0_alike rfl rfl (List.length_map _) (by simp only [iNoise, List.map_map]; rfl)
example : iNoise pP ≠ pP ∧ gQ pP ≠ pP ∧ finalizes (gQ pP) = true ∧ finalizes (gQ (iNoise pP)) = true ∧ gQ (iNoise pP) ≠ gQ pP := by
  decide +kernel
end V0
end Psbt
