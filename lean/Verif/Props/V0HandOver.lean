/- C81, C82: a PSBT v0 can be handed over between the roles at any time, and no role changes its transaction. -/
import Verif.Spec.V0HandOver
import Verif.Lemmas.HandOver
import Verif.Lemmas.V0Parallel
import Verif.Props.V0Parse
import Verif.Props.V0Combine
import Verif.Props.V0Finalize
import Verif.Props.V0Update
import Verif.Props.V2HandOver
namespace Psbt.V0
open Psbt Psbt.Spec.V0

variable {L : Lib} {S : SigLib L} {M : MsLib L} {U : UpdLib L}

/-- `Spec.V0.WF` without size limits. -/
structure HandSound (p : Psbt L) : Prop where
  version : p.version = 0
  unsigned : ∀ i ∈ p.unsignedTx.input, i.scriptSig = [] ∧ i.witness = []
  unknowns : ∀ k v, p.unknown.get k = some v → k.ty ∉ globalTypes
  inputs : ∀ i ∈ p.inputs, InputSound i
  outputs : ∀ o ∈ p.outputs, OutputSound o
  inputCount : p.inputs.length = p.unsignedTx.input.length
  outputCount : p.outputs.length = p.unsignedTx.output.length

theorem wf_iff_handSound {p : Psbt L} : Spec.V0.WF p ↔ HandSound p ∧ WithinLimits p := by
  constructor
  · intro h
    exact ⟨⟨h.version, h.unsigned, h.unknowns,
      fun i hi => ⟨(h.inputs i hi).ripemd160, (h.inputs i hi).sha256, (h.inputs i hi).hash160, (h.inputs i hi).hash256, (h.inputs i hi).unknowns⟩,
      fun o ho => (h.outputs o ho).unknowns, h.inputCount, h.outputCount⟩,
      ⟨h.globalSize, h.sizes, fun i hi => (h.inputs i hi).sizes, fun o ho => (h.outputs o ho).sizes, h.props,
        fun i hi => (h.inputs i hi).props, fun o ho => (h.outputs o ho).props, h.inputMem, h.outputMem⟩⟩
  · rintro ⟨h, w⟩
    exact ⟨h.version, h.unsigned, w.global, w.pairs, w.globalProps, h.unknowns,
      fun i hi => { h.inputs i hi with sizes := w.inputs i hi, props := w.inputProps i hi },
      fun o ho => ⟨w.outputs o ho, w.outputProps o ho, h.outputs o ho⟩, h.inputCount, h.outputCount, w.inputMem, w.outputMem⟩

/-- The preimages and unknown pairs of an input. -/
theorem InputSound.congr {i j : Input L} (h : InputSound i) (h1 : j.ripemd160Preimages = i.ripemd160Preimages)
    (h2 : j.sha256Preimages = i.sha256Preimages) (h3 : j.hash160Preimages = i.hash160Preimages)
    (h4 : j.hash256Preimages = i.hash256Preimages) (h5 : j.unknown = i.unknown) : InputSound j :=
  ⟨h1 ▸ h.ripemd160, h2 ▸ h.sha256, h3 ▸ h.hash160, h4 ▸ h.hash256, h5 ▸ h.unknowns⟩

theorem InputSound.default {i : Input L} (h1 : i.ripemd160Preimages = .empty) (h2 : i.sha256Preimages = .empty)
    (h3 : i.hash160Preimages = .empty) (h4 : i.hash256Preimages = .empty) (h5 : i.unknown = .empty) : InputSound i :=
  ⟨fun _ _ h => (V2.BMap.get_empty_ne (h1 ▸ h)).elim, fun _ _ h => (V2.BMap.get_empty_ne (h2 ▸ h)).elim,
   fun _ _ h => (V2.BMap.get_empty_ne (h3 ▸ h)).elim, fun _ _ h => (V2.BMap.get_empty_ne (h4 ▸ h)).elim,
   fun _ _ h => (V2.BMap.get_empty_ne (h5 ▸ h)).elim⟩

theorem InputSound.combine {a b : Input L} (ha : InputSound a) (hb : InputSound b) : InputSound (a.combine b) where
  ripemd160 k v h := (V2.extend_some h).elim (ha.ripemd160 k v) (hb.ripemd160 k v)
  sha256 k v h := (V2.extend_some h).elim (ha.sha256 k v) (hb.sha256 k v)
  hash160 k v h := (V2.extend_some h).elim (ha.hash160 k v) (hb.hash160 k v)
  hash256 k v h := (V2.extend_some h).elim (ha.hash256 k v) (hb.hash256 k v)
  unknowns k v h := (V2.extend_some h).elim (ha.unknowns k v) (hb.unknowns k v)

theorem OutputSound.combine {a b : Output L} (ha : OutputSound a) (hb : OutputSound b) : OutputSound (a.combine b) :=
  fun k v h => (V2.extend_some h).elim (ha k v) (hb k v)

theorem mem_combineZip {α : Type} {f : α → α → α} {P : α → Prop} (hf : ∀ a b, P a → P b → P (f a b)) :
    ∀ {as bs : List α}, (∀ a ∈ as, P a) → (∀ b ∈ bs, P b) → ∀ c ∈ combineZip f as bs, P c
  | [], _, _, _ => fun _ h => (List.not_mem_nil h).elim
  | a :: as, [], ha, _ => ha
  | a :: as, b :: bs, ha, hb => by
    intro c hc
    rcases List.mem_cons.mp hc with rfl | hc
    · exact hf _ _ (ha _ List.mem_cons_self) (hb _ List.mem_cons_self)
    · exact mem_combineZip hf (fun a h => ha a (List.mem_cons_of_mem _ h)) (fun b h => hb b (List.mem_cons_of_mem _ h)) c hc

/-- Replacing an input. -/
theorem HandSound.setInput {p : Psbt L} (h : HandSound p) (n : Nat) {j : Input L} (hj : InputSound j) :
    HandSound { p with inputs := p.inputs.set n j } :=
  { h with
    inputs := fun i hi => (List.mem_or_eq_of_mem_set hi).elim (h.inputs i) fun e => e ▸ hj
    inputCount := by show (p.inputs.set n j).length = _; rw [List.length_set]; exact h.inputCount }
theorem HandSound.setOutput {p : Psbt L} (h : HandSound p) (n : Nat) {j : Output L} (hj : OutputSound j) :
    HandSound { p with outputs := p.outputs.set n j } :=
  { h with
    outputs := fun i hi => (List.mem_or_eq_of_mem_set hi).elim (h.outputs i) fun e => e ▸ hj
    outputCount := by show (p.outputs.set n j).length = _; rw [List.length_set]; exact h.outputCount }

theorem updateInput_set {p q : Psbt L} {n d r} (h : p.updateInput U n d = .ok (q, r)) :
    q = p ∨ ∃ i f, p.inputs[n]? = some i ∧ q = { p with inputs := p.inputs.set n (Input.setFields i f) } := by
  unfold Psbt.updateInput at h
  split at h
  · cases h; exact .inl rfl
  · rename_i i hi
    split at h
    · cases h; exact .inl rfl
    · split at h
      · cases h; exact .inl rfl
      · rw [bind_ok] at h
        obtain ⟨⟨f, s⟩, -, h⟩ := h
        refine .inr ⟨i, f, hi, ?_⟩
        simp only at h
        split at h <;> (cases h; rfl)
theorem updateOutput_set {p q : Psbt L} {n d r} (h : p.updateOutput U n d = .ok (q, r)) :
    q = p ∨ ∃ i f, p.outputs[n]? = some i ∧ q = { p with outputs := p.outputs.set n (Output.setFields i f) } := by
  unfold Psbt.updateOutput at h
  split at h
  · cases h; exact .inl rfl
  · rename_i i hi
    split at h
    · cases h; exact .inl rfl
    · rw [bind_ok] at h
      obtain ⟨⟨f, s⟩, -, h⟩ := h
      refine .inr ⟨i, f, hi, ?_⟩
      simp only at h
      split at h <;> (cases h; rfl)

theorem finalizeInput_set {p q : Psbt L} {n mall} (h : p.finalizeInput M n mall = .ok q) :
    ∃ i s w, p.inputs[n]? = some i ∧ q = withInput p n (onlyFinal i s w) := by
  unfold Psbt.finalizeInput at h
  rw [bind_ok] at h
  obtain ⟨⟨w, s⟩, -, h⟩ := h
  simp only at h
  split at h
  · cases h
  · rename_i i hi
    refine ⟨i, s, w, hi, ?_⟩
    cases h
    simp only [withInput, onlyFinal, List.isEmpty_iff]

/-- Repeated finalizing keeps whatever finalizing an input keeps. -/
theorem finalizeWhile_keeps {P : Psbt L → Prop} {mall : Bool} (hP : ∀ p q n, P p → p.finalizeInput M n mall = .ok q → P q) (ns : List Nat) :
    ∀ {p q r}, P p → p.finalizeWhile M mall ns = .ok (q, r) → P q := by
  induction ns with
  | nil => intro p q r hp h; cases h; exact hp
  | cons n ns ih =>
    intro p q r hp h
    unfold Psbt.finalizeWhile at h
    split at h
    · rename_i e; exact ih (hP _ _ _ hp e) h
    · cases h; exact hp
    · cases h
theorem finalizeEach_keeps {P : Psbt L → Prop} {mall : Bool} (hP : ∀ p q n, P p → p.finalizeInput M n mall = .ok q → P q) (ns : List Nat) :
    ∀ {p q r}, P p → p.finalizeEach M mall ns = .ok (q, r) → P q := by
  induction ns with
  | nil => intro p q r hp h; cases h; exact hp
  | cons n ns ih =>
    intro p q r hp h
    unfold Psbt.finalizeEach at h
    split at h
    · rename_i e; exact ih (hP _ _ _ hp e) h
    · rw [bind_ok] at h
      obtain ⟨⟨q', es⟩, h1, h2⟩ := h
      cases h2
      exact ih hp h1
    · cases h

/-- To show that something is kept by all calls. -/
theorem call_keeps {P : Psbt L → Prop} {p o q : Psbt L} (h : Call S M U p o q) (hp : P p)
    (input : ∀ p n j, P p → InputSound j → P (withInput p n j))
    (output : ∀ p n j, P p → OutputSound j → P { p with outputs := p.outputs.set n j })
    (global : ∀ p x pr u, P p → (∀ k v, BMap.get u k = some v → k.ty ∉ globalTypes) → P { p with xpub := x, proprietary := pr, unknown := u })
    (fields : ∀ p n i f, P p → p.inputs[n]? = some i → P (withInput p n (Input.setFields i f)))
    (fields' : ∀ p n i f, P p → p.outputs[n]? = some i → P { p with outputs := p.outputs.set n (Output.setFields i f) })
    (sign : ∀ p k q r, P p → p.sign S k = .ok (q, r) → P q)
    (combine : ∀ q r, p.combine o = (q, r) → P q)
    (final : ∀ p n i s w, P p → p.inputs[n]? = some i → P (withInput p n (onlyFinal i s w))) : P q := by
  have hf : ∀ mall p q n, P p → p.finalizeInput M n mall = .ok q → P q := by
    intro mall p q n hp h
    obtain ⟨i, s, w, hi, rfl⟩ := finalizeInput_set h
    exact final _ _ _ _ _ hp hi
  cases h with
  | setInput n hj => exact input _ _ _ hp hj
  | setOutput n hj => exact output _ _ _ hp hj
  | setGlobal x pr hu => exact global _ _ _ _ hp hu
  | updateInput h =>
    rcases updateInput_set h with rfl | ⟨i, f, hi, rfl⟩
    · exact hp
    · exact fields _ _ _ _ hp hi
  | updateOutput h =>
    rcases updateOutput_set h with rfl | ⟨i, f, hi, rfl⟩
    · exact hp
    · exact fields' _ _ _ _ hp hi
  | sign h => exact sign _ _ _ _ hp h
  | combine h => exact combine _ _ h
  | finalizeMut h => exact finalizeEach_keeps (hf _) _ hp h
  | finalizeHelper h =>
    unfold Psbt.finalizeHelper at h
    split at h
    · cases h; exact hp
    · exact finalizeWhile_keeps (hf _) _ hp h
  | finalizeInp h =>
    unfold Psbt.finalizeInp at h
    split at h
    · cases h
    · exact hf _ _ _ _ hp h
  | finalizeInpMall h =>
    unfold Psbt.finalizeInpMall at h
    split at h
    · cases h
    · exact hf _ _ _ _ hp h

theorem sign_input_rest {p q : Psbt L} {k : Provider S} {r} (h : p.sign S k = .ok (q, r)) {j : Input L} (hj : j ∈ q.inputs) :
    ∃ i ∈ p.inputs, eraseInput j = eraseInput i := by
  have he := C50_frame h
  have hl := length_congr he
  obtain ⟨n, hn⟩ := List.mem_iff_getElem?.mp hj
  obtain ⟨i, hi⟩ : ∃ i, p.inputs[n]? = some i :=
    ⟨_, List.getElem?_eq_getElem (by rw [← hl]; exact (List.getElem?_eq_some_iff.mp hn).1)⟩
  refine ⟨i, List.mem_of_getElem? hi, ?_⟩
  have := input_congr he n
  rw [hn, hi] at this
  exact Option.some.inj this

theorem sign_global {p q : Psbt L} {k : Provider S} {r} (h : p.sign S k = .ok (q, r)) : q = { p with inputs := q.inputs } := by
  have he := C50_frame h
  have : { erase q with inputs := q.inputs } = { erase p with inputs := q.inputs } := by rw [he]
  exact this

theorem HandSound.call {p o q : Psbt L} (hp : HandSound p) (ho : HandSound o) (h : Call S M U p o q) : HandSound q := by
  refine call_keeps h hp ?_ ?_ ?_ ?_ ?_ ?_ ?_ ?_
  · intro p n j hp hj; exact hp.setInput n hj
  · intro p n j hp hj; exact hp.setOutput n hj
  · intro p x pr u hp hu; exact { hp with unknowns := hu }
  · intro p n i f hp hi; exact hp.setInput n (InputSound.congr (hp.inputs i (List.mem_of_getElem? hi)) rfl rfl rfl rfl rfl)
  · intro p n i f hp hi; exact hp.setOutput n (hp.outputs i (List.mem_of_getElem? hi))
  · intro p k q r hp h
    have hl := length_congr (C50_frame h)
    have hin : ∀ j ∈ q.inputs, InputSound j := by
      intro j hj
      obtain ⟨i, hi, e⟩ := sign_input_rest h hj
      have e' := erased_eq e
      rw [e']
      exact InputSound.congr (hp.inputs i hi) rfl rfl rfl rfl rfl
    rw [sign_global h]
    exact { hp with inputs := hin, inputCount := by show q.inputs.length = _; rw [hl]; exact hp.inputCount }
  · intro q r h
    cases r with
    | ok u =>
      obtain ⟨-, -, hr⟩ := combine_ok.mp h
      rw [hr]
      refine ⟨?_, hp.unsigned, fun k v h => (V2.extend_some h).elim (hp.unknowns k v) (ho.unknowns k v),
        mem_combineZip (fun _ _ => InputSound.combine) hp.inputs ho.inputs,
        mem_combineZip (fun _ _ => OutputSound.combine) hp.outputs ho.outputs, ?_, ?_⟩
      · show vmax p.version o.version = 0
        rw [hp.version, ho.version]; rfl
      · show (combineZip _ _ _).length = _
        rw [combineZip_length]; exact hp.inputCount
      · show (combineZip _ _ _).length = _
        rw [combineZip_length]; exact hp.outputCount
    | error e =>
      rw [C48_failure_frame h]
      refine { hp with version := ?_ }
      show q.version = 0
      unfold Psbt.combine at h
      split at h
      · cases h; exact hp.version
      · simp only at h
        split at h
        · cases h
          simp only [hp.version, ho.version]
          rfl
        · cases h
  · intro p n i s w hp hi
    exact hp.setInput n (InputSound.default rfl rfl rfl rfl rfl)

theorem HandSound.reachable {p : Psbt L} (h : Reachable S M U p) : HandSound p := by
  induction h with
  | received h => exact (wf_iff_handSound.mp (wf_of_deserialize h)).1
  | @created tx p h =>
    unfold Psbt.fromUnsignedTx at h
    rw [bind_ok] at h
    obtain ⟨u, h1, h2⟩ := h
    cases h2
    exact ⟨rfl, txInChecks_ok.mp h1, fun _ _ h => (V2.BMap.get_empty_ne h).elim,
      fun i hi => by rw [List.eq_of_mem_replicate hi]; exact InputSound.default rfl rfl rfl rfl rfl,
      fun o ho => by rw [List.eq_of_mem_replicate ho]; exact fun _ _ h => (V2.BMap.get_empty_ne h).elim,
      List.length_replicate, List.length_replicate⟩
  | call _ _ h h1 h2 => exact HandSound.call h1 h2 h

/-- C81. Whatever has been done to a PSBT, its bytes are read back as exactly that PSBT if and only if it is within the size
limits of the format. So at any moment it may be serialised, passed on, and continued with. -/
theorem C81_hand_over_iff {p : Psbt L} (h : Reachable S M U p) : Psbt.deserialize L p.serialize = .ok p ↔ WithinLimits p := by
  rw [C45_roundtrip_iff, wf_iff_handSound]
  exact ⟨fun h => h.2, fun hw => ⟨HandSound.reachable h, hw⟩⟩

theorem sizes_iff {i : Input L} {P : Pair → Prop} : (∀ q ∈ i.getPairs, P q) ↔
    ∀ ls ∈ [
      emitOpt PSBT_IN_NON_WITNESS_UTXO txCodec i.nonWitnessUtxo,
      emitOpt PSBT_IN_WITNESS_UTXO txOutCodec i.witnessUtxo,
      emitMap PSBT_IN_PARTIAL_SIG (pubkeyCodec L) (ecdsaSigCodec L) i.partialSigs,
      emitOpt PSBT_IN_SIGHASH_TYPE u32Codec i.sighashType,
      emitOpt PSBT_IN_REDEEM_SCRIPT rawCodec i.redeemScript,
      emitOpt PSBT_IN_WITNESS_SCRIPT rawCodec i.witnessScript,
      emitMap PSBT_IN_BIP32_DERIVATION (secpPkCodec L) keySourceCodec i.bip32Derivation,
      emitOpt PSBT_IN_FINAL_SCRIPTSIG rawCodec i.finalScriptSig,
      emitOpt PSBT_IN_FINAL_SCRIPTWITNESS witnessCodec i.finalScriptWitness,
      emitMap PSBT_IN_RIPEMD160 (hashCodec 20) rawCodec i.ripemd160Preimages,
      emitMap PSBT_IN_SHA256 (hashCodec 32) rawCodec i.sha256Preimages,
      emitMap PSBT_IN_HASH160 (hashCodec 20) rawCodec i.hash160Preimages,
      emitMap PSBT_IN_HASH256 (hashCodec 32) rawCodec i.hash256Preimages,
      emitOpt PSBT_IN_TAP_KEY_SIG tapSigCodec i.tapKeySig,
      emitMap PSBT_IN_TAP_SCRIPT_SIG (xonlyLeafCodec L) tapSigCodec i.tapScriptSigs,
      emitMap PSBT_IN_TAP_LEAF_SCRIPT (ctrlCodec L) leafScriptCodec i.tapScripts,
      emitMap PSBT_IN_TAP_BIP32_DERIVATION (xonlyCodec L) tapOriginCodec i.tapKeyOrigins,
      emitOpt PSBT_IN_TAP_INTERNAL_KEY (xonlyCodec L) i.tapInternalKey,
      emitOpt PSBT_IN_TAP_MERKLE_ROOT (hashCodec 32) i.tapMerkleRoot,
      emitProp i.proprietary,
      emitUnknown i.unknown], ∀ q ∈ ls, P q := by
  unfold Input.getPairs
  constructor
  · intro h ls hl q hq; exact h q (List.mem_flatten.mpr ⟨ls, hl, hq⟩)
  · intro h q hq
    obtain ⟨ls, hl, hq⟩ := List.mem_flatten.mp hq
    exact h ls hl q hq

theorem freshE_is {k : Provider S} {p : Psbt L} {n : Nat} {pk : L.pubkey.T} {s : EcdsaSig L} (h : freshE S k p n pk = some s) :
    ∃ sk m ty, pk = S.pub sk ∧ s = ⟨S.signEcdsa m sk, ty⟩ := by
  unfold freshE at h
  split at h
  · cases h
  · rename_i i _
    split at h
    · rename_i m ty _ _
      by_cases hm : pk ∈ (keysFor S k i).map S.pub
      · obtain ⟨sk, -, h1, h2⟩ := V2.addSigs_mem (m := m) (ty := ty) _ BMap.empty hm
        exact ⟨sk, m, ty, h1.symm, Option.some.inj (h.symm.trans h2)⟩
      · rw [(V2.addSigs_none _ _).mpr hm] at h; cases h
    · cases h

theorem tapSig_len (s : TapSig) : (tapSigCodec.ser s).length ≤ 65 := by
  have := s.sig.2
  show (if s.ty.1 = 0 then s.sig.1 else s.sig.1 ++ [s.ty.1]).length ≤ 65
  split
  · omega
  · rw [List.length_append, this]; exact Nat.le_refl _

/-- C81. Signing keeps a PSBT within the limits, public keys and signatures being small. -/
theorem C81_sign_limits (hS : Spec.SmallKeys S) (hx : ∀ x : L.xonly.T, x.bytes.length ≤ 32) {p q : Psbt L} {k : Provider S} {r}
    (hp : WithinLimits p) (h : p.sign S k = .ok (q, r)) : WithinLimits q := by
  have hg := sign_global h
  have hl := length_congr (C50_frame h)
  have hin : ∀ j ∈ q.inputs, ∃ i ∈ p.inputs, j.proprietary = i.proprietary ∧ ∀ x ∈ j.getPairs, Spec.PairOk x := by
    intro j hj
    obtain ⟨n, hn⟩ := List.mem_iff_getElem?.mp hj
    obtain ⟨i, hi⟩ : ∃ i, p.inputs[n]? = some i :=
      ⟨_, List.getElem?_eq_getElem (by rw [← hl]; exact (List.getElem?_eq_some_iff.mp hn).1)⟩
    obtain ⟨j', hj', ha⟩ := sign_input h hi
    rw [hn, Option.some.injEq] at hj'
    subst hj'
    have he := erased_eq ha.rest
    have hm := List.mem_of_getElem? hi
    refine ⟨i, hm, by rw [he], ?_⟩
    have hs := sizes_iff.mp (hp.inputs i hm)
    refine sizes_iff.mpr ?_
    simp only [List.forall_mem_cons] at hs ⊢
    rw [he]
    obtain ⟨a1, a2, a3, a4, a5, a6, a7, a8, a9, a10, a11, a12, a13, a14, a15, a16⟩ := hs
    refine ⟨a1, a2, V2.emitMap_ok.mpr ?_, a4, a5, a6, a7, a8, a9, a10, a11, a12, a13, V2.emitOpt_ok.mpr ?_, V2.emitMap_ok.mpr ?_, a16⟩
    · intro pk s hk
      rw [ha.ecdsa] at hk
      rcases V2.or_some hk with hk | hk
      · obtain ⟨sk, m, ty, rfl, rfl⟩ := freshE_is hk
        have e1 : (pubkeyCodec L).ser (S.pub sk) = (S.pub sk).bytes := rfl
        have e2 : (ecdsaSigCodec L).ser ⟨S.signEcdsa m sk, ty⟩ = (S.signEcdsa m sk).bytes ++ [ty.1] := rfl
        have h1 := (hS sk).1
        have h2 := (hS sk).2 m
        rw [e1, e2, List.length_append]
        simp only [Spec.MAX_KEY, Spec.MAX_VALUE, List.length_singleton]
        omega
      · exact V2.emitMap_ok.mp a3 pk s hk
    · intro s _
      exact Nat.le_trans (tapSig_len s) (by decide)
    · intro x s _
      refine ⟨?_, Nat.le_trans (tapSig_len s) (by decide)⟩
      have e : (xonlyLeafCodec L).ser x = x.1.bytes ++ x.2.1 := rfl
      have h1 := hx x.1
      have h2 := x.2.2
      rw [e, List.length_append]
      simp only [Spec.MAX_KEY]
      omega
  rw [hg]
  exact ⟨hp.global, hp.pairs, fun j hj => (hin j hj).choose_spec.2.2, hp.outputs, hp.globalProps,
    fun j hj => by
      obtain ⟨i, hi, e, -⟩ := hin j hj
      rw [e]; exact hp.inputProps i hi, hp.outputProps, by rw [hl]; exact hp.inputMem, hp.outputMem⟩

/-- C81. So does combining, except that the global map may become too large. -/
theorem C81_combine_limits_iff {p o q : Psbt L} (hp : WithinLimits p) (ho : WithinLimits o) (h : p.combine o = (q, .ok ())) :
    WithinLimits q ↔ (q.getPairs.flatMap fun q => Spec.pairBytes q.key.ty q.key.key q.value).length + 1 ≤ 4000000 := by
  refine ⟨fun h => h.global, fun hg => ?_⟩
  obtain ⟨-, -, hr⟩ := combine_ok.mp h
  have hi : q.inputs = combineZip Input.combine p.inputs o.inputs := by rw [hr]
  have hu : q.outputs = combineZip Output.combine p.outputs o.outputs := by rw [hr]
  have hpr : q.proprietary = p.proprietary.extend o.proprietary := by rw [hr]
  refine ⟨hg, fun x hx => ((merged_global h).1 x hx).elim (hp.pairs x) (ho.pairs x), ?_, ?_, ?_, ?_, ?_, ?_, ?_⟩
  · rw [hi]
    exact mem_combineZip (P := fun i => ∀ x ∈ Input.getPairs i, Spec.PairOk x)
      (fun a b ha hb x hx => ((merged_input a b).1 x hx).elim (ha x) (hb x)) hp.inputs ho.inputs
  · rw [hu]
    exact mem_combineZip (P := fun i => ∀ x ∈ Output.getPairs i, Spec.PairOk x)
      (fun a b ha hb x hx => ((merged_output a b).1 x hx).elim (ha x) (hb x)) hp.outputs ho.outputs
  · rw [hpr]
    exact fun k v h => (V2.extend_some h).elim (hp.globalProps k v) (ho.globalProps k v)
  · rw [hi]
    exact mem_combineZip (P := fun i => ∀ k v, (Input.proprietary i).get k = some v → Spec.PropOk k)
      (fun a b ha hb k v h => (V2.extend_some h).elim (ha k v) (hb k v)) hp.inputProps ho.inputProps
  · rw [hu]
    exact mem_combineZip (P := fun i => ∀ k v, (Output.proprietary i).get k = some v → Spec.PropOk k)
      (fun a b ha hb k v h => (V2.extend_some h).elim (ha k v) (hb k v)) hp.outputProps ho.outputProps
  · rw [hi, combineZip_length]; exact hp.inputMem
  · rw [hu, combineZip_length]; exact hp.outputMem

/-- C82. No call changes the transaction, or the numbers of the maps, whatever it does and whether it succeeds or not. -/
theorem C82_transaction_kept {p o q : Psbt L} (h : Call S M U p o q) :
    q.unsignedTx = p.unsignedTx ∧ q.inputs.length = p.inputs.length ∧ q.outputs.length = p.outputs.length := by
  refine call_keeps (P := fun q => q.unsignedTx = p.unsignedTx ∧ q.inputs.length = p.inputs.length ∧ q.outputs.length = p.outputs.length)
    h ⟨rfl, rfl, rfl⟩ ?_ ?_ ?_ ?_ ?_ ?_ ?_ ?_
  · intro p n j hp _; exact ⟨hp.1, (List.length_set ..).trans hp.2.1, hp.2.2⟩
  · intro p n j hp _; exact ⟨hp.1, hp.2.1, (List.length_set ..).trans hp.2.2⟩
  · intro p x pr u hp _; exact hp
  · intro p n i f hp _; exact ⟨hp.1, (List.length_set ..).trans hp.2.1, hp.2.2⟩
  · intro p n i f hp _; exact ⟨hp.1, hp.2.1, (List.length_set ..).trans hp.2.2⟩
  · intro p k q r hp h
    have hl := length_congr (C50_frame h)
    rw [sign_global h]
    exact ⟨hp.1, hl.trans hp.2.1, hp.2.2⟩
  · intro q r h
    cases r with
    | ok u =>
      obtain ⟨-, -, hr⟩ := combine_ok.mp h
      rw [hr]
      exact ⟨rfl, combineZip_length .., combineZip_length ..⟩
    | error e => rw [C48_failure_frame h]; exact ⟨rfl, rfl, rfl⟩
  · intro p n i s w hp _; exact ⟨hp.1, (List.length_set ..).trans hp.2.1, hp.2.2⟩

/-- C82. However many calls there are, the transaction to be signed stays the same. -/
theorem C82_history {p q : Psbt L} (h : History S M U p q) :
    q.unsignedTx = p.unsignedTx ∧ q.inputs.length = p.inputs.length ∧ q.outputs.length = p.outputs.length := by
  induction h with
  | refl => exact ⟨rfl, rfl, rfl⟩
  | step _ h ih =>
    obtain ⟨h1, h2, h3⟩ := C82_transaction_kept h
    exact ⟨h1.trans ih.1, h2.trans ih.2.1, h3.trans ih.2.2⟩

theorem fillInputs_map (ts : List TxIn) (is : List (Input L)) :
    (fillInputs ts is).map (fun i => (i.previousOutput, i.sequence)) = ts.map fun i => (i.previousOutput, i.sequence) := by
  induction ts generalizing is with
  | nil => cases is <;> rfl
  | cons t ts ih => cases is <;> simp [fillInputs, ih]

/-- C82, from end to end. A PSBT is made from a transaction, goes through any number of calls, combining with anything; whatever
transaction is extracted from it in the end, in whichever way, spends and pays what the first transaction does. -/
theorem C82_end_to_end {tx : Tx} {p q : Psbt L} (hc : Psbt.fromUnsignedTx L tx = .ok p) (h : History S M U p q) :
    (∀ t, q.extract M = .ok t → SameSpend t tx) ∧ SameSpend q.extractUnchecked tx ∧
    (∀ t, q.extractTx = .ok t → SameSpend t tx) ∧ ∀ max t, q.extractWithLimit max = .ok t → SameSpend t tx := by
  obtain ⟨e1, e2, -⟩ := C82_history h
  have hp : p.unsignedTx = tx := by
    unfold Psbt.fromUnsignedTx at hc
    rw [bind_ok] at hc
    obtain ⟨u, -, hc⟩ := hc
    cases hc; rfl
  rw [hp] at e1
  have hu : SameSpend q.extractUnchecked tx := by
    rw [← e1]
    exact ⟨rfl, rfl, rfl, fillInputs_map ..⟩
  have hw : ∀ max t, q.extractWithLimit max = .ok t → SameSpend t tx := fun max t ht => by
    rw [((C49_with_limit_iff ..).mp ht).1]; exact hu
  refine ⟨fun t ht => ?_, hu, fun t ht => hw _ _ ht, hw⟩
  obtain ⟨hl, -, -, -, h1, h2, h3, h4, h5⟩ := extract_ok.mp ht
  rw [e1] at h1 h2 h3
  refine ⟨h1, h2, h3, List.ext_getElem? fun n => ?_⟩
  rw [← e1, List.getElem?_map, List.getElem?_map]
  cases hs : t.input[n]? with
  | none => rw [List.getElem?_eq_none_iff.mpr (by rw [← h4]; exact List.getElem?_eq_none_iff.mp hs)]
  | some s =>
    have hn : n < q.unsignedTx.input.length := by rw [← h4]; exact (List.getElem?_eq_some_iff.mp hs).1
    obtain ⟨x, hx⟩ : ∃ x, q.unsignedTx.input[n]? = some x := ⟨_, List.getElem?_eq_getElem hn⟩
    obtain ⟨i, hi⟩ : ∃ i, q.inputs[n]? = some i := ⟨_, List.getElem?_eq_getElem (by rw [hl]; exact hn)⟩
    obtain ⟨f1, f2, -⟩ := h5 n x i s ⟨hx, hi⟩ hs
    rw [hx]
    simp only [Option.map_some, f1, f2]

/-- C82, for users of segwit: if no input needs a script, the transaction identifier is known from the beginning. -/
theorem C82_txid {t u : Tx} (h : SameSpend t u) (ht : ∀ i ∈ t.input, i.scriptSig = []) (hu : ∀ i ∈ u.input, i.scriptSig = []) :
    Spec.txid L t = Spec.txid L u := by
  obtain ⟨h1, h2, h3, h4⟩ := h
  have e : encList encTxIn t.input = encList encTxIn u.input := by
    have hl : t.input.length = u.input.length := by have := congrArg List.length h4; simpa using this
    have hf : ∀ {l : List TxIn}, (∀ i ∈ l, i.scriptSig = []) → l.flatMap encTxIn =
        (l.map fun i => (i.previousOutput, i.sequence)).flatMap fun x => encOutPoint x.1 ++ encVec [] ++ encU32 x.2 := by
      intro l hl
      induction l with
      | nil => rfl
      | cons a l ih =>
        rw [List.map_cons, List.flatMap_cons, List.flatMap_cons, ih fun i hi => hl i (List.mem_cons_of_mem _ hi)]
        simp only [encTxIn, hl a List.mem_cons_self]
    unfold encList
    rw [hl, hf ht, hf hu, h4]
  unfold Spec.txid
  rw [unsignedTxBytes_fun]
  unfold encTxLegacy
  rw [h1, h2, h3, e]

section Examples
/-- A PSBT with an unknown pair in the global map; two of these combined. -/
def hoP (t : UInt8) (v : Bytes) : Psbt DL := { cP cI cI with unknown := BMap.empty.insert ⟨t, [1]⟩ v }
def hoC (v : Bytes) : Psbt DL := ((hoP 0x20 v).combine (hoP 0x21 v)).1
theorem hoC_ok (v : Bytes) : (hoP 0x20 v).combine (hoP 0x21 v) = (hoC v, .ok ()) := rfl
theorem hoP_pairs (t : UInt8) (v : Bytes) :
    (hoP t v).getPairs = [bare PSBT_GLOBAL_UNSIGNED_TX (encTxLegacy demoTx), ⟨⟨t, [1]⟩, v⟩] := rfl
theorem hoC_pairs (v : Bytes) :
    (hoC v).getPairs = [bare PSBT_GLOBAL_UNSIGNED_TX (encTxLegacy demoTx), ⟨⟨0x20, [1]⟩, v⟩, ⟨⟨0x21, [1]⟩, v⟩] := rfl
theorem hoP_wf : Spec.V0.WF (cP cI cI) := wf_of_deserialize (b := (cP cI cI).serialize) (by decide +kernel)
theorem hoP_limits {v : Bytes} (h : v.length = 2000000) (t : UInt8) : WithinLimits (hoP t v) := by
  have hw := (wf_iff_handSound.mp hoP_wf).2
  refine { hw with global := ?_, pairs := ?_ }
  · rw [hoP_pairs]
    have e : (encTxLegacy demoTx).length < 1000 := by decide
    simp only [List.flatMap_cons, List.flatMap_nil, List.append_nil, Spec.pairBytes, bare, compact_fun, List.length_append, encVar_length,
      List.length_nil, List.length_cons, h]
    repeat' split
    all_goals omega
  · rw [hoP_pairs]
    intro q hq
    simp only [List.mem_cons, List.not_mem_nil, or_false] at hq
    rcases hq with rfl | rfl
    · decide
    · refine ⟨?_, ?_⟩
      · show 1 ≤ Spec.MAX_KEY
        decide
      · simp only [h]
        decide
theorem hoP_reachable (U : UpdLib DL) (t : UInt8) (ht : t ∉ globalTypes) (v : Bytes) : Reachable gS V2.FM U (hoP t v) := by
  refine .call (p := cP cI cI) (.received (b := (cP cI cI).serialize) (by decide +kernel))
    (.received (p := cP cI cI) (b := (cP cI cI).serialize) (by decide +kernel)) (.setGlobal _ _ ?_)
  intro k w h
  rw [BMap.get_insert] at h
  split at h
  · rename_i e; rw [e]; exact ht
  · exact (V2.BMap.get_empty_ne h).elim
end Examples

/-- C81 fails for combining: two PSBTs that are read back can be combined to one that is not, because its global map is larger
than the crate's own reader allows. -/
theorem C81_combine_counterexample (U : UpdLib DL) : ∃ p o q : Psbt DL, Reachable gS V2.FM U p ∧ Reachable gS V2.FM U o ∧
    Psbt.deserialize DL p.serialize = .ok p ∧ Psbt.deserialize DL o.serialize = .ok o ∧ p.combine o = (q, .ok ()) ∧
    Psbt.deserialize DL q.serialize ≠ .ok q := by
  have hv : (List.replicate 2000000 (0 : UInt8)).length = 2000000 := List.length_replicate
  generalize List.replicate 2000000 (0 : UInt8) = v at hv
  have r1 := hoP_reachable U 0x20 (by decide) v
  have r2 := hoP_reachable U 0x21 (by decide) v
  refine ⟨_, _, _, r1, r2, (C81_hand_over_iff r1).mpr (hoP_limits hv _), (C81_hand_over_iff r2).mpr (hoP_limits hv _), hoC_ok v, ?_⟩
  intro h
  have := ((C81_hand_over_iff (.call r1 r2 (.combine (hoC_ok v)))).mp h).global
  rw [hoC_pairs] at this
  simp only [List.flatMap_cons, List.flatMap_nil, List.append_nil, Spec.pairBytes, bare, compact_fun, List.length_append,
    List.length_nil, List.length_cons, hv] at this
  omega

/-- The libraries of the examples meet the hypotheses of `C81_sign_limits`. -/
example : Spec.SmallKeys gS ∧ ∀ x : gL.xonly.T, x.bytes.length ≤ 32 :=
  ⟨V2.ho_small, fun x => by
    have := x.ok
    simp only [gL, Demo.lib, Demo.fixed] at this
    split at this
    · rename_i h; exact Nat.le_of_eq (by simpa using h)
    · cases this⟩

/-- A history: created, filled in, signed, combined, finalized. -/
def ho0 : Psbt gL := match Psbt.fromUnsignedTx gL (gP [zKeyed]).unsignedTx with | .ok p => p | .error _ => gP []
def ho1 : Psbt gL := withInput ho0 0 (gEcdsa (gIn V2.fSpk))
def hoFilled : InputSound (gEcdsa (gIn V2.fSpk)) := ⟨fun _ _ h => (V2.BMap.get_empty_ne h).elim,
    fun _ _ h => (V2.BMap.get_empty_ne h).elim, fun _ _ h => (V2.BMap.get_empty_ne h).elim, fun _ _ h => (V2.BMap.get_empty_ne h).elim,
    fun _ _ h => (V2.BMap.get_empty_ne h).elim⟩
example : ∃ q, Reachable gS V2.FM uLib q ∧ q.inputs.map (fun i => i.finalScriptWitness.isSome) = [true] ∧ Psbt.deserialize gL q.serialize = .ok q := by
  have h0 : Reachable gS V2.FM uLib ho0 := .created (tx := (gP [zKeyed]).unsignedTx) rfl
  have h1 : Reachable gS V2.FM uLib ho1 := .call h0 h0 (.setInput 0 hoFilled)
  have h2 : Reachable gS V2.FM uLib (gQ ho1) := .call h1 h1 (.sign (k := gKeys) (r := gR ho1) rfl)
  have h3 : Reachable gS V2.FM uLib (ho1.combine (gQ ho1)).1 := .call h1 h2 (.combine rfl)
  have h4 : Reachable gS V2.FM uLib (zOne (ho1.combine (gQ ho1)).1 0) :=
    .call h3 h3 (.finalizeInp (n := 0) (V2.ok!_eq (d := ho1) (by decide +kernel)))
  exact ⟨_, h4, by decide +kernel, by decide +kernel⟩
-- The same as a history that ends in an extracted transaction.
example : ∃ q t, Psbt.fromUnsignedTx gL (gP [zKeyed]).unsignedTx = .ok ho0 ∧ History gS V2.FM uLib ho0 q ∧ q.extractTx = .ok t ∧
    t.input.map (fun i => i.witness.length) = [2] := by
  have h : History gS V2.FM uLib ho0 (zOne (ho1.combine (gQ ho1)).1 0) :=
    .step (o := ho1) (.step (o := gQ ho1) (.step (o := ho0) .refl (.setInput 0 hoFilled)) (.combine rfl))
      (.finalizeInp (n := 0) (V2.ok!_eq (d := ho1) (by decide +kernel)))
  exact ⟨_, (zOne (ho1.combine (gQ ho1)).1 0).extractUnchecked, rfl, h, by decide +kernel, by decide +kernel⟩

end Psbt.V0
