/- C80: a PSBT v2 can be handed over between the roles, as bytes, at any time. -/
import Verif.Lemmas.HandOver
import Verif.Spec.DemoSig
namespace Psbt.V2
open Psbt

variable {L : Lib} {S : SigLib L} {M : MsLib L}

theorem Sound.reachable (hS : Spec.SmallKeys S) {p : Psbt L} (h : Spec.Reachable S M p) : Sound p := by
  induction h with
  | received h => exact (wf_iff_sound.mp (wf_of_deserialize h)).1
  | new => exact ⟨GlobalWF.new, fun _ h => (List.not_mem_nil h).elim, fun _ h => (List.not_mem_nil h).elim, rfl, rfl⟩
  | fallbackLockTime n _ ih => exact ih.setGlobal _ (some n) _
  | sighashSingle _ ih => exact ih.setGlobal _ _ _
  | inputsModifiable _ ih => exact ih.setGlobal _ _ _
  | outputsModifiable _ ih => exact ih.setGlobal _ _ _
  | transactionVersion v _ ih => exact ih.setGlobal v _ _
  | constructorModifiable _ ih => exact ih.setGlobal _ _ _
  | constructorInputsOnly _ ih => exact ih.setGlobal _ _ _
  | constructorOutputsOnly _ ih => exact ih.setGlobal _ _ _
  | @constructorNew m p q _ e ih =>
    obtain ⟨h1, h2, h3⟩ := C20_constructor_new_iff p q
    cases m with
    | modifiable => rw [(h1.mp e).2.2]; exact ih
    | inputsOnly => rw [(h2.mp e).2]; exact ih
    | outputsOnly => rw [(h3.mp e).2]; exact ih
  | input _ hi e ih => exact ih.input hi e
  | output _ ho e ih => exact ih.output ho e
  | noMoreInputs _ ih => exact ih.setGlobal _ _ _
  | noMoreOutputs _ ih => exact ih.setGlobal _ _ _
  | constructorPsbt _ e ih => rw [(ctorPsbt_ok e).1]; exact ih
  | updater _ e ih =>
    rw [(updater_ok e).1]
    exact (ih.setGlobal _ _ _).setGlobal _ _ _
  | updaterNew _ e ih => rw [(updaterNew_ok e).1]; exact ih
  | @setSequence p q n k _ e ih =>
    obtain ⟨-, i, hi, rfl⟩ := setSequence_ok e
    refine ⟨ih.global, fun j hj => ?_, ih.outputs, ?_, ih.outputCount⟩
    · rcases List.mem_or_eq_of_mem_set hj with h | rfl
      · exact ih.inputs j h
      · exact InputWF.sequence (ih.inputs _ (List.mem_of_getElem? hi)) n
    · rw [List.length_set]; exact ih.inputCount
  | signerNew _ e ih => rw [(signerNew_ok e).1]; exact ih
  | sign _ e ih => exact ih.sign hS e
  | combine _ _ e ih1 ih2 => exact Sound.combine e ih1 ih2
  | finalizerNew _ e ih => rw [((C41_new_iff _ _).mp e).1]; exact ih
  | finalize _ e1 e2 hf ih =>
    have := ((C41_new_iff _ _).mp e1).1
    subst this
    exact ih.finalize e1 e2 hf

/-- C80, for added inputs and outputs which the format can carry. Whatever roles have worked on a PSBT and in whatever order,
its bytes are read back as exactly that PSBT: at any moment it may be serialised, passed on, and continued with. -/
theorem C80_hand_over_partial (hS : Spec.SmallKeys S) {p : Psbt L} (h : Spec.Reachable S M p) (hm : Spec.Fits p) :
    Psbt.deserialize L p.serialize = .ok p :=
  (C06_roundtrip_iff p).mpr (wf_iff_sound.mpr ⟨Sound.reachable hS h, hm⟩)

/-- C80. What the input builder makes can be carried, whatever the calls, if the outpoint is not that of a coinbase. -/
theorem C80_input_builder {o : OutPoint} (h1 : o.txid.1 ≠ List.replicate 32 0) (h2 : o.vout ≠ 0xFFFFFFFF) {b : InputBuilder L}
    (h : Spec.InputBuilt o b) : Spec.InputWF b.build ∧ b.build.outPoint = o := by
  induction h with
  | new => exact ⟨InputWF.new h1 h2, rfl⟩
  | minTime t _ ih => exact ⟨InputWF.minTime ih.1 t, ih.2⟩
  | minHeight t _ ih => exact ⟨InputWF.minHeight ih.1 t, ih.2⟩
  | segwitFund _ hl ih => exact ⟨InputWF.witnessUtxo ih.1 (txOutBytes_fun ▸ hl), ih.2⟩
  | legacyFund _ hl ih => exact ⟨InputWF.nonWitnessUtxo ih.1 (txBytes_fun ▸ hl), ih.2⟩

/-- C80. Exactly which new outputs can be carried: the amount must not be zero, and without silent payments the script must
not be empty. -/
theorem C80_new_output_iff (o : TxOut) : Spec.OutputWF (Output.new L o) ↔
    o.value ≠ 0 ∧ (L.sp = false → o.scriptPubkey ≠ []) ∧ o.scriptPubkey.length ≤ Spec.MAX_VALUE := by
  constructor
  · intro h
    exact ⟨h.amount, h.script, (h.sizes (bare PSBT_OUT_SCRIPT o.scriptPubkey) (List.mem_flatten.mpr
      ⟨_, List.mem_cons_of_mem _ List.mem_cons_self, List.mem_singleton.mpr rfl⟩)).2⟩
  · rintro ⟨h1, h2, h3⟩
    refine ⟨h1, h2, ?_, fun _ _ h => (BMap.get_empty_ne h).elim, fun _ _ h => (BMap.get_empty_ne h).elim,
      fun _ h => by (cases h), fun _ => ⟨rfl, rfl⟩, fun _ h => (h rfl).elim⟩
    have e : (Output.new L o).getPairs =
        [bare PSBT_OUT_AMOUNT (amountCodec.ser o.value), bare PSBT_OUT_SCRIPT o.scriptPubkey] := by
      unfold Output.getPairs Output.new emitSpInfo emitSpLabel
      cases L.sp <;> rfl
    rw [e]
    intro q hq
    simp only [List.mem_cons, List.not_mem_nil, or_false] at hq
    rcases hq with rfl | rfl
    · exact bare_ok (v := amountCodec.ser o.value) (by
        show (encU64 o.value).length ≤ 9
        exact Nat.le_of_lt (by simp [encU64])) _ (List.mem_singleton.mpr rfl)
    · exact ⟨by simp [bare, Spec.MAX_KEY], h3⟩

/-- C80 fails: an output of amount zero, as every OP_RETURN output is, can be added to any PSBT, but the result is never read
back. Likewise an output without script when silent payments are off, and an input spending the outpoint of a coinbase. -/
theorem C80_not_carried {p q : Psbt L} {o : Output L} {i : Input L} :
    (Constructor.output p o = .ok q → o.amount = 0 ∨ L.sp = false ∧ o.scriptPubkey = [] → Psbt.deserialize L q.serialize ≠ .ok q) ∧
    (Constructor.input p i = .ok q → i.previousTxid.1 = List.replicate 32 0 ∨ i.spentOutputIndex = 0xFFFFFFFF →
      Psbt.deserialize L q.serialize ≠ .ok q) := by
  constructor
  · intro h ho e
    have hw := (C06_roundtrip_iff q).mp e
    unfold Constructor.output at h
    rw [bind_ok] at h
    obtain ⟨n, -, h⟩ := h
    cases h
    have := hw.outputs o (List.mem_append_right _ (List.mem_singleton.mpr rfl))
    rcases ho with h | ⟨h1, h2⟩
    · exact this.amount h
    · exact this.script h1 h2
  · intro h ho e
    have hw := (C06_roundtrip_iff q).mp e
    unfold Constructor.input at h
    rw [bind_ok] at h
    obtain ⟨n, -, h⟩ := h
    cases h
    have := hw.inputs i (List.mem_append_right _ (List.mem_singleton.mpr rfl))
    rcases ho with h | h
    · exact this.txid h
    · exact this.vout h

section Examples
/-- The outpoint and the builder call for an input that pays to the key of `fKey`. -/
def hoIn : Input EL := ((InputBuilder.new EL ⟨Demo.rep 32 1, 0⟩).segwitFund ⟨5, fSpk⟩).build
def hoOut : Output EL := Output.new EL ⟨3, [0x51]⟩
def ok! {ε α : Type} (d : α) : Except ε α → α | .ok a => a | .error _ => d
theorem ok!_eq {ε α : Type} {d : α} {x : Except ε α} (h : x.isOk = true) : x = .ok (ok! d x) := by
  cases x with
  | ok a => rfl
  | error e => cases h
/-- Creator, constructor and updater. -/
def ho1 : Psbt EL := Creator.constructorModifiable (Creator.fallbackLockTime (Creator.new EL) 7)
def ho2 : Psbt EL := ok! ho1 (Constructor.input ho1 hoIn)
def ho3 : Psbt EL := ok! ho2 (Constructor.output ho2 hoOut)
def ho4 : Psbt EL := ok! ho3 (Constructor.updater ho3)
def ho5 : Psbt EL := ok! ho4 (Updater.setSequence ho4 9 0)
/-- A copy that came back by mail with the key origin added, signed; combined with our own. -/
def ho6 : Psbt EL := { ho5 with inputs := ho5.inputs.map fun i => { i with bip32Derivations := sOrigin } }
def ho7 : Psbt EL × Except (BMap Nat (List EL.pubkey.T) × BMap Nat SignErr) (BMap Nat (List EL.pubkey.T)) :=
  ok! (ho6, .ok .empty) (ho6.sign SS (sTx ho6) sKeys)
def ho8 : Psbt EL := ok! ho5 (ho5.combine ho7.1)

theorem ho_small : Spec.SmallKeys SS := fun sk => ⟨by
  show (List.replicate 33 sk).length ≤ 65
  simp, fun m => by
  show ((Demo.pad 7 m.1).1 ++ [(show UInt8 from sk)]).length ≤ 72
  rw [List.length_append, (Demo.pad 7 m.1).2]; exact Nat.le_of_ble_eq_true rfl⟩
theorem ho_reachable : Spec.Reachable SS FM ho5 :=
  .setSequence (n := 9) (k := 0) (p := ho4)
    (.updater (p := ho3)
      (.output (p := ho2) (o := hoOut)
        (.input (p := ho1) (i := hoIn) (.constructorModifiable (.fallbackLockTime 7 .new))
          (C80_input_builder (by decide) (by decide) (.segwitFund .new (by decide +kernel))).1 rfl)
        ((C80_new_output_iff _).mpr ⟨by decide, fun _ => by decide, by decide⟩) rfl) rfl) rfl
/-- A history through all the roles: creator, constructor, updater, signer, combiner. -/
theorem ho_reachable_signed : Spec.Reachable SS FM ho8 :=
  .combine ho_reachable (.sign (p := ho6) (q := ho7.1) (tx := sTx ho6) (k := sKeys) (r := ho7.2)
    (.received (b := ho6.serialize) (by decide +kernel)) (ok!_eq (d := (ho6, .ok .empty)) (by decide +kernel))) (ok!_eq (by decide +kernel))
/-- … and finalizer. -/
example : Spec.Reachable SS FM (fDone ho8) :=
  .finalize (f := ho8) (debug := true) ho_reachable_signed (by decide +kernel) (by decide +kernel) (by
    unfold Spec.SmallFinal
    decide +kernel)
example : (fDone ho8).isFinalized = true ∧ Spec.Fits (fDone ho8) := by unfold Spec.Fits; decide +kernel
-- An output of amount zero is accepted; its bytes are rejected.
example : ∃ q, Constructor.output ho2 (Output.new EL ⟨0, [0x6a]⟩) = .ok q ∧ Psbt.deserialize EL q.serialize ≠ .ok q :=
  ⟨_, rfl, (C80_not_carried (p := ho2) (o := Output.new EL ⟨0, [0x6a]⟩) (i := hoIn)).1 rfl (.inl rfl)⟩
end Examples

end Psbt.V2
