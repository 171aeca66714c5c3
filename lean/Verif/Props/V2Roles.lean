/- C19-C23, C57, C58: roles, unsigned transaction, unique id. -/
import Verif.Lemmas.Encoding
import Verif.Spec.Hash
import Verif.Props.V2LockTime
import Verif.Spec.Roles
import Verif.Lemmas.Kinds
namespace Psbt.V2
open Psbt

variable {L : Lib}

/-! ### C19 -/

theorem addOne_ok {n m : UInt64} (h : addOne n = .ok m) : m.toNat = n.toNat + 1 := by
  unfold addOne at h
  split at h
  · rename_i hlt
    cases h
    rw [UInt64.toNat_add]
    exact Nat.mod_eq_of_lt (by simpa using hlt)
  · cases h

theorem input_ok {p q : Psbt L} {i : Input L} (h : Constructor.input p i = .ok q) :
    q.inputs = p.inputs ++ [i] ∧ q.outputs = p.outputs ∧ q.global.inputCount.toNat = p.global.inputCount.toNat + 1 ∧
    q.global = { p.global with inputCount := q.global.inputCount } := by
  unfold Constructor.input at h
  rw [bind_ok] at h
  obtain ⟨n, h1, h2⟩ := h
  cases h2
  exact ⟨rfl, rfl, addOne_ok h1, rfl⟩

theorem output_ok {p q : Psbt L} {o : Output L} (h : Constructor.output p o = .ok q) :
    q.outputs = p.outputs ++ [o] ∧ q.inputs = p.inputs ∧ q.global.outputCount.toNat = p.global.outputCount.toNat + 1 ∧
    q.global = { p.global with outputCount := q.global.outputCount } := by
  unfold Constructor.output at h
  rw [bind_ok] at h
  obtain ⟨n, h1, h2⟩ := h
  cases h2
  exact ⟨rfl, rfl, addOne_ok h1, rfl⟩

theorem ctorNew_ok {m : Mod} {p q : Psbt L} (h : Constructor.new m p = .ok q) : q = p := by
  unfold Constructor.new at h
  cases m <;> simp only at h <;> (repeat' split at h) <;> first | (cases h; done) | (cases h; rfl)

theorem ctorPsbt_ok {p q : Psbt L} (h : Constructor.psbt p = .ok q) : q = p ∧ ∃ n, p.determineLockTime = .ok n := by
  unfold Constructor.psbt at h
  rw [bind_ok] at h
  obtain ⟨n, h1, h2⟩ := h
  cases h2
  exact ⟨rfl, n, h1⟩

theorem updaterNew_ok {p q : Psbt L} (h : Updater.new p = .ok q) : q = p ∧ ∃ n, p.determineLockTime = .ok n := ctorPsbt_ok h
theorem signerNew_ok {p q : Psbt L} (h : Signer.new p = .ok q) : q = p ∧ ∃ n, p.determineLockTime = .ok n := ctorPsbt_ok h
theorem updater_ok {p q : Psbt L} (h : Constructor.updater p = .ok q) :
    q = Constructor.noMoreOutputs (Constructor.noMoreInputs p) ∧ ∃ n, q.determineLockTime = .ok n := by
  obtain ⟨rfl, h2⟩ := ctorPsbt_ok h
  exact ⟨rfl, h2⟩

/-- C19. Whatever the sequence of calls, the PSBT holds exactly the inputs and outputs that were added, in order, and
the counts are their numbers. -/
theorem C19_counts {h : Spec.Holds} {p : Psbt L} {is : List (Input L)} {os : List (Output L)} (hb : Spec.Built h p is os) :
    p.inputs = is ∧ p.outputs = os ∧ p.global.inputCount.toNat = is.length ∧ p.global.outputCount.toNat = os.length := by
  induction hb with
  | new => exact ⟨rfl, rfl, rfl, rfl⟩
  | fallbackLockTime n _ ih => exact ih
  | sighashSingle _ ih => exact ih
  | inputsModifiable _ ih => exact ih
  | outputsModifiable _ ih => exact ih
  | transactionVersion v _ ih => exact ih
  | creatorPsbt _ ih => exact ih
  | constructorModifiable _ ih => exact ih
  | constructorInputsOnly _ ih => exact ih
  | constructorOutputsOnly _ ih => exact ih
  | constructorNew _ e ih => rw [ctorNew_ok e]; exact ih
  | input _ _ e ih =>
    obtain ⟨h1, h2, h3, h4⟩ := input_ok e
    rw [h1, h2, h3, h4]
    exact ⟨by rw [ih.1], ih.2.1, by simp [ih.2.2.1], ih.2.2.2⟩
  | output _ _ e ih =>
    obtain ⟨h1, h2, h3, h4⟩ := output_ok e
    rw [h1, h2, h3, h4]
    exact ⟨ih.1, by rw [ih.2.1], ih.2.2.1, by simp [ih.2.2.2]⟩
  | noMoreInputs _ ih => exact ih
  | noMoreOutputs _ ih => exact ih
  | constructorPsbt _ e ih => rw [(ctorPsbt_ok e).1]; exact ih
  | updater _ e ih => rw [(updater_ok e).1]; exact ih
  | updaterNew _ e ih => rw [(updaterNew_ok e).1]; exact ih
  | signerNew _ e ih => rw [(signerNew_ok e).1]; exact ih

/-- C19. Adding an input or output to a PSBT built this way never fails, as long as the number of inputs or outputs
fits a machine word (it always does: they are in memory). -/
theorem C19_adding_never_fails {h : Spec.Holds} {p : Psbt L} {is : List (Input L)} {os : List (Output L)}
    (hb : Spec.Built h p is os) :
    (∀ i, is.length + 1 < 2 ^ 64 → ∃ q, Constructor.input p i = .ok q) ∧
    (∀ o, os.length + 1 < 2 ^ 64 → ∃ q, Constructor.output p o = .ok q) := by
  obtain ⟨-, -, h1, h2⟩ := C19_counts hb
  constructor
  · intro i hl
    unfold Constructor.input addOne
    rw [h1, if_pos hl]
    exact ⟨_, rfl⟩
  · intro o hl
    unfold Constructor.output addOne
    rw [h2, if_pos hl]
    exact ⟨_, rfl⟩

/-- A history with two inputs and an output. -/
example : ∃ p, Spec.Built (L := Demo.lib false) .psbt p [ltInput none none, ltInput (some t1) none]
    [Output.new _ ⟨5, [0x51]⟩] := by
  refine ⟨_, .constructorPsbt (m := .modifiable) (.output (by decide) (.input (by decide)
    (.input (is := []) (by decide) (.constructorModifiable (.fallbackLockTime 7 .new)) rfl) rfl) rfl) rfl⟩

/-! ### C20 -/

theorem bit_of_fin {P : UInt8 → Nat → Prop} (h : ∀ n : Fin 256, ∀ k : Fin 8, P (UInt8.ofFin n) k.1) (f : UInt8) (k : Nat)
    (hk : k < 8) : P f k := forall_u8 (P := fun f => P f k) (fun n => h n ⟨k, hk⟩) f

theorem testBit_big (f : UInt8) (k : Nat) (hk : 8 ≤ k) : f.toNat.testBit k = false := by
  apply Nat.testBit_lt_two_pow
  calc f.toNat < 2 ^ 8 := f.toNat_lt
    _ ≤ 2 ^ k := Nat.pow_le_pow_right (by decide) hk

/-- The effect of the flag operations on the single bits. -/
theorem flag_ops (f : UInt8) (k : Nat) :
    ((f ||| INPUTS_MODIFIABLE).toNat.testBit k = (decide (k = 0) || f.toNat.testBit k)) ∧
    ((f ||| OUTPUTS_MODIFIABLE).toNat.testBit k = (decide (k = 1) || f.toNat.testBit k)) ∧
    ((f ||| SIGHASH_SINGLE).toNat.testBit k = (decide (k = 2) || f.toNat.testBit k)) ∧
    ((f &&& ~~~ INPUTS_MODIFIABLE).toNat.testBit k = (decide (k ≠ 0) && f.toNat.testBit k)) ∧
    ((f &&& ~~~ OUTPUTS_MODIFIABLE).toNat.testBit k = (decide (k ≠ 1) && f.toNat.testBit k)) := by
  by_cases hk : k < 8
  · refine bit_of_fin (P := fun f k =>
      ((f ||| INPUTS_MODIFIABLE).toNat.testBit k = (decide (k = 0) || f.toNat.testBit k)) ∧
      ((f ||| OUTPUTS_MODIFIABLE).toNat.testBit k = (decide (k = 1) || f.toNat.testBit k)) ∧
      ((f ||| SIGHASH_SINGLE).toNat.testBit k = (decide (k = 2) || f.toNat.testBit k)) ∧
      ((f &&& ~~~ INPUTS_MODIFIABLE).toNat.testBit k = (decide (k ≠ 0) && f.toNat.testBit k)) ∧
      ((f &&& ~~~ OUTPUTS_MODIFIABLE).toNat.testBit k = (decide (k ≠ 1) && f.toNat.testBit k))) ?_ f k hk
    decide +kernel
  · have : ∀ f : UInt8, f.toNat.testBit k = false := fun f => testBit_big f k (by omega)
    simp only [this]
    have h0 : k ≠ 0 := by omega
    have h1 : k ≠ 1 := by omega
    have h2 : k ≠ 2 := by omega
    simp [h0, h1, h2]

theorem flag_tests : ∀ f : UInt8, (decide (f &&& INPUTS_MODIFIABLE > 0) = f.toNat.testBit 0) ∧
    (decide (f &&& OUTPUTS_MODIFIABLE > 0) = f.toNat.testBit 1) ∧
    (decide (f &&& SIGHASH_SINGLE > 0) = f.toNat.testBit 2) := forall_u8 (by decide +kernel)

/-- C20. The test for the third flag, which nothing calls. -/
theorem C20_sighash_single (p : Psbt L) : p.global.hasSighashSingle = Spec.flag p 2 := (flag_tests p.global.txModifiableFlags).2.2

/-- C20. Which PSBTs each kind of constructor accepts; it leaves them as they are. -/
theorem C20_constructor_new_iff (p q : Psbt L) :
    (Constructor.new .modifiable p = .ok q ↔ Spec.flag p 0 = true ∧ Spec.flag p 1 = true ∧ q = p) ∧
    (Constructor.new .inputsOnly p = .ok q ↔ Spec.flag p 0 = true ∧ q = p) ∧
    (Constructor.new .outputsOnly p = .ok q ↔ Spec.flag p 1 = true ∧ q = p) := by
  obtain ⟨h1, h2, -⟩ := flag_tests p.global.txModifiableFlags
  simp only [Constructor.new, Global.isInputsModifiable, Global.isOutputsModifiable, h1, h2, Spec.flag]
  cases p.global.txModifiableFlags.toNat.testBit 0 <;> cases p.global.txModifiableFlags.toNat.testBit 1 <;>
    simp [eq_comm]

/-- C20. What the creator's choices do to the flags: exactly the named ones change. -/
theorem C20_creator_flags (p : Psbt L) (k : Nat) (n v : UInt32) :
    Spec.flag (Creator.new L) k = false ∧
    Spec.flag (Creator.inputsModifiable p) k = (decide (k = 0) || Spec.flag p k) ∧
    Spec.flag (Creator.outputsModifiable p) k = (decide (k = 1) || Spec.flag p k) ∧
    Spec.flag (Creator.sighashSingle p) k = (decide (k = 2) || Spec.flag p k) ∧
    Spec.flag (Creator.fallbackLockTime p n) k = Spec.flag p k ∧
    Spec.flag (Creator.transactionVersion p v) k = Spec.flag p k ∧
    Spec.flag (Creator.constructorModifiable p) k = (decide (k = 0 ∨ k = 1) || Spec.flag p k) ∧
    Spec.flag (Creator.constructorInputsOnly p) k = (decide (k = 0) || (decide (k ≠ 1) && Spec.flag p k)) ∧
    Spec.flag (Creator.constructorOutputsOnly p) k = (decide (k = 1) || (decide (k ≠ 0) && Spec.flag p k)) := by
  have h := fun f => flag_ops f k
  simp only [Spec.flag, Creator.new, Creator.inputsModifiable, Creator.outputsModifiable, Creator.sighashSingle,
    Creator.fallbackLockTime, Creator.transactionVersion, Creator.constructorModifiable, Creator.constructorInputsOnly,
    Creator.constructorOutputsOnly, Global.new, Global.setInputsModifiable, Global.setOutputsModifiable,
    Global.setSighashSingle, Global.clearInputsModifiable, Global.clearOutputsModifiable, (h _).1, (h _).2.1, (h _).2.2.1,
    (h _).2.2.2.1, (h _).2.2.2.2]
  refine ⟨by simp, trivial, trivial, trivial, trivial, trivial, ?_, ?_, ?_⟩
  all_goals
    cases p.global.txModifiableFlags.toNat.testBit k <;> by_cases h0 : k = 0 <;> by_cases h1 : k = 1 <;> simp_all

/-- C20. "No more inputs/outputs" clears exactly its own flag and changes nothing else. -/
theorem C20_no_more (p : Psbt L) (k : Nat) :
    Spec.flag (Constructor.noMoreInputs p) k = (decide (k ≠ 0) && Spec.flag p k) ∧
    Spec.flag (Constructor.noMoreOutputs p) k = (decide (k ≠ 1) && Spec.flag p k) ∧
    Constructor.noMoreInputs p =
      { p with global := { p.global with txModifiableFlags := (Constructor.noMoreInputs p).global.txModifiableFlags } } ∧
    Constructor.noMoreOutputs p =
      { p with global := { p.global with txModifiableFlags := (Constructor.noMoreOutputs p).global.txModifiableFlags } } :=
  ⟨(flag_ops _ k).2.2.2.1, (flag_ops _ k).2.2.2.2, rfl, rfl⟩

/-- C20. An updater obtained from a constructor has both modifiable flags cleared and the others, and everything else,
unchanged. -/
theorem C20_updater {p q : Psbt L} (h : Constructor.updater p = .ok q) :
    (∀ k, Spec.flag q k = (decide (k ≠ 0 ∧ k ≠ 1) && Spec.flag p k)) ∧
    q = { p with global := { p.global with txModifiableFlags := q.global.txModifiableFlags } } := by
  obtain ⟨rfl, -⟩ := updater_ok h
  refine ⟨fun k => ?_, rfl⟩
  rw [(C20_no_more _ k).2.1, (C20_no_more _ k).1]
  by_cases h0 : k = 0 <;> by_cases h1 : k = 1 <;> simp [h0, h1]

theorem flag_clearTx (p : Psbt L) (ty : UInt8) (k : Nat) :
    Spec.flag (p.clearTxModifiable ty) k =
      (if k = 0 then (ty == 0x81 || ty == 0x82 || ty == 0x83) && Spec.flag p k
       else if k = 1 then (ty == 0x02 || ty == 0x82) && Spec.flag p k
       else if k = 2 then (ty == 0x03 || ty == 0x83) || Spec.flag p k
       else Spec.flag p k) := by
  have h := fun f => flag_ops f k
  unfold Psbt.clearTxModifiable Spec.flag
  generalize p.global = g
  simp only
  generalize (ty == 0x81 || ty == 0x82 || ty == 0x83) = a
  generalize (ty == 0x02 || ty == 0x82) = b
  generalize (ty == 0x03 || ty == 0x83) = c
  cases a <;> cases b <;> cases c <;>
    simp only [Bool.not_true, Bool.not_false, if_true, Bool.false_eq_true, if_false, Global.clearInputsModifiable,
      Global.clearOutputsModifiable, Global.setSighashSingle, (h _).2.2.1, (h _).2.2.2.1, (h _).2.2.2.2] <;>
    clear h <;> generalize g.txModifiableFlags.toNat.testBit k = x <;>
    by_cases h0 : k = 0 <;> by_cases h1 : k = 1 <;> by_cases h2 : k = 2 <;>
    first | omega | simp [h0, h1, h2]

theorem setSequence_ok {p q : Psbt L} {n : UInt32} {k : Nat} (h : Updater.setSequence p n k = .ok q) :
    k < p.global.inputCount.toNat ∧ ∃ i, p.inputs[k]? = some i ∧
      q = { p with inputs := p.inputs.set k { i with sequence := some n } } := by
  unfold Updater.setSequence Psbt.checkedInput Psbt.checkInputIndex at h
  rw [bind_ok] at h
  obtain ⟨i, h1, h2⟩ := h
  rw [bind_ok] at h1
  obtain ⟨u, h3, h4⟩ := h1
  split at h3
  · cases h3
  · split at h3
    · cases h3
    · split at h4
      · rename_i e
        cases h4; cases h2
        exact ⟨by omega, i, e, rfl⟩
      · cases h4

/-- C20. After the creator, no sequence of calls ever sets a modifiable flag. -/
theorem C20_flags_only_cleared {p q : Psbt L} (h : Spec.Calls p q) (k : Nat) (hk : k < 2) (hq : Spec.flag q k = true) :
    Spec.flag p k = true := by
  induction h with
  | nil => exact hq
  | cons hc _ ih =>
    have := ih hq
    cases hc with
    | constructorNew e => rw [ctorNew_ok e] at this; exact this
    | input e => unfold Spec.flag at this ⊢; rw [(input_ok e).2.2.2] at this; exact this
    | output e => unfold Spec.flag at this ⊢; rw [(output_ok e).2.2.2] at this; exact this
    | noMoreInputs => rw [(C20_no_more _ k).1, Bool.and_eq_true] at this; exact this.2
    | noMoreOutputs => rw [(C20_no_more _ k).2.1, Bool.and_eq_true] at this; exact this.2
    | constructorPsbt e => rw [(ctorPsbt_ok e).1] at this; exact this
    | updater e => rw [(C20_updater e).1, Bool.and_eq_true] at this; exact this.2
    | updaterNew e => rw [(updaterNew_ok e).1] at this; exact this
    | setSequence e => obtain ⟨-, i, -, rfl⟩ := setSequence_ok e; exact this
    | signerNew e => rw [(signerNew_ok e).1] at this; exact this
    | clearTxModifiable =>
      rw [flag_clearTx] at this
      have hk' : k = 0 ∨ k = 1 := by omega
      rcases hk' with rfl | rfl <;> simp at this <;> exact this.2

example : ∃ p q : Psbt (Demo.lib false), Spec.Calls p q ∧ Spec.flag p 0 = true ∧ Spec.flag q 0 = false ∧ Spec.flag q 1 = true :=
  ⟨Creator.constructorModifiable (Creator.new _), _, .cons .noMoreInputs .nil, by decide, by decide, by decide⟩

/-! ### C21, C22, C23 -/

/-- The lock time depends only on the fallback and the inputs' requirements. -/
theorem lockTime_congr {p q : Psbt L} (h1 : p.global.fallbackLockTime = q.global.fallbackLockTime)
    (h2 : (p.inputs.map fun i => (i.minTime, i.minHeight)) = q.inputs.map fun i => (i.minTime, i.minHeight)) :
    p.determineLockTime = q.determineLockTime := by
  have key : ∀ r : Psbt L, r.determineLockTime =
      (let l := r.inputs.map fun i => (i.minTime, i.minHeight)
       if l.any (fun x => x.1.isSome && x.2.isNone) && l.any (fun x => x.2.isSome && x.1.isNone) then .error (.err .conflict)
       else if l.any (fun x => x.1.isSome || x.2.isSome) then
         if l.all (fun x => (x.2.isSome && x.1.isNone) || x.1.isSome && x.2.isSome || x.1.isNone && x.2.isNone) then
           match iterMax (l.map fun x => x.2.map Subtype.val) with
           | none => .error (.panic "we know we have at least one non-none min_height field")
           | some none => .error (.panic "so we know that max is non-none")
           | some (some h) => .ok h
         else
           match iterMax (l.map fun x => x.1.map Subtype.val) with
           | none => .error (.panic "we know we have at least one non-none min_height field")
           | some none => .error (.panic "so we know that max is non-none")
           | some (some t) => .ok t
       else .ok (r.global.fallbackLockTime.getD 0)) := by
    intro r
    simp only [List.any_map, List.all_map, List.map_map]
    rfl
  rw [key, key, h1, h2]

theorem unsignedTx_ok {p : Psbt L} {t : Tx} : p.unsignedTx = .ok t ↔
    ∃ n, p.determineLockTime = .ok n ∧ t = ⟨p.global.txVersion, n, p.inputs.map Input.unsignedTxIn, p.outputs.map Output.txOut⟩ := by
  unfold Psbt.unsignedTx
  rw [bind_ok]
  constructor
  · rintro ⟨n, h1, h2⟩; cases h2; exact ⟨n, h1, rfl⟩
  · rintro ⟨n, h1, rfl⟩; exact ⟨n, h1, rfl⟩

/-- C23. The unsigned transaction, field by field; it exists exactly if the lock time can be determined. -/
theorem C23_unsigned_tx (p : Psbt L) :
    (∀ t, p.unsignedTx = .ok t →
      t.version = p.global.txVersion ∧ Spec.LockTime p t.lockTime ∧
      (∀ k : Nat, t.input[k]? = p.inputs[k]?.map fun i =>
        { previousOutput := ⟨i.previousTxid, i.spentOutputIndex⟩, scriptSig := [], sequence := i.sequence.getD 0, witness := [] }) ∧
      (∀ k : Nat, t.output[k]? = p.outputs[k]?.map fun o => { value := o.amount, scriptPubkey := o.scriptPubkey })) ∧
    ((∃ t, p.unsignedTx = .ok t) ↔ ¬ Spec.Conflict p) := by
  constructor
  · intro t ht
    obtain ⟨n, h1, rfl⟩ := unsignedTx_ok.mp ht
    refine ⟨rfl, (C17_lock_time_iff p n).mp h1, fun k => ?_, fun k => ?_⟩
    · simp only [List.getElem?_map]; rfl
    · simp only [List.getElem?_map]; rfl
  · constructor
    · rintro ⟨t, ht⟩ hc
      obtain ⟨n, h1, -⟩ := unsignedTx_ok.mp ht
      rw [(C17_error_iff p .conflict).mpr hc] at h1
      cases h1
    · intro hc
      rcases lockTime_cases p with ⟨n, e, -⟩ | ⟨-, h⟩
      · exact ⟨_, unsignedTx_ok.mpr ⟨n, e, rfl⟩⟩
      · exact absurd h hc

example : ∃ t, (ltPsbt [ltInput none none, ltInput (some t1) none]).unsignedTx = .ok t ∧ t.input.length = 2 :=
  ⟨_, rfl, by decide⟩

theorem txid_fun : Spec.txid = txid := by
  funext L t
  exact txid_eq L t

theorem id_ok {p : Psbt L} {h : Hash32} : p.id = .ok h ↔
    ∃ n, p.determineLockTime = .ok n ∧
      h = txid L ⟨p.global.txVersion, n, p.inputs.map fun i => ⟨i.outPoint, [], 0, []⟩, p.outputs.map Output.txOut⟩ := by
  unfold Psbt.id
  rw [bind_ok]
  constructor
  · rintro ⟨t, h1, h2⟩
    obtain ⟨n, h3, rfl⟩ := unsignedTx_ok.mp h1
    cases h2
    refine ⟨n, h3, ?_⟩
    simp only [List.map_map]
    rfl
  · rintro ⟨n, h1, rfl⟩
    refine ⟨_, unsignedTx_ok.mpr ⟨n, h1, rfl⟩, ?_⟩
    simp only [List.map_map]
    rfl

/-- C21. The unique id is determined by the transaction version, the fallback lock time, each input's outpoint and
required lock times, and each output's amount and script. Nothing else in the PSBT influences it. -/
theorem C21_id_depends_only_on_transaction {p q : Psbt L}
    (hv : p.global.txVersion = q.global.txVersion) (hf : p.global.fallbackLockTime = q.global.fallbackLockTime)
    (hi : (p.inputs.map fun i => (i.previousTxid, i.spentOutputIndex, i.minTime, i.minHeight)) =
      q.inputs.map fun i => (i.previousTxid, i.spentOutputIndex, i.minTime, i.minHeight))
    (ho : (p.outputs.map fun o => (o.amount, o.scriptPubkey)) = q.outputs.map fun o => (o.amount, o.scriptPubkey)) :
    p.id = q.id := by
  have h1 : (p.inputs.map fun i => (i.minTime, i.minHeight)) = q.inputs.map fun i => (i.minTime, i.minHeight) := by
    have := congrArg (List.map fun x => x.2.2) hi
    simpa only [List.map_map, Function.comp_def] using this
  have h2 : (p.inputs.map fun i => (⟨i.outPoint, [], 0, []⟩ : TxIn)) = q.inputs.map fun i => ⟨i.outPoint, [], 0, []⟩ := by
    have := congrArg (List.map fun x => (⟨⟨x.1, x.2.1⟩, [], 0, []⟩ : TxIn)) hi
    simp only [List.map_map] at this
    exact this
  have h3 : p.outputs.map Output.txOut = q.outputs.map Output.txOut := by
    have := congrArg (List.map fun x => (⟨x.1, x.2⟩ : TxOut)) ho
    simp only [List.map_map] at this
    exact this
  have hl := lockTime_congr hf h1
  rcases lockTime_cases p with ⟨n, e, -⟩ | ⟨e, -⟩
  · rw [(id_ok (p := p)).mpr ⟨n, e, rfl⟩, (id_ok (p := q)).mpr ⟨n, hl ▸ e, rfl⟩, hv, h2, h3]
  · unfold Psbt.id Psbt.unsignedTx
    rw [← hl, e]
    rfl

/-- C21. Setting the sequence of input `k` succeeds exactly if `k` is in range of both the inputs and the input count,
and then changes only that input's sequence. -/
theorem C21_set_sequence_iff (p q : Psbt L) (n : UInt32) (k : Nat) :
    Updater.setSequence p n k = .ok q ↔
      k < p.inputs.length ∧ k < p.global.inputCount.toNat ∧ q.global = p.global ∧ q.outputs = p.outputs ∧
      ∀ j, q.inputs[j]? = p.inputs[j]?.map fun i => if j = k then { i with sequence := some n } else i := by
  constructor
  · intro h
    obtain ⟨h1, i, h2, rfl⟩ := setSequence_ok h
    obtain ⟨hlt, hget⟩ := List.getElem?_eq_some_iff.mp h2
    refine ⟨hlt, h1, rfl, rfl, fun j => ?_⟩
    simp only [List.getElem?_set]
    by_cases hj : k = j
    · subst hj; simp [hlt, hget]
    · have : ¬ j = k := fun h => hj h.symm
      simp [hj, this]
  · rintro ⟨h1, h2, h3, h4, h5⟩
    unfold Updater.setSequence Psbt.checkedInput Psbt.checkInputIndex
    rw [if_neg (by omega), if_neg (by omega)]
    have e : p.inputs[k]? = some p.inputs[k] := List.getElem?_eq_getElem h1
    simp only [orFail, mapErr, ok_bind, e]
    congr 1
    obtain ⟨g, is, os⟩ := q
    simp only at h3 h4 h5
    subst h3 h4
    congr 1
    apply List.ext_getElem?
    intro j
    rw [h5 j]
    simp only [List.getElem?_set]
    by_cases hj : k = j
    · subst hj; simp [h1]
    · have : ¬ j = k := fun h => hj h.symm
      simp [hj, this]

/-- C21. It never panics. -/
theorem C21_set_sequence_never_panics (p : Psbt L) (n : UInt32) (k : Nat) (why : String) :
    Updater.setSequence p n k ≠ .error (.panic why) := by
  by_cases h : k < p.inputs.length ∧ k < p.global.inputCount.toNat
  · obtain ⟨h1, h2⟩ := h
    have := (C21_set_sequence_iff p { p with inputs := p.inputs.set k { p.inputs[k] with sequence := some n } } n k).mpr
      ⟨h1, h2, rfl, rfl, fun j => by
        simp only [List.getElem?_set]
        by_cases hj : k = j
        · subst hj; simp [h1]
        · have : ¬ j = k := fun h => hj h.symm
          simp [hj, this]⟩
    rw [this]; simp
  · unfold Updater.setSequence Psbt.checkedInput Psbt.checkInputIndex
    split
    · simp [orFail, mapErr]
    · split
      · simp [orFail, mapErr]
      · omega

theorem setSequence_keeps {p q : Psbt L} {n : UInt32} {k : Nat} (h : Updater.setSequence p n k = .ok q) {β : Type}
    (f : Input L → β) (hf : ∀ i s, f { i with sequence := s } = f i) : q.inputs.map f = p.inputs.map f := by
  obtain ⟨h1, h2, h3, h4, h5⟩ := (C21_set_sequence_iff p q n k).mp h
  apply List.ext_getElem?
  intro j
  simp only [List.getElem?_map, h5 j, Option.map_map]
  congr 1
  funext i
  simp only [Function.comp]
  split
  · exact hf _ _
  · rfl

/-- C21. Any number of sequence changes leaves the unique id as it was. -/
theorem C21_set_sequence_keeps_id {p q : Psbt L} (h : Spec.SetSequences p q) : q.id = p.id := by
  induction h with
  | nil => rfl
  | cons e _ ih =>
    rw [ih]
    obtain ⟨-, i, -, rfl⟩ := setSequence_ok e
    refine C21_id_depends_only_on_transaction rfl rfl ?_ rfl
    exact setSequence_keeps e (fun i => (i.previousTxid, i.spentOutputIndex, i.minTime, i.minHeight)) (fun _ _ => rfl)

theorem setSequence_keeps_lockTime {p q : Psbt L} (h : Spec.SetSequences p q) : q.determineLockTime = p.determineLockTime := by
  induction h with
  | nil => rfl
  | cons e _ ih =>
    rw [ih]
    obtain ⟨-, i, -, rfl⟩ := setSequence_ok e
    exact lockTime_congr rfl (setSequence_keeps e (fun i => (i.minTime, i.minHeight)) (fun _ _ => rfl))

example : ∃ q, Spec.SetSequences { ltPsbt [ltInput none none] with global := { Global.new _ with inputCount := 1 } } q ∧
    q.inputs ≠ [ltInput none none] :=
  ⟨_, .cons (n := 5) (k := 0) rfl .nil, by decide⟩

/-- C22. An updater, however obtained and after any number of sequence changes, can give its id. -/
theorem C22_updater_id_never_panics {p u v : Psbt L}
    (h : Updater.new p = .ok u ∨ Constructor.updater p = .ok u) (hs : Spec.SetSequences u v) :
    ∃ id, Updater.id v = .ok id := by
  have : ∃ n, v.determineLockTime = .ok n := by
    rw [setSequence_keeps_lockTime hs]
    rcases h with h | h
    · obtain ⟨rfl, h⟩ := updaterNew_ok h; exact h
    · exact (updater_ok h).2
  obtain ⟨n, hn⟩ := this
  unfold Updater.id
  rw [id_ok.mpr ⟨n, hn, rfl⟩]
  exact ⟨_, rfl⟩

/-- C22. A signer, after any changes to its modifiable flags, can give its id and unsigned transaction. -/
theorem C22_signer_never_panics {p s : Psbt L} (h : Signer.new p = .ok s) (tys : List UInt8) :
    (∃ id, Signer.id (tys.foldl Psbt.clearTxModifiable s) = .ok id) ∧
    (∃ t, Signer.unsignedTx (tys.foldl Psbt.clearTxModifiable s) = .ok t) := by
  obtain ⟨rfl, n, hn⟩ := signerNew_ok h
  have step : ∀ (q : Psbt L) ty, (q.clearTxModifiable ty).determineLockTime = q.determineLockTime := by
    intro q ty
    refine lockTime_congr ?_ rfl
    unfold Psbt.clearTxModifiable
    simp only
    split <;> split <;> split <;> rfl
  have : (tys.foldl Psbt.clearTxModifiable s).determineLockTime = .ok n := by
    clear h
    induction tys generalizing s with
    | nil => exact hn
    | cons ty tys ih => exact ih (by rw [step]; exact hn)
  constructor
  · exact ⟨_, id_ok.mpr ⟨n, this, rfl⟩⟩
  · unfold Signer.unsignedTx
    rw [unsignedTx_ok.mpr ⟨n, this, rfl⟩]
    exact ⟨_, rfl⟩

example : ∃ u, Updater.new (ltPsbt [ltInput none none]) = .ok u := ⟨_, rfl⟩
example : ∃ u, Signer.new (ltPsbt [ltInput none none]) = .ok u := ⟨_, rfl⟩

/-! ### C57: the id identifies the transaction -/

/-- Everything in the PSBT that a transaction identifier commits to is smaller than a machine word can count. -/
def Spec.Addressable (p : Psbt L) : Prop :=
  p.inputs.length < 2 ^ 64 ∧ p.outputs.length < 2 ^ 64 ∧ ∀ o ∈ p.outputs, o.scriptPubkey.length < 2 ^ 64

/-- The transaction BIP-370 has hashed for the unique id: unsigned, all sequence numbers zero. -/
def Spec.idTx (r : Psbt L) (lockTime : UInt32) : Tx :=
  ⟨r.global.txVersion, lockTime, r.inputs.map fun i => ⟨⟨i.previousTxid, i.spentOutputIndex⟩, [], 0, []⟩,
    r.outputs.map fun o => ⟨o.amount, o.scriptPubkey⟩⟩

/-- C57. Two PSBTs with the same unique id describe the same transaction - same version, lock time, outpoints and
outputs in order - or else the two transactions hashed for them are a collision of the double SHA-256. -/
theorem C57_id_identifies {p q : Psbt L} {h : Hash32} (hp : Spec.Addressable p) (hq : Spec.Addressable q)
    (h1 : p.id = .ok h) (h2 : q.id = .ok h) :
    (p.global.txVersion = q.global.txVersion ∧
     (∃ n, p.determineLockTime = .ok n ∧ q.determineLockTime = .ok n) ∧
     (p.inputs.map fun i => (i.previousTxid, i.spentOutputIndex)) = (q.inputs.map fun i => (i.previousTxid, i.spentOutputIndex)) ∧
     (p.outputs.map fun o => (o.amount, o.scriptPubkey)) = (q.outputs.map fun o => (o.amount, o.scriptPubkey))) ∨
    ∃ n m, p.determineLockTime = .ok n ∧ q.determineLockTime = .ok m ∧
      Spec.Collides L.sha256d [Spec.unsignedTxBytes (Spec.idTx p n)] [Spec.unsignedTxBytes (Spec.idTx q m)] := by
  simp only [unsignedTxBytes_fun]
  obtain ⟨n, hn, e1⟩ := id_ok.mp h1
  obtain ⟨m, hm, e2⟩ := id_ok.mp h2
  unfold txid at e1 e2
  let tx (r : Psbt L) (n : UInt32) : Tx :=
    ⟨r.global.txVersion, n, r.inputs.map fun i => ⟨i.outPoint, [], 0, []⟩, r.outputs.map Output.txOut⟩
  by_cases he : encTxLegacy (tx p n) = encTxLegacy (tx q m)
  · left
    have small : ∀ r k, Spec.Addressable r → (tx r k).Small ∧ ∀ i ∈ (tx r k).input, i.witness = [] := by
      intro r k ⟨a1, a2, a3⟩
      refine ⟨⟨by simpa [tx] using a1, by simpa [tx] using a2, ?_, ?_⟩, ?_⟩
      · intro i hi
        obtain ⟨j, -, rfl⟩ := List.mem_map.mp hi
        simp [TxIn.Small]
      · intro o ho
        obtain ⟨j, hj, rfl⟩ := List.mem_map.mp ho
        exact a3 j hj
      · intro i hi
        obtain ⟨j, -, rfl⟩ := List.mem_map.mp hi
        rfl
    have d1 := decTxLegacy_enc (small p n hp).1 (small p n hp).2 []
    have d2 := decTxLegacy_enc (small q m hq).1 (small q m hq).2 []
    rw [he, d2] at d1
    have e : tx q m = tx p n := by injection d1 with d1; injection d1
    injection e with f1 f2 f3 f4
    refine ⟨f1.symm, ⟨n, hn, f2 ▸ hm⟩, ?_, ?_⟩
    · have := congrArg (List.map fun x : TxIn => (x.previousOutput.txid, x.previousOutput.vout)) f3
      simp only [List.map_map] at this
      exact this.symm
    · have := congrArg (List.map fun x : TxOut => (x.value, x.scriptPubkey)) f4
      simp only [List.map_map] at this
      exact this.symm
  · right
    refine ⟨n, m, hn, hm, _, List.mem_cons_self, _, List.mem_cons_self, he, ?_⟩
    exact e1.symm.trans e2

example : ∃ p q : Psbt (Demo.lib false), ∃ h, Spec.Addressable p ∧ Spec.Addressable q ∧ p.id = .ok h ∧ q.id = .ok h ∧ p ≠ q :=
  ⟨ltPsbt [ltInput none none], ltPsbt [{ ltInput none none with sequence := some 4 }], _, by unfold Spec.Addressable; decide, by unfold Spec.Addressable; decide, rfl,
   by decide +kernel, by decide⟩

/-! ### C58: additions respect the flags -/

/-- C58 fails: after `no_more_inputs` the same constructor still accepts inputs, although the flag is now cleared. -/
theorem C58_counterexample :
    ∃ (p q : Psbt (Demo.lib false)) (i : Input (Demo.lib false)),
      Spec.Built (.constructor .modifiable) p [] [] ∧ Spec.flag p 0 = false ∧ Constructor.input p i = .ok q :=
  ⟨_, _, ltInput none none, .noMoreInputs (.constructorModifiable .new), by decide, rfl⟩

/-- C58 fails also across types: a constructor for inputs only may leave the outputs flagged modifiable. -/
theorem C58_inputs_only_leaves_outputs_modifiable :
    ∃ (p q : Psbt (Demo.lib false)), Constructor.new .inputsOnly p = .ok q ∧ Spec.flag q 1 = true :=
  ⟨Creator.constructorModifiable (Creator.new _), _, rfl, by decide⟩

/-- The histories in which `no_more_inputs` and `no_more_outputs` are not called by hand (a constructor is left through
`psbt` or `updater`), with the kind of value held. -/
inductive Spec.Plain : Spec.Holds → Psbt L → Prop
  | given (p) : Spec.Plain .psbt p
  | creator {p is os} : Spec.Built .creator p is os → Spec.Plain .creator p
  | constructorModifiable {p} : Spec.Plain .creator p → Spec.Plain (.constructor .modifiable) (Creator.constructorModifiable p)
  | constructorInputsOnly {p} : Spec.Plain .creator p → Spec.Plain (.constructor .inputsOnly) (Creator.constructorInputsOnly p)
  | constructorOutputsOnly {p} : Spec.Plain .creator p → Spec.Plain (.constructor .outputsOnly) (Creator.constructorOutputsOnly p)
  | constructorNew {m p q} : Spec.Plain .psbt p → Constructor.new m p = .ok q → Spec.Plain (.constructor m) q
  | input {m p q i} : m ≠ .outputsOnly → Spec.Plain (.constructor m) p → Constructor.input p i = .ok q → Spec.Plain (.constructor m) q
  | output {m p q o} : m ≠ .inputsOnly → Spec.Plain (.constructor m) p → Constructor.output p o = .ok q → Spec.Plain (.constructor m) q

/-- C58, partially: without explicit `no_more_inputs`/`no_more_outputs` calls, a constructor that can add inputs
(outputs) always holds a PSBT whose inputs (outputs) are flagged modifiable. -/
theorem C58_partial {m : Mod} {p : Psbt L} (h : Spec.Plain (.constructor m) p) :
    (m ≠ .outputsOnly → Spec.flag p 0 = true) ∧ (m ≠ .inputsOnly → Spec.flag p 1 = true) := by
  generalize he : Spec.Holds.constructor m = hd at h
  induction h generalizing m with
  | given p => cases he
  | creator _ => cases he
  | constructorModifiable _ _ =>
    rename_i p0 _ _; have := fun k => (C20_creator_flags p0 k 0 0).2.2.2.2.2.2.1; simp [this]
  | constructorInputsOnly _ _ =>
    rename_i p0 _ _; have := fun k => (C20_creator_flags p0 k 0 0).2.2.2.2.2.2.2.1; cases he; simp [this]
  | constructorOutputsOnly _ _ =>
    rename_i p0 _ _; have := fun k => (C20_creator_flags p0 k 0 0).2.2.2.2.2.2.2.2; cases he; simp [this]
  | constructorNew _ e _ =>
    cases he
    have := ctorNew_ok e
    subst this
    rename_i m' _ _ _
    cases m'
    · obtain ⟨h1, h2, -⟩ := (C20_constructor_new_iff _ _).1.mp e; simp [h1, h2]
    · obtain ⟨h1, -⟩ := (C20_constructor_new_iff _ _).2.1.mp e; simp [h1]
    · obtain ⟨h1, -⟩ := (C20_constructor_new_iff _ _).2.2.mp e; simp [h1]
  | input _ _ e ih => cases he; unfold Spec.flag at *; rw [(input_ok e).2.2.2]; exact ih rfl
  | output _ _ e ih => cases he; unfold Spec.flag at *; rw [(output_ok e).2.2.2]; exact ih rfl

end Psbt.V2
