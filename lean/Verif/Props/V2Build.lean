/- C87: the creator, the constructor and the input builder do what they were asked to do. -/
import Verif.Spec.Build
import Verif.Props.V2Roles
namespace Psbt.V2
open Psbt

variable {L : Lib}

theorem lastOf_snoc {α β : Type} (l : List α) (a : α) (f : α → Option β) :
    Spec.lastOf (l ++ [a]) f = match f a with | some b => some b | none => Spec.lastOf l f := by
  unfold Spec.lastOf
  rw [List.filterMap_append]
  cases h : f a <;> simp [List.filterMap, h]

theorem filterMap_snoc {α β : Type} (l : List α) (a : α) (f : α → Option β) :
    (l ++ [a]).filterMap f = l.filterMap f ++ (f a).toList := by
  rw [List.filterMap_append]
  cases h : f a <;> simp [List.filterMap, h]

/-- What `Asked` says about the fields. -/
def Done (l : List (Spec.Ask L)) (p : Psbt L) : Prop :=
  p.inputs = l.filterMap Spec.Ask.input? ∧ p.outputs = l.filterMap Spec.Ask.output? ∧
  p.global.fallbackLockTime = Spec.lastOf l Spec.Ask.fallback? ∧
  p.global.txVersion = (Spec.lastOf l Spec.Ask.version?).getD 2 ∧
  (∀ k, Spec.flag p k = (Spec.lastOf l (·.flag k)).getD false) ∧
  p.global.inputCount.toNat = p.inputs.length ∧ p.global.outputCount.toNat = p.outputs.length ∧
  p.global = { Global.new L with
    fallbackLockTime := p.global.fallbackLockTime, txVersion := p.global.txVersion, txModifiableFlags := p.global.txModifiableFlags,
    inputCount := p.global.inputCount, outputCount := p.global.outputCount }

theorem Done.noMoreInputs {l : List (Spec.Ask L)} {p : Psbt L} (h : Done l p) :
    Done (l ++ [.noMoreInputs]) (Constructor.noMoreInputs p) := by
  obtain ⟨h1, h2, h3, h4, h5, h6, h7, h8⟩ := h
  refine ⟨?_, ?_, ?_, ?_, fun k => ?_, h6, h7, ?_⟩
  · rw [filterMap_snoc]; exact h1.trans (List.append_nil _).symm
  · rw [filterMap_snoc]; exact h2.trans (List.append_nil _).symm
  · rw [lastOf_snoc]; exact h3
  · rw [lastOf_snoc]; exact h4
  · rw [lastOf_snoc, (C20_no_more p k).1, h5]
    rcases k with _ | k <;> simp [Spec.Ask.flag]
  · simp only [Constructor.noMoreInputs, Global.clearInputsModifiable]; rw [h8]

theorem Done.noMoreOutputs {l : List (Spec.Ask L)} {p : Psbt L} (h : Done l p) :
    Done (l ++ [.noMoreOutputs]) (Constructor.noMoreOutputs p) := by
  obtain ⟨h1, h2, h3, h4, h5, h6, h7, h8⟩ := h
  refine ⟨?_, ?_, ?_, ?_, fun k => ?_, h6, h7, ?_⟩
  · rw [filterMap_snoc]; exact h1.trans (List.append_nil _).symm
  · rw [filterMap_snoc]; exact h2.trans (List.append_nil _).symm
  · rw [lastOf_snoc]; exact h3
  · rw [lastOf_snoc]; exact h4
  · rw [lastOf_snoc, (C20_no_more p k).2.1, h5]
    rcases k with _ | _ | k <;> simp [Spec.Ask.flag]
  · simp only [Constructor.noMoreOutputs, Global.clearOutputsModifiable]; rw [h8]

/-- The creator's calls add nothing to the maps of inputs and outputs. -/
theorem Done.creator {l : List (Spec.Ask L)} {p q : Psbt L} {a : Spec.Ask L} (h : Done l p) (hi : a.input? = none) (ho : a.output? = none)
    (e : q = { p with global := { p.global with
      fallbackLockTime := (a.fallback?).or p.global.fallbackLockTime, txVersion := (a.version?).getD p.global.txVersion,
      txModifiableFlags := q.global.txModifiableFlags } })
    (hf : ∀ k, Spec.flag q k = (a.flag k).getD (Spec.flag p k)) : Done (l ++ [a]) q := by
  obtain ⟨h1, h2, h3, h4, h5, h6, h7, h8⟩ := h
  have ei : q.inputs = p.inputs := by rw [e]
  have eo : q.outputs = p.outputs := by rw [e]
  have eg := congrArg Psbt.global e
  simp only at eg
  refine ⟨?_, ?_, ?_, ?_, fun k => ?_, ?_, ?_, ?_⟩
  · rw [filterMap_snoc, hi, ei]; simpa using h1
  · rw [filterMap_snoc, ho, eo]; simpa using h2
  · rw [lastOf_snoc, eg, ← h3]; cases a.fallback? <;> rfl
  · rw [lastOf_snoc, eg]; cases a.version? <;> simp [h4]
  · rw [hf, lastOf_snoc, h5]; cases a.flag k <;> rfl
  · rw [eg, ei]; exact h6
  · rw [eg, eo]; exact h7
  · rw [eg, h8]

theorem asked_done {h : Spec.Holds} {l : List (Spec.Ask L)} {p : Psbt L} (ha : Spec.Asked h l p) : Done l p := by
  have hc := fun p : Psbt L => fun k => C20_creator_flags p k
  induction ha with
  | new => exact ⟨rfl, rfl, rfl, rfl, fun k => (C20_creator_flags (Creator.new L) k 0 0).1, rfl, rfl, rfl⟩
  | fallbackLockTime n _ ih => exact ih.creator rfl rfl rfl fun k => rfl
  | transactionVersion v _ ih => exact ih.creator rfl rfl rfl fun k => rfl
  | sighashSingle _ ih =>
    refine ih.creator rfl rfl rfl fun k => ?_
    rw [(hc _ k 0 0).2.2.2.1]
    rcases k with _ | _ | _ | k <;> simp [Spec.Ask.flag]
  | inputsModifiable _ ih =>
    refine ih.creator rfl rfl rfl fun k => ?_
    rw [(hc _ k 0 0).2.1]
    rcases k with _ | _ | _ | k <;> simp [Spec.Ask.flag]
  | outputsModifiable _ ih =>
    refine ih.creator rfl rfl rfl fun k => ?_
    rw [(hc _ k 0 0).2.2.1]
    rcases k with _ | _ | _ | k <;> simp [Spec.Ask.flag]
  | creatorPsbt _ ih => exact ih
  | constructorModifiable _ ih =>
    refine ih.creator rfl rfl rfl fun k => ?_
    rw [(hc _ k 0 0).2.2.2.2.2.2.1]
    rcases k with _ | _ | _ | k <;> simp [Spec.Ask.flag]
  | constructorInputsOnly _ ih =>
    refine ih.creator rfl rfl rfl fun k => ?_
    rw [(hc _ k 0 0).2.2.2.2.2.2.2.1]
    rcases k with _ | _ | _ | k <;> simp [Spec.Ask.flag]
  | constructorOutputsOnly _ ih =>
    refine ih.creator rfl rfl rfl fun k => ?_
    rw [(hc _ k 0 0).2.2.2.2.2.2.2.2]
    rcases k with _ | _ | _ | k <;> simp [Spec.Ask.flag]
  | constructorNew _ e ih => rw [ctorNew_ok e]; exact ih
  | input _ _ e ih =>
    obtain ⟨h1, h2, h3, h4, h5, h6, h7, h8⟩ := ih
    obtain ⟨e1, e2, e3, e4⟩ := input_ok e
    refine ⟨?_, ?_, ?_, ?_, fun k => ?_, ?_, ?_, ?_⟩
    · rw [filterMap_snoc, e1, h1]; rfl
    · rw [filterMap_snoc, e2, h2]; simp [Spec.Ask.output?]
    · rw [lastOf_snoc, e4]; exact h3
    · rw [lastOf_snoc, e4]; exact h4
    · rw [lastOf_snoc]; unfold Spec.flag at h5 ⊢; rw [e4]; exact h5 k
    · rw [e3, h6, e1]; simp
    · rw [e4, e2]; exact h7
    · rw [e4, h8]
  | output _ _ e ih =>
    obtain ⟨h1, h2, h3, h4, h5, h6, h7, h8⟩ := ih
    obtain ⟨e1, e2, e3, e4⟩ := output_ok e
    refine ⟨?_, ?_, ?_, ?_, fun k => ?_, ?_, ?_, ?_⟩
    · rw [filterMap_snoc, e2, h1]; simp [Spec.Ask.input?]
    · rw [filterMap_snoc, e1, h2]; rfl
    · rw [lastOf_snoc, e4]; exact h3
    · rw [lastOf_snoc, e4]; exact h4
    · rw [lastOf_snoc]; unfold Spec.flag at h5 ⊢; rw [e4]; exact h5 k
    · rw [e4, e2]; exact h6
    · rw [e3, h7, e1]; simp
    · rw [e4, h8]
  | noMoreInputs _ ih => exact ih.noMoreInputs
  | noMoreOutputs _ ih => exact ih.noMoreOutputs
  | constructorPsbt _ e ih => rw [(ctorPsbt_ok e).1]; exact ih
  | updater _ e ih =>
    rw [(updater_ok e).1]
    have := ih.noMoreInputs.noMoreOutputs
    rwa [List.append_assoc] at this

/-- C87. The PSBT built by any sequence of calls: the inputs and outputs that were added, in order, and their numbers; the fallback lock time
and version that were asked for last, by default none and 2; each flag as it was last set or cleared; and nothing else. -/
theorem C87_built {h : Spec.Holds} {l : List (Spec.Ask L)} {p : Psbt L} (ha : Spec.Asked h l p) :
    p.inputs = l.filterMap Spec.Ask.input? ∧ p.outputs = l.filterMap Spec.Ask.output? ∧
    p.global.fallbackLockTime = Spec.lastOf l Spec.Ask.fallback? ∧
    p.global.txVersion = (Spec.lastOf l Spec.Ask.version?).getD 2 ∧
    (∀ k, Spec.flag p k = (Spec.lastOf l (·.flag k)).getD false) ∧
    p.global.inputCount.toNat = p.inputs.length ∧ p.global.outputCount.toNat = p.outputs.length ∧
    p.global.version.1 = 2 ∧ p.global.xpubs = .empty ∧ p.global.spEcdhShares = .empty ∧ p.global.spDleqProofs = .empty ∧
    p.global.proprietaries = .empty ∧ p.global.unknowns = .empty := by
  obtain ⟨h1, h2, h3, h4, h5, h6, h7, h8⟩ := asked_done ha
  refine ⟨h1, h2, h3, h4, h5, h6, h7, ?_, ?_, ?_, ?_, ?_, ?_⟩ <;> rw [h8] <;> rfl

/-- C87. Which calls can fail: only obtaining the PSBT or the updater, exactly if the lock times conflict, taking a PSBT up again without
the flags, and adding more than 2^64 - 1 inputs or outputs. -/
theorem C87_failures {h : Spec.Holds} {l : List (Spec.Ask L)} {p : Psbt L} (ha : Spec.Asked h l p) (m : Mod) (i : Input L) (o : Output L) :
    ((∃ q, Constructor.psbt p = .ok q) ↔ ¬ Spec.Conflict p) ∧ ((∃ q, Constructor.updater p = .ok q) ↔ ¬ Spec.Conflict p) ∧
    ((∃ q, Constructor.new m p = .ok q) ↔
      (m ≠ .outputsOnly → (Spec.lastOf l (·.flag 0)).getD false = true) ∧ (m ≠ .inputsOnly → (Spec.lastOf l (·.flag 1)).getD false = true)) ∧
    ((∃ q, Constructor.input p i = .ok q) ↔ p.inputs.length + 1 < 2 ^ 64) ∧
    ((∃ q, Constructor.output p o = .ok q) ↔ p.outputs.length + 1 < 2 ^ 64) := by
  obtain ⟨-, -, -, -, h5, h6, h7, -⟩ := asked_done ha
  have hp : ∀ r : Psbt L, (∃ q, Constructor.psbt r = .ok q) ↔ ¬ Spec.Conflict r := by
    intro r
    constructor
    · rintro ⟨q, e⟩ hc
      obtain ⟨-, n, e⟩ := ctorPsbt_ok e
      rw [(C17_error_iff r .conflict).mpr hc] at e
      cases e
    · intro hc
      rcases lockTime_cases r with ⟨n, e, -⟩ | ⟨-, h⟩
      · exact ⟨r, by unfold Constructor.psbt; rw [e]; rfl⟩
      · exact absurd h hc
  refine ⟨hp p, ?_, ?_, ?_, ?_⟩
  · exact hp _
  · rw [← h5, ← h5]
    obtain ⟨c1, c2, c3⟩ := C20_constructor_new_iff p p
    cases m
    · refine ⟨fun ⟨q, e⟩ => ?_, fun ⟨a, b⟩ => ⟨p, c1.mpr ⟨a (by decide), b (by decide), rfl⟩⟩⟩
      have := ctorNew_ok e; subst this
      exact ⟨fun _ => (c1.mp e).1, fun _ => (c1.mp e).2.1⟩
    · refine ⟨fun ⟨q, e⟩ => ?_, fun ⟨a, b⟩ => ⟨p, c2.mpr ⟨a (by decide), rfl⟩⟩⟩
      have := ctorNew_ok e; subst this
      exact ⟨fun _ => (c2.mp e).1, fun h => absurd rfl h⟩
    · refine ⟨fun ⟨q, e⟩ => ?_, fun ⟨a, b⟩ => ⟨p, c3.mpr ⟨b (by decide), rfl⟩⟩⟩
      have := ctorNew_ok e; subst this
      exact ⟨fun h => absurd rfl h, fun _ => (c3.mp e).1⟩
  · unfold Constructor.input addOne
    rw [h6]
    constructor
    · rintro ⟨q, e⟩
      split at e
      · assumption
      · cases e
    · intro h; rw [if_pos h]; exact ⟨_, rfl⟩
  · unfold Constructor.output addOne
    rw [h7]
    constructor
    · rintro ⟨q, e⟩
      split at e
      · assumption
      · cases e
    · intro h; rw [if_pos h]; exact ⟨_, rfl⟩

/-- C87. The input builder: the outpoint, what was asked for last of each kind, and nothing else. -/
theorem C87_input_builder {o : OutPoint} {l : List Spec.InAsk} {b : InputBuilder L} (h : Spec.InAsked o l b) :
    b.build = { Input.new L o with
      minTime := Spec.lastOf l Spec.InAsk.minTime?, minHeight := Spec.lastOf l Spec.InAsk.minHeight?,
      witnessUtxo := Spec.lastOf l Spec.InAsk.segwitFund?, nonWitnessUtxo := Spec.lastOf l Spec.InAsk.legacyFund? } := by
  unfold InputBuilder.build
  induction h with
  | new => rfl
  | minTime t _ ih => simp only [lastOf_snoc, InputBuilder.minTime]; rw [ih]; rfl
  | minHeight t _ ih => simp only [lastOf_snoc, InputBuilder.minHeight]; rw [ih]; rfl
  | segwitFund t _ ih => simp only [lastOf_snoc, InputBuilder.segwitFund]; rw [ih]; rfl
  | legacyFund t _ ih => simp only [lastOf_snoc, InputBuilder.legacyFund]; rw [ih]; rfl

-- A history with repeated and contradicting calls.
example : ∃ p, Spec.Asked (L := Demo.lib false) .psbt [.fallbackLockTime 7, .inputsModifiable, .transactionVersion 3, .fallbackLockTime 9,
      .sighashSingle, .constructor .modifiable, .input (ltInput none none), .input (ltInput (some t1) none), .output (Output.new _ ⟨5, [0x51]⟩),
      .noMoreInputs] p ∧
    p.inputs.length = 2 ∧ p.global.fallbackLockTime = some 9 ∧ p.global.txVersion = 3 ∧ Spec.flag p 0 = false ∧ Spec.flag p 1 = true ∧
    Spec.flag p 2 = true := by
  refine ⟨_, .constructorPsbt (m := .modifiable) (.noMoreInputs (.output (by decide) (.input (by decide)
    (.input (by decide) (.constructorModifiable (.sighashSingle (.fallbackLockTime 9 (.transactionVersion 3 (.inputsModifiable
      (.fallbackLockTime 7 .new)))))) rfl) rfl) rfl)) rfl, ?_⟩
  decide +kernel
example : ∃ b, Spec.InAsked (L := Demo.lib false) ⟨Demo.rep 32 1, 4⟩ [.minTime t1, .segwitFund ⟨1, []⟩, .segwitFund ⟨2, []⟩] b ∧
    b.build.witnessUtxo = some ⟨2, []⟩ ∧ b.build.minTime = some t1 ∧ b.build.spentOutputIndex = 4 :=
  ⟨_, .segwitFund _ (.segwitFund _ (.minTime _ .new)), rfl, rfl, rfl⟩

end Psbt.V2
