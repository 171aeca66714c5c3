/- C130: updaters of a PSBT v0 can work in any order, or on copies that are combined. -/
import Verif.Spec.Updaters
import Verif.Props.V0Update
import Verif.Props.V0Combine
namespace Psbt.V0
open Psbt Psbt.Spec Psbt.Spec.V0

variable {L : Lib} {U : UpdLib L}

/-- What a call does to the PSBT. -/
inductive Patch (L : Lib) where
  | none
  | input (n : Nat) (i : Input L) (f : Fields L)
  | output (n : Nat) (o : Output L) (f : Fields L)

def Patch.on (p : Psbt L) : Patch L → Psbt L
  | .none => p
  | .input n i f => withInput p n (i.setFields f)
  | .output n o f => { p with outputs := p.outputs.set n (o.setFields f) }

/-- It concerns this place of a PSBT. -/
def Patch.at (p : Psbt L) (x : Place) : Patch L → Prop
  | .none => True
  | .input n i _ => x = .input n ∧ p.inputs[n]? = some i
  | .output n o _ => x = .output n ∧ p.outputs[n]? = some o

/-- Two PSBTs that are the same as far as a call at this place can see. -/
structure Near (x : Place) (p q : Psbt L) : Prop where
  tx : q.unsignedTx = p.unsignedTx
  ins : q.inputs.length = p.inputs.length
  outs : q.outputs.length = p.outputs.length
  input : ∀ n, x = .input n → q.inputs[n]? = p.inputs[n]?
  output : ∀ n, x = .output n → q.outputs[n]? = p.outputs[n]?

theorem Near.symm {x : Place} {p q : Psbt L} (h : Near x p q) : Near x q p :=
  ⟨h.tx.symm, h.ins.symm, h.outs.symm, fun n e => (h.input n e).symm, fun n e => (h.output n e).symm⟩
theorem Near.trans {x : Place} {p q r : Psbt L} (h : Near x p q) (h' : Near x q r) : Near x p r :=
  ⟨h'.tx.trans h.tx, h'.ins.trans h.ins, h'.outs.trans h.outs, fun n e => (h'.input n e).trans (h.input n e),
    fun n e => (h'.output n e).trans (h.output n e)⟩

theorem call_local {p q : Psbt L} {u : Update U} {r} (h : u.call p = .ok (q, r)) :
    ∃ w : Patch L, w.at p u.place ∧ q = w.on p ∧ ∀ p', Near u.place p p' → u.call p' = .ok (w.on p', r) := by
  cases u with
  | input n d =>
    change p.updateInput U n d = _ at h
    unfold Psbt.updateInput at h
    split at h
    · rename_i h1
      cases h
      refine ⟨.none, trivial, rfl, fun p' hp => ?_⟩
      unfold Update.call Psbt.updateInput
      simp only [hp.input n rfl, h1, hp.ins, Patch.on]
    · rename_i i h1
      split at h
      · rename_i h2
        cases h
        refine ⟨.none, trivial, rfl, fun p' hp => ?_⟩
        unfold Update.call Psbt.updateInput
        simp only [hp.input n rfl, h1, hp.tx, h2, Patch.on]
      · rename_i t h2
        split at h
        · rename_i e h3
          cases h
          refine ⟨.none, trivial, rfl, fun p' hp => ?_⟩
          unfold Update.call Psbt.updateInput
          simp only [hp.input n rfl, h1, hp.tx, h2, h3, Patch.on]
        · rename_i spk h3
          cases hu : updateItem U i.fields d (some spk) with
          | error e => rw [hu] at h; cases h
          | ok fr =>
            obtain ⟨f, x⟩ := fr
            rw [hu, ok_bind] at h
            refine ⟨.input n i f, ⟨rfl, h1⟩, ?_, fun p' hp => ?_⟩
            · simp only at h
              split at h <;> cases h <;> rfl
            · unfold Update.call Psbt.updateInput
              simp only [hp.input n rfl, h1, hp.tx, h2, h3, hu, ok_bind, Patch.on]
              simp only at h
              split at h <;> cases h <;> simp only [withInput, hp.tx]
  | output n d =>
    change p.updateOutput U n d = _ at h
    unfold Psbt.updateOutput at h
    split at h
    · rename_i h1
      cases h
      refine ⟨.none, trivial, rfl, fun p' hp => ?_⟩
      unfold Update.call Psbt.updateOutput
      simp only [hp.output n rfl, h1, hp.outs, Patch.on]
    · rename_i o h1
      split at h
      · rename_i h2
        cases h
        refine ⟨.none, trivial, rfl, fun p' hp => ?_⟩
        unfold Update.call Psbt.updateOutput
        simp only [hp.output n rfl, h1, hp.tx, h2, Patch.on]
      · rename_i t h2
        cases hu : updateItem U o.fields d (some t.scriptPubkey) with
        | error e => rw [hu] at h; cases h
        | ok fr =>
          obtain ⟨f, x⟩ := fr
          rw [hu, ok_bind] at h
          refine ⟨.output n o f, ⟨rfl, h1⟩, ?_, fun p' hp => ?_⟩
          · simp only at h
            split at h <;> cases h <;> rfl
          · unfold Update.call Psbt.updateOutput
            simp only [hp.output n rfl, h1, hp.tx, h2, hu, ok_bind, Patch.on]
            simp only at h
            split at h <;> cases h <;> simp only [hp.tx]

theorem Patch.near {p q : Psbt L} {w : Patch L} {x y : Place} (hw : w.at p x) (hxy : y ≠ x) : Near y q (w.on q) := by
  cases w with
  | none => exact ⟨rfl, rfl, rfl, fun _ _ => rfl, fun _ _ => rfl⟩
  | input n i f =>
    obtain ⟨rfl, -⟩ := hw
    refine ⟨rfl, List.length_set, rfl, fun m hm => ?_, fun _ _ => rfl⟩
    show (q.inputs.set n _)[m]? = _
    rw [List.getElem?_set_ne]
    intro e; subst e; exact hxy hm
  | output n o f =>
    obtain ⟨rfl, -⟩ := hw
    refine ⟨rfl, rfl, List.length_set, fun _ _ => rfl, fun m hm => ?_⟩
    show (q.outputs.set n _)[m]? = _
    rw [List.getElem?_set_ne]
    intro e; subst e; exact hxy hm

theorem Patch.comm {p p' q : Psbt L} {w w' : Patch L} {x y : Place} (hw : w.at p x) (hw' : w'.at p' y) (hxy : y ≠ x) :
    w.on (w'.on q) = w'.on (w.on q) := by
  cases w with
  | none => rfl
  | input n i f =>
    obtain ⟨rfl, -⟩ := hw
    cases w' with
    | none => rfl
    | input m j g =>
      obtain ⟨rfl, -⟩ := hw'
      have : m ≠ n := fun e => hxy (by rw [e])
      simp only [Patch.on, withInput, List.set_comm _ _ this]
    | output m o g => rfl
  | output n o f =>
    obtain ⟨rfl, -⟩ := hw
    cases w' with
    | none => rfl
    | input m j g => rfl
    | output m o' g =>
      obtain ⟨rfl, -⟩ := hw'
      have : m ≠ n := fun e => hxy (by rw [e])
      simp only [Patch.on, List.set_comm _ _ this]

theorem two_calls {p q s : Psbt L} {u v : Update U} {r r'} (hx : u.place ≠ v.place) (h : u.call p = .ok (q, r))
    (h' : v.call q = .ok (s, r')) : ∃ q', v.call p = .ok (q', r') ∧ u.call q' = .ok (s, r) := by
  obtain ⟨w, w1, rfl, w3⟩ := call_local h
  obtain ⟨w', w1', rfl, w3'⟩ := call_local h'
  refine ⟨w'.on p, w3' p (Patch.near w1 hx.symm).symm, ?_⟩
  rw [w3 _ (Patch.near w1' hx), Patch.comm w1 w1' hx.symm]

/-- C130. Inputs and outputs of a PSBT can be filled in in any order: the PSBT is the same at the end, and each call says the
same. If no call panics in one order, none does in another. -/
theorem C130_any_order {us vs : List (Update U)} (h : us.Perm vs) (hn : (us.map Update.place).Nodup) {p q : Psbt L} {rs}
    (hu : updateInTurn p us = .ok (q, rs)) : ∃ rs', updateInTurn p vs = .ok (q, rs') ∧ rs.Perm rs' := by
  induction h generalizing p q rs with
  | nil => exact ⟨rs, hu, .refl _⟩
  | cons u _ ih =>
    simp only [updateInTurn, bind_ok] at hu
    obtain ⟨⟨q1, r1⟩, h1, ⟨q2, r2⟩, h2, h3⟩ := hu
    cases h3
    obtain ⟨rs', e1, e2⟩ := ih (List.nodup_cons.mp hn).2 h2
    exact ⟨_, by simp only [updateInTurn, h1, e1, ok_bind], e2.cons _⟩
  | swap u v l =>
    simp only [updateInTurn, bind_ok] at hu
    obtain ⟨⟨q1, r1⟩, h1, ⟨q2, r2⟩, ⟨⟨q3, r3⟩, h2, ⟨q4, r4⟩, h4, h5⟩, h3⟩ := hu
    cases h5
    cases h3
    have hx : v.place ≠ u.place := by
      intro e
      simp only [List.map_cons, List.nodup_cons, List.mem_cons, not_or] at hn
      exact hn.1.1 e
    obtain ⟨q', e1, e2⟩ := two_calls hx h1 h2
    exact ⟨_, by simp only [updateInTurn, e1, e2, h4, ok_bind], .swap _ _ _⟩
  | trans h1 _ ih1 ih2 =>
    obtain ⟨rs1, e1, e2⟩ := ih1 hn hu
    obtain ⟨rs2, e3, e4⟩ := ih2 ((h1.map _).nodup_iff.mp hn) e1
    exact ⟨rs2, e3, e2.trans e4⟩

/-! ### Copies -/

theorem getElem?_set_congr {α : Type} {l l' : List α} {m : Nat} (hl : l'.length = l.length) (h : l'[m]? = l[m]?) (n : Nat) (a : α) :
    (l'.set n a)[m]? = (l.set n a)[m]? := by
  rw [List.getElem?_set, List.getElem?_set, hl, h]

theorem Near.on {x : Place} {p q : Psbt L} (h : Near x p q) (w : Patch L) : Near x (w.on p) (w.on q) := by
  cases w with
  | none => exact h
  | input n i f =>
    refine ⟨h.tx, ?_, h.outs, fun m e => ?_, h.output⟩
    · simpa [Patch.on, withInput] using h.ins
    · exact getElem?_set_congr h.ins (h.input m e) _ _
  | output n i f =>
    refine ⟨h.tx, h.ins, ?_, h.input, fun m e => ?_⟩
    · simpa [Patch.on] using h.outs
    · exact getElem?_set_congr h.outs (h.output m e) _ _

theorem Near.refl (x : Place) (p : Psbt L) : Near x p p := ⟨rfl, rfl, rfl, fun _ _ => rfl, fun _ _ => rfl⟩

/-- Calls elsewhere leave this place alone. -/
theorem run_elsewhere {us : List (Update U)} {p a : Psbt L} {rs} (h : updateInTurn p us = .ok (a, rs)) {x : Place}
    (hx : x ∉ us.map Update.place) : Near x p a := by
  induction us generalizing p a rs with
  | nil => cases h; exact .refl _ _
  | cons u us ih =>
    simp only [updateInTurn, bind_ok] at h
    obtain ⟨⟨q1, r1⟩, h1, ⟨q2, r2⟩, h2, h3⟩ := h
    cases h3
    simp only [List.map_cons, List.mem_cons, not_or] at hx
    obtain ⟨w, w1, rfl, w3⟩ := call_local h1
    exact (Patch.near w1 hx.1).trans (ih h2 hx.2)

/-- The calls do the same to another PSBT that is the same at their places. -/
theorem run_local {us : List (Update U)} {p p' a : Psbt L} {rs} (h : updateInTurn p us = .ok (a, rs))
    (hp : ∀ x ∈ us.map Update.place, Near x p p') :
    ∃ a', updateInTurn p' us = .ok (a', rs) ∧ ∀ x, Near x p p' → Near x a a' := by
  induction us generalizing p p' a rs with
  | nil => cases h; exact ⟨p', rfl, fun _ h => h⟩
  | cons u us ih =>
    simp only [updateInTurn, bind_ok] at h
    obtain ⟨⟨q1, r1⟩, h1, ⟨q2, r2⟩, h2, h3⟩ := h
    cases h3
    obtain ⟨w, w1, rfl, w3⟩ := call_local h1
    have e1 := w3 p' (hp _ (by simp))
    obtain ⟨a', e2, e3⟩ := ih h2 (p' := w.on p') (fun x hx => (hp x (by simp only [List.map_cons, List.mem_cons]; exact .inr hx)).on w)
    exact ⟨a', by simp only [updateInTurn, e1, e2, ok_bind], fun x hx => e3 x (hx.on w)⟩

/-- What the calls can change. -/
structure Filled (p a : Psbt L) : Prop where
  rest : a = { p with inputs := a.inputs, outputs := a.outputs }
  ins : a.inputs.length = p.inputs.length
  outs : a.outputs.length = p.outputs.length
  input : ∀ (n : Nat) (i j : Input L), p.inputs[n]? = some i → a.inputs[n]? = some j → ∃ f, j = i.setFields f
  output : ∀ (n : Nat) (i j : Output L), p.outputs[n]? = some i → a.outputs[n]? = some j → ∃ f, j = i.setFields f

theorem Input.setFields_fields (i : Input L) : i.setFields i.fields = i := rfl
theorem Output.setFields_fields (i : Output L) : i.setFields i.fields = i := rfl
theorem Input.setFields_twice (i : Input L) (f g : Fields L) : ∃ h, (i.setFields f).setFields g = i.setFields h :=
  ⟨{ g with tapScripts := g.tapScripts.or f.tapScripts, tapMerkleRoot := g.tapMerkleRoot.or f.tapMerkleRoot }, by
    simp only [Input.setFields]
    cases g.tapScripts <;> cases g.tapMerkleRoot <;> rfl⟩
theorem Output.setFields_twice (i : Output L) (f g : Fields L) : ∃ h, (i.setFields f).setFields g = i.setFields h :=
  ⟨{ g with tapTree := g.tapTree.or f.tapTree }, by
    simp only [Output.setFields]
    cases g.tapTree <;> rfl⟩

theorem Filled.refl (p : Psbt L) : Filled p p :=
  ⟨rfl, rfl, rfl, fun _ i j e1 e2 => ⟨i.fields, by rw [e1] at e2; cases e2; rfl⟩,
    fun _ i j e1 e2 => ⟨i.fields, by rw [e1] at e2; cases e2; rfl⟩⟩

theorem some_of_length {α : Type} {l l' : List α} (h : l'.length = l.length) {n : Nat} {a : α} (e : l[n]? = some a) : ∃ b, l'[n]? = some b :=
  ⟨_, List.getElem?_eq_getElem (by rw [h]; exact (List.getElem?_eq_some_iff.mp e).1)⟩

theorem Filled.trans {p q r : Psbt L} (h : Filled p q) (h' : Filled q r) : Filled p r := by
  refine ⟨?_, h'.ins.trans h.ins, h'.outs.trans h.outs, ?_, ?_⟩
  · rw [h'.rest, h.rest]
  · intro n i j e1 e2
    obtain ⟨k, e3⟩ := some_of_length h.ins e1
    obtain ⟨f, rfl⟩ := h.input n _ _ e1 e3
    obtain ⟨g, rfl⟩ := h'.input n _ _ e3 e2
    exact Input.setFields_twice _ _ _
  · intro n i j e1 e2
    obtain ⟨k, e3⟩ := some_of_length h.outs e1
    obtain ⟨f, rfl⟩ := h.output n _ _ e1 e3
    obtain ⟨g, rfl⟩ := h'.output n _ _ e3 e2
    exact Output.setFields_twice _ _ _

theorem Patch.filled {p : Psbt L} {w : Patch L} {x : Place} (hw : w.at p x) : Filled p (w.on p) := by
  cases w with
  | none => exact .refl p
  | input n i f =>
    obtain ⟨-, hi⟩ := hw
    refine ⟨rfl, List.length_set, rfl, fun m j k e1 e2 => ?_, (Filled.refl p).output⟩
    change (p.inputs.set n (i.setFields f))[m]? = _ at e2
    rw [List.getElem?_set] at e2
    split at e2
    · rename_i e; subst e
      split at e2
      · cases e2; rw [hi] at e1; cases e1; exact ⟨f, rfl⟩
      · cases e2
    · exact (Filled.refl p).input m j k e1 e2
  | output n i f =>
    obtain ⟨-, hi⟩ := hw
    refine ⟨rfl, rfl, List.length_set, (Filled.refl p).input, fun m j k e1 e2 => ?_⟩
    change (p.outputs.set n (i.setFields f))[m]? = _ at e2
    rw [List.getElem?_set] at e2
    split at e2
    · rename_i e; subst e
      split at e2
      · cases e2; rw [hi] at e1; cases e1; exact ⟨f, rfl⟩
      · cases e2
    · exact (Filled.refl p).output m j k e1 e2

theorem run_filled {us : List (Update U)} {p a : Psbt L} {rs} (h : updateInTurn p us = .ok (a, rs)) : Filled p a := by
  induction us generalizing p a rs with
  | nil => cases h; exact .refl _
  | cons u us ih =>
    simp only [updateInTurn, bind_ok] at h
    obtain ⟨⟨q1, r1⟩, h1, ⟨q2, r2⟩, h2, h3⟩ := h
    cases h3
    obtain ⟨w, w1, rfl, w3⟩ := call_local h1
    exact (Patch.filled w1).trans (ih h2)

theorem combOpt_old {α : Type} {a b : Option α} (h : ∀ x, a = some x → b = some x) : V2.combOpt a b = b ∧ V2.combOpt b a = b := by
  cases a with
  | none => cases b <;> exact ⟨rfl, rfl⟩
  | some x => rw [h x rfl]; exact ⟨rfl, rfl⟩

theorem extend_old {K V : Type} [OrdKey K] [DecidableEq K] {a b : BMap K V} (h : ∀ k v, a.get k = some v → b.get k = some v) :
    a.extend b = b ∧ b.extend a = b := by
  constructor <;> apply BMap.ext_get <;> intro k <;> rw [BMap.get_extend] <;> cases e : a.get k with
  | none => simp
  | some v => simp [h k v e]

theorem Input.combine_old {i j : Input L} {f : Fields L} (e : j = i.setFields f) (h : InputAdds i j) :
    i.combine j = j ∧ j.combine i = j := by
  have h1 := combOpt_old h.redeem
  have h2 := combOpt_old h.witness
  have h3 := extend_old h.derivation
  have h4 := combOpt_old h.internalKey
  have h5 := extend_old h.origins
  have h6 := extend_old h.scripts
  have h7 := combOpt_old h.root
  subst e
  constructor
  · rw [Input.combine, h1.1, h2.1, h3.1, h4.1, h5.1, h6.1, h7.1]
    simp only [Input.setFields, V2.combOpt_self, V2.combUtxos_self, BMap.extend_self]
  · rw [Input.combine, h1.2, h2.2, h3.2, h4.2, h5.2, h6.2, h7.2]
    simp only [Input.setFields, V2.combOpt_self, V2.combUtxos_self, BMap.extend_self]

theorem Output.combine_old {i j : Output L} {f : Fields L} (e : j = i.setFields f) (h : OutputAdds i j) :
    i.combine j = j ∧ j.combine i = j := by
  have h1 := combOpt_old h.redeem
  have h2 := combOpt_old h.witness
  have h3 := extend_old h.derivation
  have h4 := combOpt_old h.internalKey
  have h5 := extend_old h.origins
  have h6 := combOpt_old h.tree
  subst e
  constructor
  · rw [Output.combine, h1.1, h2.1, h3.1, h4.1, h5.1, h6.1]
    simp only [Output.setFields, BMap.extend_self]
  · rw [Output.combine, h1.2, h2.2, h3.2, h4.2, h5.2, h6.2]
    simp only [Output.setFields, BMap.extend_self]

/-- C130. Two people fill in different inputs and outputs, each on a copy of a PSBT. Unless one of them replaced something
that was there, combining the copies gives what filling in all of it on one PSBT gives. -/
theorem C130_copies {us vs : List (Update U)} (hd : ∀ u ∈ us, ∀ v ∈ vs, u.place ≠ v.place) {p a b : Psbt L} {rs ss}
    (ha : updateInTurn p us = .ok (a, rs)) (hb : updateInTurn p vs = .ok (b, ss)) (ka : OnlyAdds p a) (kb : OnlyAdds p b) :
    ∃ c, a.combine b = (c, .ok ()) ∧ updateInTurn p (us ++ vs) = .ok (c, rs ++ ss) := by
  have hdis : ∀ x, x ∈ vs.map Update.place → x ∉ us.map Update.place := by
    intro x h1 h2
    obtain ⟨v, v1, v2⟩ := List.mem_map.mp h1
    obtain ⟨u, u1, u2⟩ := List.mem_map.mp h2
    exact hd u u1 v v1 (u2.trans v2.symm)
  have hfa := run_filled ha
  have hfb := run_filled hb
  obtain ⟨c, hc, hn⟩ := run_local hb (fun x hx => run_elsewhere ha (hdis x hx))
  have hfc := run_filled hc
  have happ : ∀ (us : List (Update U)) (p a : Psbt L) rs, updateInTurn p us = .ok (a, rs) →
      updateInTurn a vs = .ok (c, ss) → updateInTurn p (us ++ vs) = .ok (c, rs ++ ss) := by
    intro us
    induction us with
    | nil => intro p a rs h1 h2; cases h1; exact h2
    | cons u us ih =>
      intro p a rs h1 h2
      simp only [updateInTurn, bind_ok] at h1
      obtain ⟨⟨q1, r1⟩, e1, ⟨q2, r2⟩, e2, e3⟩ := h1
      cases e3
      simp only [List.cons_append, updateInTurn, e1, ih _ _ _ e2 h2, ok_bind]
  refine ⟨c, combine_ok.mpr ⟨?_, ?_, ?_⟩, happ us p a rs ha hc⟩
  · rw [hfa.rest, hfb.rest]
  · intro x; rw [hfc.rest, hfb.rest, hfa.rest]; exact V2.mergeOpt_self _
  · have h1 : c.inputs = combineZip Input.combine a.inputs b.inputs := by
      apply List.ext_getElem?
      intro n
      rw [combineZip_getElem?]
      cases e : p.inputs[n]? with
      | none =>
        have ea : a.inputs[n]? = none := by rw [List.getElem?_eq_none_iff, hfa.ins]; exact List.getElem?_eq_none_iff.mp e
        have ec : c.inputs[n]? = none := by rw [List.getElem?_eq_none_iff, hfc.ins]; exact List.getElem?_eq_none_iff.mp ea
        rw [ea, ec]
      | some i =>
        obtain ⟨j, ea⟩ := some_of_length hfa.ins e
        obtain ⟨k, eb⟩ := some_of_length hfb.ins e
        rw [ea, eb]
        by_cases hx : Place.input n ∈ vs.map Update.place
        · have e1 := (run_elsewhere ha (hdis _ hx)).input n rfl
          have e2 := (hn _ (run_elsewhere ha (hdis _ hx))).input n rfl
          rw [ea, e] at e1; cases e1
          obtain ⟨f, hf⟩ := hfb.input n _ _ e eb
          rw [e2, eb]; exact congrArg some (Input.combine_old hf (kb.inputs n _ _ e eb)).1.symm
        · have e1 := (run_elsewhere hb hx).input n rfl
          have e2 := (run_elsewhere hc hx).input n rfl
          rw [eb, e] at e1; cases e1
          obtain ⟨f, hf⟩ := hfa.input n _ _ e ea
          rw [e2, ea]; exact congrArg some (Input.combine_old hf (ka.inputs n _ _ e ea)).2.symm
    have h2 : c.outputs = combineZip Output.combine a.outputs b.outputs := by
      apply List.ext_getElem?
      intro n
      rw [combineZip_getElem?]
      cases e : p.outputs[n]? with
      | none =>
        have ea : a.outputs[n]? = none := by rw [List.getElem?_eq_none_iff, hfa.outs]; exact List.getElem?_eq_none_iff.mp e
        have ec : c.outputs[n]? = none := by rw [List.getElem?_eq_none_iff, hfc.outs]; exact List.getElem?_eq_none_iff.mp ea
        rw [ea, ec]
      | some i =>
        obtain ⟨j, ea⟩ := some_of_length hfa.outs e
        obtain ⟨k, eb⟩ := some_of_length hfb.outs e
        rw [ea, eb]
        by_cases hx : Place.output n ∈ vs.map Update.place
        · have e1 := (run_elsewhere ha (hdis _ hx)).output n rfl
          have e2 := (hn _ (run_elsewhere ha (hdis _ hx))).output n rfl
          rw [ea, e] at e1; cases e1
          obtain ⟨f, hf⟩ := hfb.output n _ _ e eb
          rw [e2, eb]; exact congrArg some (Output.combine_old hf (kb.outputs n _ _ e eb)).1.symm
        · have e1 := (run_elsewhere hb hx).output n rfl
          have e2 := (run_elsewhere hc hx).output n rfl
          rw [eb, e] at e1; cases e1
          obtain ⟨f, hf⟩ := hfa.output n _ _ e ea
          rw [e2, ea]; exact congrArg some (Output.combine_old hf (ka.outputs n _ _ e ea)).2.symm
    rw [hfc.rest, h1, h2, hfa.rest, hfb.rest]
    simp only [BMap.extend_self, vmax_self]

theorem _root_.Psbt.Spec.V0.InputAdds.refl (i : Input L) : InputAdds i i := by constructor <;> simp
theorem _root_.Psbt.Spec.V0.OutputAdds.refl (i : Output L) : OutputAdds i i := by constructor <;> simp

theorem onlyAdds_blank {us : List (Update U)} {p a : Psbt L} {rs} (ha : updateInTurn p us = .ok (a, rs))
    (hb : ∀ u ∈ us, Blank p u.place) : OnlyAdds p a := by
  constructor
  · intro n i j e1 e2
    by_cases hx : Place.input n ∈ us.map Update.place
    · obtain ⟨u, u1, u2⟩ := List.mem_map.mp hx
      have := hb u u1
      rw [u2] at this
      obtain ⟨h1, h2, h3, h4, h5, h6, h7⟩ := this i e1
      constructor <;> simp [h1, h2, h3, h4, h5, h6, h7]
    · have := (run_elsewhere ha hx).input n rfl
      rw [e1, e2] at this; cases this
      exact .refl i
  · intro n i j e1 e2
    by_cases hx : Place.output n ∈ us.map Update.place
    · obtain ⟨u, u1, u2⟩ := List.mem_map.mp hx
      have := hb u u1
      rw [u2] at this
      obtain ⟨h1, h2, h3, h4, h5, h6⟩ := this i e1
      constructor <;> simp [h1, h2, h3, h4, h5, h6]
    · have := (run_elsewhere ha hx).output n rfl
      rw [e1, e2] at this; cases this
      exact .refl i

/-- C130. So nothing is lost and nothing goes wrong when nobody had filled in those inputs and outputs before. -/
theorem C130_blank_copies {us vs : List (Update U)} (hd : ∀ u ∈ us, ∀ v ∈ vs, u.place ≠ v.place) {p a b : Psbt L} {rs ss}
    (ha : updateInTurn p us = .ok (a, rs)) (hb : updateInTurn p vs = .ok (b, ss)) (hf : ∀ u ∈ us ++ vs, Blank p u.place) :
    ∃ c, a.combine b = (c, .ok ()) ∧ updateInTurn p (us ++ vs) = .ok (c, rs ++ ss) :=
  C130_copies hd ha hb (onlyAdds_blank ha fun u hu => hf u (List.mem_append.mpr (.inl hu)))
    (onlyAdds_blank hb fun u hu => hf u (List.mem_append.mpr (.inr hu)))

theorem run_at {us : List (Update U)} (hn : (us.map Update.place).Nodup) {p a : Psbt L} {rs} (h : updateInTurn p us = .ok (a, rs))
    {u : Update U} (hu : u ∈ us) : ∃ q r, u.call p = .ok (q, r) ∧ Near u.place q a := by
  induction us generalizing p a rs with
  | nil => cases hu
  | cons v us ih =>
    simp only [updateInTurn, bind_ok] at h
    obtain ⟨⟨q1, r1⟩, h1, ⟨q2, r2⟩, h2, h3⟩ := h
    cases h3
    simp only [List.map_cons, List.nodup_cons] at hn
    rcases List.mem_cons.mp hu with rfl | hu
    · exact ⟨q1, r1, h1, run_elsewhere h2 hn.1⟩
    · obtain ⟨q, r, e1, e2⟩ := ih hn.2 h2 hu
      obtain ⟨w0, w1, rfl, -⟩ := call_local h1
      have hx : u.place ≠ v.place := fun e => hn.1 (List.mem_map.mpr ⟨u, hu, e⟩)
      obtain ⟨w, -, rfl, w3⟩ := call_local e1
      have near := Patch.near (q := p) w1 hx
      exact ⟨w.on p, r, w3 p near.symm, (near.on w).trans e2⟩

theorem run_exists {us : List (Update U)} (hn : (us.map Update.place).Nodup) {p : Psbt L} (h : ∀ u ∈ us, ∃ x, u.call p = .ok x) :
    ∃ x, updateInTurn p us = .ok x := by
  induction us generalizing p with
  | nil => exact ⟨_, rfl⟩
  | cons v us ih =>
    simp only [List.map_cons, List.nodup_cons] at hn
    obtain ⟨⟨q, r⟩, hq⟩ := h v (by simp)
    obtain ⟨w0, w1, rfl, -⟩ := call_local hq
    obtain ⟨⟨s, rs⟩, hs⟩ := ih hn.2 (p := w0.on p) (fun u hu => by
      obtain ⟨⟨q', r'⟩, e⟩ := h u (List.mem_cons_of_mem _ hu)
      obtain ⟨w, -, -, w3⟩ := call_local e
      exact ⟨_, w3 _ (Patch.near w1 fun e => hn.1 (List.mem_map.mpr ⟨u, hu, e⟩))⟩)
    exact ⟨(s, (v, r) :: rs), by simp only [updateInTurn, hq, hs, ok_bind]⟩

/-- C130. They may also fill in the same inputs and outputs, if they use the same descriptors for them: the copies combine to what
filling in each of them once gives. -/
theorem C130_shared {us vs : List (Update U)} (hn : (us.map Update.place).Nodup) (hn' : (vs.map Update.place).Nodup)
    (hsh : ∀ u ∈ us, ∀ v ∈ vs, u.place = v.place → u = v) {p a b : Psbt L} {rs ss}
    (ha : updateInTurn p us = .ok (a, rs)) (hb : updateInTurn p vs = .ok (b, ss)) (ka : OnlyAdds p a) (kb : OnlyAdds p b) :
    ∃ c ss', a.combine b = (c, .ok ()) ∧
      updateInTurn p (us ++ vs.filter fun v => v.place ∉ us.map Update.place) = .ok (c, rs ++ ss') := by
  generalize hws : (vs.filter fun v => decide (v.place ∉ us.map Update.place)) = ws
  have hw : ∀ w, w ∈ ws ↔ w ∈ vs ∧ w.place ∉ us.map Update.place := by
    intro w; rw [← hws, List.mem_filter, decide_eq_true_iff]
  have hnw : (ws.map Update.place).Nodup := by
    rw [← hws]; exact hn'.sublist (List.filter_sublist.map _)
  obtain ⟨⟨b', ss'⟩, hb'⟩ := run_exists hnw (p := p) fun w h => by
    obtain ⟨q, r, e, -⟩ := run_at hn' hb ((hw w).mp h).1
    exact ⟨_, e⟩
  -- where the work is not shared, nothing changes
  have same : ∀ x, x ∉ us.map Update.place → Near x b b' := by
    intro x hx
    by_cases h : x ∈ vs.map Update.place
    · obtain ⟨v, v1, rfl⟩ := List.mem_map.mp h
      obtain ⟨q, r, e1, e2⟩ := run_at hn' hb v1
      obtain ⟨q', r', e3, e4⟩ := run_at hnw hb' ((hw v).mpr ⟨v1, hx⟩)
      cases e1.symm.trans e3
      exact e2.symm.trans e4
    · refine (run_elsewhere hb h).symm.trans (run_elsewhere hb' fun h' => h ?_)
      obtain ⟨w, w1, w2⟩ := List.mem_map.mp h'
      exact List.mem_map.mpr ⟨w, ((hw w).mp w1).1, w2⟩
  -- where it is, one copy has what the other has, or what was there
  have shared : ∀ x ∈ us.map Update.place, (Near x a b ∨ Near x p b) ∧ Near x p b' := by
    intro x hx
    refine ⟨?_, run_elsewhere hb' fun h' => ?_⟩
    · by_cases h : x ∈ vs.map Update.place
      · obtain ⟨v, v1, rfl⟩ := List.mem_map.mp h
        obtain ⟨u, u1, u2⟩ := List.mem_map.mp hx
        cases hsh u u1 v v1 u2
        obtain ⟨q, r, e1, e2⟩ := run_at hn' hb v1
        obtain ⟨q', r', e3, e4⟩ := run_at hn ha u1
        cases e1.symm.trans e3
        exact .inl (e4.symm.trans e2)
      · exact .inr (run_elsewhere hb h)
    · obtain ⟨w, w1, w2⟩ := List.mem_map.mp h'
      exact ((hw w).mp w1).2 (w2 ▸ hx)
  have hfa := run_filled ha
  have hfb := run_filled hb
  have hfb' := run_filled hb'
  have kb' : OnlyAdds p b' := by
    constructor
    · intro n i j e1 e2
      by_cases hx : Place.input n ∈ us.map Update.place
      · have := (shared _ hx).2.input n rfl
        rw [e1, e2] at this; cases this; exact .refl i
      · exact kb.inputs n i j e1 (((same _ hx).input n rfl).symm.trans e2)
    · intro n i j e1 e2
      by_cases hx : Place.output n ∈ us.map Update.place
      · have := (shared _ hx).2.output n rfl
        rw [e1, e2] at this; cases this; exact .refl i
      · exact kb.outputs n i j e1 (((same _ hx).output n rfl).symm.trans e2)
  obtain ⟨c, c1, c2⟩ := C130_copies (fun u hu w hx e => ((hw w).mp hx).2 (e ▸ List.mem_map_of_mem hu)) ha hb' ka kb'
  refine ⟨c, ss', ?_, c2⟩
  obtain ⟨g1, g2, g3⟩ := combine_ok.mp c1
  have hin : combineZip Input.combine a.inputs b.inputs = combineZip Input.combine a.inputs b'.inputs := by
    apply List.ext_getElem?
    intro n
    rw [combineZip_getElem?, combineZip_getElem?]
    by_cases hx : Place.input n ∈ us.map Update.place
    · cases ea : a.inputs[n]? with
      | none => rfl
      | some j =>
        obtain ⟨i, e⟩ := some_of_length hfa.ins.symm ea
        obtain ⟨f, hf⟩ := hfa.input n _ _ e ea
        have old := (Input.combine_old hf (ka.inputs n _ _ e ea)).2
        rw [(shared _ hx).2.input n rfl, e]
        rcases (shared _ hx).1 with h | h
        · rw [h.input n rfl, ea]
          exact congrArg some ((Input.combine_self j).trans old.symm)
        · rw [h.input n rfl, e]
    · rw [(same _ hx).input n rfl]
  have hout : combineZip Output.combine a.outputs b.outputs = combineZip Output.combine a.outputs b'.outputs := by
    apply List.ext_getElem?
    intro n
    rw [combineZip_getElem?, combineZip_getElem?]
    by_cases hx : Place.output n ∈ us.map Update.place
    · cases ea : a.outputs[n]? with
      | none => rfl
      | some j =>
        obtain ⟨i, e⟩ := some_of_length hfa.outs.symm ea
        obtain ⟨f, hf⟩ := hfa.output n _ _ e ea
        have old := (Output.combine_old hf (ka.outputs n _ _ e ea)).2
        rw [(shared _ hx).2.output n rfl, e]
        rcases (shared _ hx).1 with h | h
        · rw [h.output n rfl, ea]
          exact congrArg some ((Output.combine_self j).trans old.symm)
        · rw [h.output n rfl, e]
    · rw [(same _ hx).output n rfl]
  have e1 : b.unsignedTx = b'.unsignedTx := by rw [hfb.rest, hfb'.rest]
  have e2 : b.xpub = b'.xpub := by rw [hfb.rest, hfb'.rest]
  have e3 : b.version = b'.version := by rw [hfb.rest, hfb'.rest]
  have e4 : b.proprietary = b'.proprietary := by rw [hfb.rest, hfb'.rest]
  have e5 : b.unknown = b'.unknown := by rw [hfb.rest, hfb'.rest]
  exact combine_ok.mpr ⟨by rw [e1]; exact g1, by rw [e2]; exact g2, by rw [e3, e4, e5, hin, hout]; exact g3⟩

theorem copies_from {p q : Psbt L} {done : List (Update U)} {uss : List (List (Update U))} {rs}
    (hq : updateInTurn p done = .ok (q, rs)) (hn : ((done ++ uss.flatten).map Update.place).Nodup)
    (hf : ∀ u ∈ done ++ uss.flatten, Blank p u.place) (hr : ∀ us ∈ uss, ∃ a, updateInTurn p us = .ok a) :
    ∃ c rs', combineUpdated p q uss = some c ∧ updateInTurn p (done ++ uss.flatten) = .ok (c, rs') := by
  induction uss generalizing q done rs with
  | nil => exact ⟨q, rs, rfl, by simpa using hq⟩
  | cons us uss ih =>
    obtain ⟨⟨a, ss⟩, ha⟩ := hr us (by simp)
    have hd : ∀ u ∈ done, ∀ v ∈ us, u.place ≠ v.place := by
      intro u h1 v h2
      rw [List.map_append] at hn
      exact (List.nodup_append.mp hn).2.2 _ (List.mem_map_of_mem h1) _ (List.mem_map_of_mem (by simp [h2]))
    obtain ⟨c, c1, c2⟩ := C130_blank_copies hd hq ha (fun u hu => hf u (by
      simp only [List.mem_append, List.flatten_cons] at hu ⊢
      rcases hu with h | h
      · exact .inl h
      · exact .inr (.inl h)))
    obtain ⟨c', rs', e1, e2⟩ := ih c2 (by simpa using hn) (by simpa using hf) (fun v hv => hr v (by simp [hv]))
    refine ⟨c', rs', ?_, by simpa using e2⟩
    unfold combineUpdated
    simp only [ha, c1]
    exact e1

/-- C130. The same for any number of people: each fills in inputs and outputs nobody else does, on a copy of the PSBT; the copies
are combined into it one after the other. -/
theorem C130_many_copies {p : Psbt L} {uss : List (List (Update U))} (hn : (uss.flatten.map Update.place).Nodup)
    (hf : ∀ u ∈ uss.flatten, Blank p u.place) (hr : ∀ us ∈ uss, ∃ a, updateInTurn p us = .ok a) :
    ∃ c rs, combineUpdated p p uss = some c ∧ updateInTurn p uss.flatten = .ok (c, rs) :=
  copies_from (done := []) (q := p) rfl (by simpa using hn) (by simpa using hf) hr

/-! ### A case -/

/-- Two inputs and an output to fill in. -/
def upP : Psbt gL :=
  { gP [gIn uWshSpk, gIn uTrSpk] with
    unsignedTx := ⟨2, 0, [⟨⟨Demo.rep 32 7, 0⟩, [], 0xFFFFFFFF, []⟩, ⟨⟨Demo.rep 32 7, 1⟩, [], 0xFFFFFFFF, []⟩], [⟨500, uShWshSpk⟩]⟩ }
def upA : List (Update uLib) := [.input 1 uTr, .output 0 uShWsh]
def upB : List (Update uLib) := [.input 0 uWsh]
def upDone (p : Psbt gL) (us : List (Update uLib)) : Psbt gL := match updateInTurn p us with | .ok (q, _) => q | .error _ => p
def upSaid (p : Psbt gL) (us : List (Update uLib)) : List (Except UpdateErr Unit) :=
  match updateInTurn p us with | .ok (_, r) => r.map (·.2) | .error _ => []

example : (upA ++ upB).Perm (upB ++ upA) ∧ ((upA ++ upB).map Update.place).Nodup ∧ (∃ r, updateInTurn upP (upA ++ upB) = .ok r) ∧
    upSaid upP (upA ++ upB) = [.ok (), .ok (), .ok ()] ∧ upDone upP (upB ++ upA) = upDone upP (upA ++ upB) ∧ upDone upP upA ≠ upP :=
  ⟨List.perm_append_comm, by decide, ⟨_, rfl⟩, by decide +kernel, by decide +kernel, by decide +kernel⟩
example : (∀ u ∈ upA, ∀ v ∈ upB, u.place ≠ v.place) ∧ (∃ r, updateInTurn upP upA = .ok r) ∧ (∃ r, updateInTurn upP upB = .ok r) ∧
    ((upDone upP upA).combine (upDone upP upB)).1 = upDone upP (upA ++ upB) :=
  ⟨by simp [upA, upB, Update.place], ⟨_, rfl⟩, ⟨_, rfl⟩, by decide +kernel⟩
-- Both fill in the output, in the same way.
example : (∀ u ∈ upA, ∀ v ∈ ([.output 0 uShWsh, .input 0 uWsh] : List (Update uLib)), u.place = v.place → u = v) ∧
    ((upDone upP upA).combine (upDone upP [.output 0 uShWsh, .input 0 uWsh])).1 = upDone upP (upA ++ upB) :=
  ⟨by simp [upA, Update.place], by decide +kernel⟩
theorem upP_blank : ∀ u ∈ upA ++ upB, Blank upP u.place := by
  simp only [upA, upB, List.cons_append, List.nil_append, List.mem_cons, List.not_mem_nil, or_false, forall_eq_or_imp, forall_eq, Update.place]
  refine ⟨?_, ?_, ?_⟩ <;> intro i e <;> cases e <;>
    first
    | exact ⟨rfl, rfl, rfl, rfl, rfl, rfl, rfl⟩
    | exact ⟨rfl, rfl, rfl, rfl, rfl, rfl⟩
example : ([upA, upB].flatten.map Update.place).Nodup ∧ ∀ us ∈ [upA, upB], ∃ a, updateInTurn upP us = .ok a :=
  ⟨by decide, by simp only [List.mem_cons, List.not_mem_nil, or_false, forall_eq_or_imp, forall_eq]; exact ⟨⟨_, rfl⟩, ⟨_, rfl⟩⟩⟩

/-- C130, why only partly: an updater replaces a script that was there, and reports success; the copy that has the new script is
combined with one that has the old, and the old one is kept. -/
theorem C130_old_script_kept : ∃ (p : Psbt gL) (us vs : List (Update uLib)) (a b : Psbt gL) (ra rb : Update uLib) (c d : Psbt gL) (rd : _),
    (∀ u ∈ us, ∀ v ∈ vs, u.place ≠ v.place) ∧ updateInTurn p us = .ok (a, [(ra, .ok ())]) ∧ updateInTurn p vs = .ok (b, [(rb, .ok ())]) ∧
    a.combine b = (c, .ok ()) ∧ updateInTurn p (us ++ vs) = .ok (d, rd) ∧
    c.inputs.map (·.witnessScript) = [some [1], none] ∧ d.inputs.map (·.witnessScript) = [some [9, 4, 3, 4], none] := by
  let p : Psbt gL := { upP with inputs := [{ gIn uWshSpk with witnessScript := some [1] }, gIn uTrSpk] }
  refine ⟨p, [.input 1 uTr], upB, _, _, _, _, _, _, _, by simp [upB, Update.place], rfl, rfl, Prod.ext rfl (by decide +kernel), rfl, ?_, ?_⟩
  · decide +kernel
  · decide +kernel

end Psbt.V0
