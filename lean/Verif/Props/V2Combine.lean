/- C24-C29: combining PSBTs v2. -/
import Verif.Lemmas.Combine
import Verif.Props.V2LockTime
import Verif.Props.V2Roles
import Verif.Spec.Demo
namespace Psbt.V2
open Psbt

variable {L : Lib}

/-! ### Concrete PSBTs for the examples and counterexamples -/
section Examples
abbrev DL : Lib := Demo.lib true
def cIn (n : UInt8) : Input DL := Input.new DL ⟨Demo.rep 32 n, 1⟩
def cOut (n : UInt8) : Output DL := Output.new DL ⟨5, [n]⟩
def cG : Global DL := { Global.new DL with inputCount := 2, outputCount := 1 }
def cP (is : List (Input DL)) : Psbt DL := ⟨cG, is, [cOut 9]⟩
def cX : (DL.xpub).T := Demo.val 78 (by decide +kernel) 3
def cKS (fp : UInt8) (path : List UInt32) : KeySource := (Demo.rep 4 fp, path)
def cXP (fp : UInt8) (path : List UInt32) : Psbt DL :=
  { cP [] with global := { cG with xpubs := BMap.empty.insert cX (cKS fp path) } }
def cTx : Tx := ⟨2, 0, [], []⟩
def cWU : TxOut := ⟨7, [1]⟩
/-- `combine` as a plain option, to evaluate examples. -/
def combine? (p q : Psbt DL) : Option (Psbt DL) := match p.combine q with | .ok r => some r | .error _ => none
end Examples

/-! ### C24 -/

/-- C24. Combining succeeds only for the same PSBT version and transaction version, and only if the spent outpoints and
the outputs agree position by position; the combined PSBT keeps all of these. What is missing from the full property:
the two PSBTs may have different numbers of inputs and outputs (`C24_length_counterexample`) and different lock times
(`C24_id_counterexample`). -/
theorem C24_agreement_partial {p q r : Psbt L} (h : p.combine q = .ok r) :
    (p.global.version = q.global.version ∧ p.global.txVersion = q.global.txVersion) ∧
    (∀ (k : Nat) i j, p.inputs[k]? = some i → q.inputs[k]? = some j → i.outPoint = j.outPoint) ∧
    (∀ (k : Nat) i j, p.outputs[k]? = some i → q.outputs[k]? = some j → i.amount = j.amount ∧ i.scriptPubkey = j.scriptPubkey) ∧
    (r.global.version = p.global.version ∧ r.global.txVersion = p.global.txVersion ∧
      r.global.fallbackLockTime = p.global.fallbackLockTime) ∧
    r.inputs.map Input.outPoint = p.inputs.map Input.outPoint ∧
    r.outputs.map Output.txOut = p.outputs.map Output.txOut := by
  obtain ⟨hg, hi, ho⟩ := combine_ok.mp h
  obtain ⟨h1, h2, -, h3⟩ := globalCombine_ok.mp hg
  obtain ⟨il, hi⟩ := combineZip_ok.mp hi
  obtain ⟨ol, ho⟩ := combineZip_ok.mp ho
  refine ⟨⟨h1, h2⟩, ?_, ?_, ?_, ?_, ?_⟩
  · intro k i j e1 e2
    obtain ⟨hk, -⟩ := List.getElem?_eq_some_iff.mp e1
    have e3 := List.getElem?_eq_getElem (l := r.inputs) (i := k) (by omega)
    obtain ⟨h4, h5, -⟩ := inputCombine_ok.mp ((hi k i _ e1 e3).1 j e2)
    simp only [Input.outPoint, h4, h5]
  · intro k i j e1 e2
    obtain ⟨hk, -⟩ := List.getElem?_eq_some_iff.mp e1
    have e3 := List.getElem?_eq_getElem (l := r.outputs) (i := k) (by omega)
    obtain ⟨h4, h5, -⟩ := outputCombine_ok.mp ((ho k i _ e1 e3).1 j e2)
    exact ⟨h4, h5⟩
  · rw [h3]; exact ⟨rfl, rfl, rfl⟩
  · apply List.ext_getElem (by simp [il])
    intro k k1 k2
    simp only [List.length_map] at k1 k2
    simp only [List.getElem_map]
    have e1 := List.getElem?_eq_getElem k1
    have e2 := List.getElem?_eq_getElem k2
    obtain ⟨h4, h5⟩ := hi k _ _ e2 e1
    cases e3 : q.inputs[k]? with
    | none => rw [h5 e3]
    | some j => rw [(inputCombine_ok.mp (h4 j e3)).2.2]; rfl
  · apply List.ext_getElem (by simp [ol])
    intro k k1 k2
    simp only [List.length_map] at k1 k2
    simp only [List.getElem_map]
    have e1 := List.getElem?_eq_getElem k1
    have e2 := List.getElem?_eq_getElem k2
    obtain ⟨h4, h5⟩ := ho k _ _ e2 e1
    cases e3 : q.outputs[k]? with
    | none => rw [h5 e3]
    | some j => rw [(outputCombine_ok.mp (h4 j e3)).2.2]; rfl

example : (combine? (cP [cIn 1]) (cP [{ cIn 1 with sequence := some 5 }])).isSome = true := by decide +kernel

/-- C24 fails: PSBTs of transactions with different numbers of inputs are combined. -/
theorem C24_length_counterexample : ∃ p q r : Psbt DL, p.combine q = .ok r ∧ p.inputs.length ≠ q.inputs.length :=
  ⟨cP [cIn 1, cIn 2], cP [cIn 1], cP [cIn 1, cIn 2], combine_ok.mpr
    ⟨globalCombine_ok.mpr ⟨rfl, rfl, fun _ => rfl, by decide +kernel⟩,
      by rw [combineZip_ok]; refine ⟨rfl, ?_⟩; intro k a c h1 h2; rw [h1] at h2; cases h2
         match k with
         | 0 => cases h1; refine ⟨?_, fun h => rfl⟩; intro b hb; cases hb; exact inputCombine_ok.mpr ⟨rfl, rfl, by decide +kernel⟩
         | k + 1 => exact ⟨fun b hb => by simp [cP] at hb, fun _ => rfl⟩,
      by rw [combineZip_ok]; refine ⟨rfl, ?_⟩; intro k a c h1 h2; rw [h1] at h2; cases h2
         match k with
         | 0 => cases h1; refine ⟨?_, fun h => rfl⟩; intro b hb; cases hb; exact outputCombine_ok.mpr ⟨rfl, rfl, by decide +kernel⟩
         | k + 1 => simp [cP] at h1⟩, by decide +kernel⟩

/-- The lock times, and so the unique ids, of the combined PSBT and its parts. -/
def cLocks (p q : Psbt DL) : Option (Option UInt32 × Option UInt32 × Option UInt32) :=
  (combine? p q).map fun r =>
    let f := fun x : Psbt DL => match x.determineLockTime with | .ok n => some n | .error _ => none
    (f p, f q, f r)

theorem cLocks_some {p q : Psbt DL} {a b c : Option UInt32} (h : cLocks p q = some (a, b, c)) :
    ∃ r, p.combine q = .ok r ∧ (∀ n, a = some n ↔ p.determineLockTime = .ok n) ∧
      (∀ n, b = some n ↔ q.determineLockTime = .ok n) ∧ (∀ n, c = some n ↔ r.determineLockTime = .ok n) := by
  unfold cLocks combine? at h
  cases e : p.combine q with
  | error x => rw [e] at h; cases h
  | ok r =>
    rw [e] at h
    simp only [Option.map_some, Option.some.injEq, Prod.mk.injEq] at h
    obtain ⟨rfl, rfl, rfl⟩ := h
    refine ⟨r, rfl, ?_, ?_, ?_⟩ <;> intro n
    · cases p.determineLockTime <;> simp
    · cases q.determineLockTime <;> simp
    · cases r.determineLockTime <;> simp

/-- C24 fails: two PSBTs with the same lock time (and, by `C24_agreement_partial`, the same inputs and outputs) combine
to one with another lock time, hence another unique id. One has inputs requiring (time) and (time or height), the other
(time or height) and (time). -/
theorem C24_id_counterexample : ∃ p q r : Psbt DL, p.combine q = .ok r ∧
    p.determineLockTime = .ok 500000001 ∧ q.determineLockTime = .ok 500000001 ∧ r.determineLockTime = .ok 11 := by
  have h : cLocks
      (cP [{ cIn 1 with minTime := some t1 }, { cIn 2 with minTime := some t1, minHeight := some h1 }])
      (cP [{ cIn 1 with minTime := some t1, minHeight := some h1 }, { cIn 2 with minTime := some t1 }]) =
      some (some 500000001, some 500000001, some 11) := by decide +kernel
  obtain ⟨r, h1, h2, h3, h4⟩ := cLocks_some h
  exact ⟨_, _, r, h1, (h2 _).mp rfl, (h3 _).mp rfl, (h4 _).mp rfl⟩

/-- C24 fails: two PSBTs with a lock time each combine to one without any. -/
theorem C24_lost_lock_time_counterexample : ∃ p q r : Psbt DL, p.combine q = .ok r ∧
    p.determineLockTime = .ok 500000001 ∧ q.determineLockTime = .ok 11 ∧ ∀ n, r.determineLockTime ≠ .ok n := by
  have h : cLocks
      (cP [{ cIn 1 with minTime := some t1 }, cIn 2])
      (cP [cIn 1, { cIn 2 with minHeight := some h1 }]) =
      some (some 500000001, some 11, none) := by decide +kernel
  obtain ⟨r, h1, h2, h3, h4⟩ := cLocks_some h
  exact ⟨_, _, r, h1, (h2 _).mp rfl, (h3 _).mp rfl, fun n hn => by simpa using (h4 n).mpr hn⟩

/-- C24, the unique id: if the two PSBTs have the same number of inputs and the same lock time, and (when that is a
time) the same inputs accept a height, the combined PSBT has that lock time too, and its unique id is that of the first. -/
theorem C24_id_partial {p q r : Psbt L} {n : UInt32} (h : p.combine q = .ok r)
    (hlen : p.inputs.length = q.inputs.length)
    (hp : p.determineLockTime = .ok n) (hq : q.determineLockTime = .ok n)
    (hh : 500000000 ≤ n → ∀ (k : Nat) i j, p.inputs[k]? = some i → q.inputs[k]? = some j →
      (i.minHeight = none ↔ j.minHeight = none)) :
    r.determineLockTime = .ok n ∧ r.id = p.id := by
  obtain ⟨-, -, -, ⟨-, hv, hf⟩, hio, hoo⟩ := C24_agreement_partial h
  obtain ⟨-, hi, -⟩ := combine_ok.mp h
  obtain ⟨il, hi⟩ := combineZip_ok.mp hi
  -- every input of the result is a merge
  have hr : ∀ c ∈ r.inputs, ∃ (k : Nat) (a b : Input L), p.inputs[k]? = some a ∧ q.inputs[k]? = some b ∧ c = a.merge b := by
    intro c hc
    obtain ⟨k, hk, rfl⟩ := List.mem_iff_getElem.mp hc
    have e1 := List.getElem?_eq_getElem (l := p.inputs) (i := k) (by omega)
    have e2 := List.getElem?_eq_getElem (l := q.inputs) (i := k) (by omega)
    exact ⟨k, _, _, e1, e2, (inputCombine_ok.mp ((hi k _ _ e1 (List.getElem?_eq_getElem hk)).1 _ e2)).2.2⟩
  have hpr : ∀ a ∈ p.inputs, ∃ (k : Nat) (b : Input L), p.inputs[k]? = some a ∧ q.inputs[k]? = some b ∧ a.merge b ∈ r.inputs := by
    intro a ha
    obtain ⟨k, hk, rfl⟩ := List.mem_iff_getElem.mp ha
    have e1 := List.getElem?_eq_getElem hk
    have e2 := List.getElem?_eq_getElem (l := q.inputs) (i := k) (by omega)
    have e3 := List.getElem?_eq_getElem (l := r.inputs) (i := k) (by omega)
    refine ⟨k, _, e1, e2, ?_⟩
    rw [← (inputCombine_ok.mp ((hi k _ _ e1 e3).1 _ e2)).2.2]
    exact List.getElem_mem _
  have hqr : ∀ b ∈ q.inputs, ∃ (k : Nat) (a : Input L), p.inputs[k]? = some a ∧ q.inputs[k]? = some b ∧ a.merge b ∈ r.inputs := by
    intro b hb
    obtain ⟨k, hk, rfl⟩ := List.mem_iff_getElem.mp hb
    have e1 := List.getElem?_eq_getElem hk
    have e2 := List.getElem?_eq_getElem (l := p.inputs) (i := k) (by omega)
    have e3 := List.getElem?_eq_getElem (l := r.inputs) (i := k) (by omega)
    refine ⟨k, _, e2, e1, ?_⟩
    rw [← (inputCombine_ok.mp ((hi k _ _ e2 e3).1 _ e1)).2.2]
    exact List.getElem_mem _
  have hmem : ∀ {l : List (Input L)} {k : Nat} {a : Input L}, l[k]? = some a → a ∈ l := List.mem_of_getElem?
  -- constrained in the result means constrained in a part
  have hcon : ∀ a b : Input L, Spec.Constrained (a.merge b) → Spec.Constrained a ∨ Spec.Constrained b := by
    intro a b
    simp only [Spec.Constrained, Input.merge, combOpt_eq]
    cases a.minTime <;> cases a.minHeight <;> cases b.minTime <;> cases b.minHeight <;> simp
  have hconl : ∀ a b : Input L, Spec.Constrained a → Spec.Constrained (a.merge b) := by
    intro a b
    simp only [Spec.Constrained, Input.merge, combOpt_eq]
    cases a.minTime <;> cases a.minHeight <;> cases b.minTime <;> cases b.minHeight <;> simp
  have hconr : ∀ a b : Input L, Spec.Constrained b → Spec.Constrained (a.merge b) := by
    intro a b
    simp only [Spec.Constrained, Input.merge, combOpt_eq]
    cases a.minTime <;> cases a.minHeight <;> cases b.minTime <;> cases b.minHeight <;> simp
  have hp' := (C17_lock_time_iff p n).mp hp
  have hq' := (C17_lock_time_iff q n).mp hq
  have key : r.determineLockTime = .ok n := by
    rw [C17_lock_time_iff]
    have hall_p := C17_satisfies_every_input hp
    have hall_q := C17_satisfies_every_input hq
    by_cases hn : ∃ i ∈ r.inputs, Spec.Constrained i
    · -- some input is constrained
      by_cases h5 : n < 500000000
      · -- a height
        have hsat : ∀ c ∈ r.inputs, Spec.Constrained c → ∃ h', c.minHeight = some h' ∧ h'.1 ≤ n := by
          intro c hc hcc
          obtain ⟨k, a, b, e1, e2, rfl⟩ := hr c hc
          have ha : Spec.Constrained a → ∃ h', a.minHeight = some h' ∧ h'.1 ≤ n := by
            intro ha
            rcases hall_p a (hmem e1) ha with ⟨-, h⟩ | ⟨h, -⟩
            · exact h
            · exact absurd h5 (UInt32.not_lt.mpr h)
          have hb : Spec.Constrained b → ∃ h', b.minHeight = some h' ∧ h'.1 ≤ n := by
            intro hb
            rcases hall_q b (hmem e2) hb with ⟨-, h⟩ | ⟨h, -⟩
            · exact h
            · exact absurd h5 (UInt32.not_lt.mpr h)
          simp only [Input.merge, combOpt_eq]
          rcases hcon a b hcc with hca | hcb
          · obtain ⟨h', e, hle⟩ := ha hca
            exact ⟨h', by rw [e]; rfl, hle⟩
          · obtain ⟨h', e, hle⟩ := hb hcb
            cases ea : a.minHeight with
            | none => exact ⟨h', by rw [e]; rfl, hle⟩
            | some h'' =>
              obtain ⟨h3, e3, hle3⟩ := ha (.inr (by rw [ea]; simp))
              rw [ea] at e3
              cases e3
              exact ⟨_, rfl, hle3⟩
        have hmx : ∃ h : Height, h.1 = n ∧ ∃ i ∈ r.inputs, i.minHeight = some h := by
          have fromP : ∀ k : Height, k.1 = n → (∃ i ∈ p.inputs, i.minHeight = some k) →
              ∃ h : Height, h.1 = n ∧ ∃ i ∈ r.inputs, i.minHeight = some h := by
            rintro k hk ⟨i, hip, e⟩
            obtain ⟨_, b, -, -, hm⟩ := hpr i hip
            exact ⟨k, hk, _, hm, by simp only [Input.merge, combOpt_eq, e, Option.or]⟩
          cases hp' with
          | height k mem all => exact fromP k rfl mem
          | time k nh mem all => exact absurd h5 (UInt32.not_lt.mpr k.2)
          | fallback hnone =>
            generalize hN : p.global.fallbackLockTime.getD 0 = N at *
            cases hq' with
            | height k mem all =>
              obtain ⟨j, hj, e⟩ := mem
              obtain ⟨k', a, e1, -, hm⟩ := hqr j hj
              refine ⟨k, rfl, _, hm, ?_⟩
              have : a.minHeight = none := by
                have := hnone a (hmem e1)
                simp only [Spec.Constrained, not_or, Decidable.not_not] at this
                exact this.2
              simp only [Input.merge, combOpt_eq, this, e, Option.or]
            | time k nh mem all => exact absurd h5 (UInt32.not_lt.mpr k.2)
            | fallback hnone' =>
              exfalso
              obtain ⟨c, hc, hcc⟩ := hn
              obtain ⟨k, a, b, e1, e2, rfl⟩ := hr c hc
              rcases hcon a b hcc with hca | hcb
              · exact hnone a (hmem e1) hca
              · exact hnone' b (hmem e2) hcb
        obtain ⟨h, rfl, hm⟩ := hmx
        exact .height h hm hsat
      · -- a time
        have h5 : 500000000 ≤ n := UInt32.not_lt.mp h5
        have hsat : ∀ c ∈ r.inputs, Spec.Constrained c → ∃ h', c.minTime = some h' ∧ h'.1 ≤ n := by
          intro c hc hcc
          obtain ⟨k, a, b, e1, e2, rfl⟩ := hr c hc
          have ha : Spec.Constrained a → ∃ h', a.minTime = some h' ∧ h'.1 ≤ n := by
            intro ha
            rcases hall_p a (hmem e1) ha with ⟨h, -⟩ | ⟨-, h⟩
            · exact absurd h (UInt32.not_lt.mpr h5)
            · exact h
          have hb : Spec.Constrained b → ∃ h', b.minTime = some h' ∧ h'.1 ≤ n := by
            intro hb
            rcases hall_q b (hmem e2) hb with ⟨h, -⟩ | ⟨-, h⟩
            · exact absurd h (UInt32.not_lt.mpr h5)
            · exact h
          simp only [Input.merge, combOpt_eq]
          rcases hcon a b hcc with hca | hcb
          · obtain ⟨h', e, hle⟩ := ha hca
            exact ⟨h', by rw [e]; rfl, hle⟩
          · obtain ⟨h', e, hle⟩ := hb hcb
            cases ea : a.minTime with
            | none => exact ⟨h', by rw [e]; rfl, hle⟩
            | some h'' =>
              obtain ⟨h3, e3, hle3⟩ := ha (.inl (by rw [ea]; simp))
              rw [ea] at e3
              cases e3
              exact ⟨_, rfl, hle3⟩
        have hmx : (∃ h : Time, h.1 = n ∧ ∃ i ∈ r.inputs, i.minTime = some h) ∧
            ∃ i ∈ r.inputs, Spec.Constrained i ∧ i.minHeight = none := by
          have hnone_merge : ∀ (k : Nat) a b, p.inputs[k]? = some a → q.inputs[k]? = some b →
              (a.minHeight = none ∨ b.minHeight = none) → (a.merge b).minHeight = none := by
            intro k a b e1 e2 ho
            have := hh h5 k a b e1 e2
            simp only [Input.merge, combOpt_eq]
            rcases ho with ho | ho
            · rw [ho, this.mp ho]; rfl
            · rw [ho, this.mpr ho]; rfl
          cases hp' with
          | height k mem all => exact absurd k.2 (UInt32.not_lt.mpr h5)
          | time k nh mem all =>
            obtain ⟨i, hip, e⟩ := mem
            obtain ⟨_, b, -, -, hm⟩ := hpr i hip
            refine ⟨⟨k, rfl, _, hm, by simp only [Input.merge, combOpt_eq, e, Option.or]⟩, ?_⟩
            obtain ⟨i', hip', hc', e'⟩ := nh
            obtain ⟨k', b', e1, e2, hm'⟩ := hpr i' hip'
            exact ⟨_, hm', hconl _ _ hc', hnone_merge k' _ _ e1 e2 (.inl e')⟩
          | fallback hnone =>
            generalize hN : p.global.fallbackLockTime.getD 0 = N at *
            cases hq' with
            | height k mem all => exact absurd k.2 (UInt32.not_lt.mpr h5)
            | time k nh mem all =>
              obtain ⟨j, hj, e⟩ := mem
              obtain ⟨k', a, e1, -, hm⟩ := hqr j hj
              refine ⟨⟨k, rfl, _, hm, ?_⟩, ?_⟩
              · have : a.minTime = none := by
                  have := hnone a (hmem e1)
                  simp only [Spec.Constrained, not_or, Decidable.not_not] at this
                  exact this.1
                simp only [Input.merge, combOpt_eq, this, e, Option.or]
              · obtain ⟨i', hip', hc', e'⟩ := nh
                obtain ⟨k', b', e1, e2, hm'⟩ := hqr i' hip'
                exact ⟨_, hm', hconr _ _ hc', hnone_merge k' _ _ e1 e2 (.inr e')⟩
            | fallback hnone' =>
              exfalso
              obtain ⟨c, hc, hcc⟩ := hn
              obtain ⟨k, a, b, e1, e2, rfl⟩ := hr c hc
              rcases hcon a b hcc with hca | hcb
              · exact hnone a (hmem e1) hca
              · exact hnone' b (hmem e2) hcb
        obtain ⟨⟨h, rfl, hm⟩, hnh⟩ := hmx
        exact .time h hnh hm hsat
    · -- nothing constrained
      have hn : ∀ i ∈ r.inputs, ¬ Spec.Constrained i := fun i hi hc => hn ⟨i, hi, hc⟩
      have hpn : ∀ i ∈ p.inputs, ¬ Spec.Constrained i := by
        intro a ha hc
        obtain ⟨_, b, -, -, hm⟩ := hpr a ha
        exact hn _ hm (hconl a b hc)
      have : n = p.global.fallbackLockTime.getD 0 := by
        have e := (C17_lock_time_iff p _).mpr (.fallback hpn)
        rw [hp] at e
        exact Except.ok.inj e
      rw [this, ← hf]
      exact .fallback hn
  refine ⟨key, ?_⟩
  obtain ⟨x, hx⟩ : ∃ x, p.id = .ok x := ⟨_, id_ok.mpr ⟨n, hp, rfl⟩⟩
  rw [hx]
  obtain ⟨n', e1, e2⟩ := id_ok.mp hx
  rw [hp] at e1
  cases e1
  refine id_ok.mpr ⟨n, key, ?_⟩
  rw [e2, hv, hoo]
  have : (p.inputs.map fun i => (⟨i.outPoint, [], 0, []⟩ : TxIn)) = r.inputs.map fun i => ⟨i.outPoint, [], 0, []⟩ := by
    have := congrArg (List.map fun o => (⟨o, [], 0, []⟩ : TxIn)) hio
    simp only [List.map_map] at this
    exact this.symm
  rw [this]

example : cLocks (cP [{ cIn 1 with minTime := some t1 }, { cIn 2 with minHeight := some h1, minTime := some t1 }])
    (cP [{ cIn 1 with minTime := some t1, sequence := some 3 }, { cIn 2 with minHeight := some h2 , minTime := some t1}]) =
    some (some 500000001, some 500000001, some 500000001) := by decide +kernel

/-! ### C25 -/

/-- C25. Combining a PSBT with itself gives it back. -/
theorem C25_self (p : Psbt L) : p.combine p = .ok p := by
  refine combine_ok.mpr ⟨globalCombine_ok.mpr ⟨rfl, rfl, fun x => mergeOpt_self _, ?_⟩, ?_, ?_⟩
  · simp only [BMap.extend_self]
  · exact combineZip_self fun a _ => inputCombine_ok.mpr ⟨rfl, rfl, a.merge_self.symm⟩
  · exact combineZip_self fun a _ => outputCombine_ok.mpr ⟨rfl, rfl, a.merge_self.symm⟩

/-- C25 fails for combining twice with the same other: the non-witness UTXO dropped the first time comes back. -/
theorem C25_again_counterexample : ∃ p q r s : Psbt DL, p.combine q = .ok r ∧ r.combine q = .ok s ∧ r ≠ s := by
  have key : ∀ p q : Psbt DL, (match combine? p q with
      | some r => (match combine? r q with | some s => decide (r ≠ s) | none => false) | none => false) = true →
      ∃ r s, p.combine q = .ok r ∧ r.combine q = .ok s ∧ r ≠ s := by
    intro p q h
    cases e1 : p.combine q with
    | error x => simp [combine?, e1] at h
    | ok r =>
      simp only [combine?, e1] at h
      cases e2 : r.combine q with
      | error x => simp [e2] at h
      | ok s => simp only [e2, decide_eq_true_eq] at h; exact ⟨r, s, rfl, e2, h⟩
  have := key (cP [cIn 1]) (cP [{ cIn 1 with witnessUtxo := some cWU, nonWitnessUtxo := some cTx }]) (by decide +kernel)
  exact ⟨_, _, this⟩

/-- C25. Combining again with the same other changes nothing, unless somewhere the first has no witness UTXO and the
other has both kinds of UTXO. -/
theorem C25_again_partial {p q r : Psbt L} (h : p.combine q = .ok r)
    (hu : ∀ (k : Nat) i j, p.inputs[k]? = some i → q.inputs[k]? = some j →
      ¬ (i.witnessUtxo = none ∧ j.witnessUtxo ≠ none ∧ j.nonWitnessUtxo ≠ none)) :
    r.combine q = .ok r := by
  obtain ⟨hg, hi, ho⟩ := combine_ok.mp h
  obtain ⟨h1, h2, h3, h4⟩ := globalCombine_ok.mp hg
  obtain ⟨il, hi⟩ := combineZip_ok.mp hi
  obtain ⟨ol, ho⟩ := combineZip_ok.mp ho
  refine combine_ok.mpr ⟨globalCombine_ok.mpr ⟨?_, ?_, fun x => mergeOpt_again (h3 x), ?_⟩, combineZip_ok.mpr ⟨rfl, ?_⟩,
    combineZip_ok.mpr ⟨rfl, ?_⟩⟩
  · rw [h4]; exact h1
  · rw [h4]; exact h2
  · conv => lhs; rw [h4]
    conv => rhs; rw [h4]
    simp only [BMap.extend_extend_right]
  · intro k a c e1 e2
    rw [e1] at e2
    cases e2
    refine ⟨?_, fun _ => rfl⟩
    intro b e3
    obtain ⟨hk, -⟩ := List.getElem?_eq_some_iff.mp e1
    have e0 := List.getElem?_eq_getElem (l := p.inputs) (i := k) (by omega)
    obtain ⟨h5, h6, rfl⟩ := inputCombine_ok.mp ((hi k _ _ e0 e1).1 b e3)
    exact inputCombine_ok.mpr ⟨h5, h6, (Input.merge_again _ _ (hu k _ _ e0 e3)).symm⟩
  · intro k a c e1 e2
    rw [e1] at e2
    cases e2
    refine ⟨?_, fun _ => rfl⟩
    intro b e3
    obtain ⟨hk, -⟩ := List.getElem?_eq_some_iff.mp e1
    have e0 := List.getElem?_eq_getElem (l := p.outputs) (i := k) (by omega)
    obtain ⟨h5, h6, rfl⟩ := outputCombine_ok.mp ((ho k _ _ e0 e1).1 b e3)
    exact outputCombine_ok.mpr ⟨h5, h6, (Output.merge_again _ _).symm⟩

example : (combine? (cP [{ cIn 1 with nonWitnessUtxo := some cTx }]) (cP [{ cIn 1 with witnessUtxo := some cWU }])).isSome = true := by
  decide

/-! ### C26 -/

/-- C26. Position by position the combined maps hold a pair for every key of either part, each pair taken from one of
them; what one PSBT has beyond the other's length is kept if it is the first's. The exceptions (all losses,
`C26_*_counterexample`): the fallback lock time (global key type 0x03) and the sighash type (input key type 0x03) of the
second, a non-witness UTXO (input key type 0x00) of either, and inputs and outputs the second has more. -/
theorem C26_partial {p q r : Psbt L} (h : p.combine q = .ok r) :
    Spec.Merged [] [0x03] p.global.getPairs q.global.getPairs r.global.getPairs ∧
    (r.inputs.length = p.inputs.length ∧ ∀ (k : Nat) i c, p.inputs[k]? = some i → r.inputs[k]? = some c →
      (∀ j, q.inputs[k]? = some j → Spec.Merged [0x00] [0x00, 0x03] i.getPairs j.getPairs c.getPairs) ∧
      (q.inputs[k]? = none → c = i)) ∧
    (r.outputs.length = p.outputs.length ∧ ∀ (k : Nat) i c, p.outputs[k]? = some i → r.outputs[k]? = some c →
      (∀ j, q.outputs[k]? = some j → Spec.Merged [] [] i.getPairs j.getPairs c.getPairs) ∧
      (q.outputs[k]? = none → c = i)) := by
  obtain ⟨hg, hi, ho⟩ := combine_ok.mp h
  obtain ⟨il, hi⟩ := combineZip_ok.mp hi
  obtain ⟨ol, ho⟩ := combineZip_ok.mp ho
  refine ⟨merged_global hg, ⟨il, ?_⟩, ⟨ol, ?_⟩⟩
  · intro k i c e1 e2
    refine ⟨fun j e3 => ?_, (hi k i c e1 e2).2⟩
    rw [(inputCombine_ok.mp ((hi k i c e1 e2).1 j e3)).2.2]
    exact merged_input _ _
  · intro k i c e1 e2
    refine ⟨fun j e3 => ?_, (ho k i c e1 e2).2⟩
    rw [(outputCombine_ok.mp ((ho k i c e1 e2).1 j e3)).2.2]
    exact merged_output _ _

/-- C26, values: a pair of the combined maps never has the non-witness UTXO removed unless a witness UTXO came in
from the second. -/
theorem C26_non_witness_utxo_kept {p q r : Psbt L} (h : p.combine q = .ok r) (k : Nat) (i j c : Input L)
    (e1 : p.inputs[k]? = some i) (e2 : q.inputs[k]? = some j) (e3 : r.inputs[k]? = some c)
    (hw : i.witnessUtxo ≠ none ∨ j.witnessUtxo = none) :
    c.nonWitnessUtxo = i.nonWitnessUtxo.or j.nonWitnessUtxo := by
  obtain ⟨-, hi, -⟩ := combine_ok.mp h
  rw [(inputCombine_ok.mp (((combineZip_ok.mp hi).2 k i c e1 e3).1 j e2)).2.2]
  simp only [Input.merge]
  rw [← combOpt_eq]
  revert hw
  cases i.witnessUtxo <;> cases j.witnessUtxo <;> simp [combUtxos]

theorem combine?_some {p q r : Psbt DL} (h : combine? p q = some r) : p.combine q = .ok r := by
  unfold combine? at h
  split at h
  · cases h; assumption
  · cases h

/-- C26 fails: the second PSBT's sighash type is lost. -/
theorem C26_sighash_counterexample : ∃ p q r : Psbt DL, p.combine q = .ok r ∧
    (q.inputs.map Input.sighashType = [some 1]) ∧ r.inputs.map Input.sighashType = [none] :=
  ⟨cP [cIn 1], cP [{ cIn 1 with sighashType := some 1 }], cP [cIn 1], combine?_some (by decide +kernel), by decide +kernel, by decide +kernel⟩

/-- C26 fails: both PSBTs have a non-witness UTXO, the combined one has none. -/
theorem C26_utxo_counterexample : ∃ p q r : Psbt DL, p.combine q = .ok r ∧
    p.inputs.map Input.nonWitnessUtxo = [some cTx] ∧ (q.inputs.map Input.nonWitnessUtxo = [some cTx]) ∧
    r.inputs.map Input.nonWitnessUtxo = [none] :=
  ⟨cP [{ cIn 1 with nonWitnessUtxo := some cTx }], cP [{ cIn 1 with witnessUtxo := some cWU, nonWitnessUtxo := some cTx }],
    cP [{ cIn 1 with witnessUtxo := some cWU }], combine?_some (by decide +kernel), by decide +kernel, by decide +kernel, by decide +kernel⟩

/-- C26 fails: the second PSBT's fallback lock time and further inputs are lost. -/
theorem C26_fallback_counterexample : ∃ p q r : Psbt DL, p.combine q = .ok r ∧
    q.global.fallbackLockTime = some 5 ∧ q.inputs.length = 2 ∧ r.global.fallbackLockTime = none ∧ r.inputs.length = 1 :=
  ⟨cP [cIn 1], { cP [cIn 1, cIn 2] with global := { cG with fallbackLockTime := some 5 } },
    cP [cIn 1], combine?_some (by decide +kernel), by decide +kernel, by decide +kernel, by decide +kernel, by decide +kernel⟩

/-! ### C27 -/

/-- C27 fails: the order decides which sequence number survives. -/
theorem C27_counterexample : ∃ p q r s : Psbt DL, p.combine q = .ok r ∧ q.combine p = .ok s ∧ r ≠ s :=
  ⟨cP [{ cIn 1 with sequence := some 1 }], cP [{ cIn 1 with sequence := some 2 }],
    cP [{ cIn 1 with sequence := some 1 }], cP [{ cIn 1 with sequence := some 2 }],
    combine?_some (by decide +kernel), combine?_some (by decide +kernel), by decide +kernel⟩

/-- C27 fails even if nothing conflicts: the sighash type survives only from the first. -/
theorem C27_no_conflict_counterexample : ∃ p q r s : Psbt DL, p.combine q = .ok r ∧ q.combine p = .ok s ∧ r ≠ s :=
  ⟨cP [cIn 1], cP [{ cIn 1 with sighashType := some 1 }], cP [cIn 1], cP [{ cIn 1 with sighashType := some 1 }],
    combine?_some (by decide +kernel), combine?_some (by decide +kernel), by decide +kernel⟩

/-- C27. Combining PSBTs that do not contradict each other gives the same result in either order, and if one order is
refused so is the other. -/
theorem C27_partial {p q : Psbt L} (hc : Spec.Compatible p q) (r : Psbt L) :
    p.combine q = .ok r ↔ q.combine p = .ok r := by
  have dir : ∀ p q : Psbt L, Spec.Compatible p q → p.combine q = .ok r → q.combine p = .ok r := by
    intro p q hc h
    obtain ⟨hg, hi, ho⟩ := combine_ok.mp h
    obtain ⟨h1, h2, h3, h4⟩ := globalCombine_ok.mp hg
    obtain ⟨il, hi⟩ := combineZip_ok.mp hi
    obtain ⟨ol, ho⟩ := combineZip_ok.mp ho
    refine combine_ok.mpr ⟨globalCombine_ok.mpr ⟨h1.symm, h2.symm, fun x => mergeOpt_comm (hc.global.xpubs x) (h3 x), ?_⟩,
      combineZip_ok.mpr ⟨il.trans hc.inputsLength, ?_⟩, combineZip_ok.mpr ⟨ol.trans hc.outputsLength, ?_⟩⟩
    · rw [h4]
      cases hp : p.global
      cases hq : q.global
      have := hc.global
      rw [hp, hq] at h1 h2 this
      simp only at h1 h2
      obtain ⟨g1, g2, g3, g4, -, g5, g6, g7, g8⟩ := this
      simp only at g1 g2 g3 g4 g5 g6 g7 g8
      simp only [h1, h2, g1, g2, g3, g4, extend_comm g5, extend_comm g6, extend_comm g7, extend_comm g8]
    · intro k b c e1 e2
      obtain ⟨hk, -⟩ := List.getElem?_eq_some_iff.mp e1
      have e0 := List.getElem?_eq_getElem (l := p.inputs) (i := k) (by have := hc.inputsLength; omega)
      refine ⟨?_, fun h => by rw [e0] at h; cases h⟩
      intro a e3
      obtain ⟨h5, h6, rfl⟩ := inputCombine_ok.mp ((hi k a c e3 e2).1 b e1)
      exact inputCombine_ok.mpr ⟨h5.symm, h6.symm, Input.merge_comm h5 h6 (hc.inputs k a b e3 e1)⟩
    · intro k b c e1 e2
      obtain ⟨hk, -⟩ := List.getElem?_eq_some_iff.mp e1
      have e0 := List.getElem?_eq_getElem (l := p.outputs) (i := k) (by have := hc.outputsLength; omega)
      refine ⟨?_, fun h => by rw [e0] at h; cases h⟩
      intro a e3
      obtain ⟨h5, h6, rfl⟩ := outputCombine_ok.mp ((ho k a c e3 e2).1 b e1)
      exact outputCombine_ok.mpr ⟨h5.symm, h6.symm, Output.merge_comm h5 h6 (hc.outputs k a b e3 e1)⟩
  refine ⟨dir p q hc, dir q p ?_⟩
  have agree : ∀ {α : Type} {x y : Option α}, Spec.Agree x y → Spec.Agree y x := fun h a b e1 e2 => (h b a e2 e1).symm
  have agreeM : ∀ {K V : Type} [OrdKey K] [DecidableEq K] {x y : BMap K V}, Spec.AgreeMap x y → Spec.AgreeMap y x :=
    fun h k a b e1 e2 => (h k b a e2 e1).symm
  refine ⟨?_, hc.inputsLength.symm, hc.outputsLength.symm, ?_, ?_⟩
  · obtain ⟨g1, g2, g3, g4, g, g5, g6, g7, g8⟩ := hc.global
    exact ⟨g1.symm, g2.symm, g3.symm, g4.symm, fun x s t e1 e2 => (g x t s e2 e1).imp Eq.symm Ne.symm, agreeM g5, agreeM g6,
      agreeM g7, agreeM g8⟩
  · intro k a b e1 e2
    have g := hc.inputs k b a e2 e1
    exact ⟨agree g.1, agree g.2, agree g.3, agreeM g.4, g.5.symm, agree g.6, agree g.7, agreeM g.8, agree g.9, agree g.10,
      agreeM g.11, agreeM g.12, agreeM g.13, agreeM g.14, agree g.15, agreeM g.16, agreeM g.17, agreeM g.18, agree g.19,
      agree g.20, agreeM g.21, agreeM g.22, agreeM g.23, agreeM g.24, agree g.25, agree g.26, fun h => (g.27 h.symm).symm⟩
  · intro k a b e1 e2
    have g := hc.outputs k b a e2 e1
    exact ⟨agree g.1, agree g.2, agreeM g.3, agree g.4, agree g.5, agreeM g.6, agree g.7, agree g.8, agreeM g.9, agreeM g.10⟩

/-- The hypothesis of `C27_partial` can be met: different fields filled in, and a witness UTXO known to one side. -/
example : Spec.Compatible (cP [{ cIn 1 with sequence := some 1, witnessUtxo := some cWU }])
    (cP [{ cIn 1 with redeemScript := some [1] }]) := by
  refine ⟨?_, rfl, rfl, ?_, ?_⟩
  · constructor <;> first
      | rfl
      | (intro k x y h1 h2; cases h1; done)
  · intro k a b e1 e2
    match k with
    | 0 =>
      cases e1; cases e2
      constructor <;> first
        | rfl
        | (intro x y h1 h2; cases h1; done)
        | (intro x y h1 h2; cases h2; done)
        | (intro k x y h1 h2; cases h1; done)
        | (intro h; exact ⟨rfl, rfl⟩)
    | k + 1 => simp [cP] at e1
  · intro k a b e1 e2
    match k with
    | 0 =>
      cases e1; cases e2
      constructor <;> first
        | rfl
        | (intro x y h1 h2; cases h1; done)
        | (intro k x y h1 h2; cases h1; done)
    | k + 1 => simp [cP] at e1

/-! ### C28 -/

/-- C28 fails: with both kinds of UTXO around, the grouping matters. -/
theorem C28_counterexample : ∃ a b c ab bc r s : Psbt DL, a.combine b = .ok ab ∧ ab.combine c = .ok r ∧
    b.combine c = .ok bc ∧ a.combine bc = .ok s ∧ r ≠ s :=
  ⟨cP [cIn 1], cP [{ cIn 1 with witnessUtxo := some cWU }], cP [{ cIn 1 with nonWitnessUtxo := some cTx }],
    cP [{ cIn 1 with witnessUtxo := some cWU }],
    cP [{ cIn 1 with witnessUtxo := some cWU, nonWitnessUtxo := some cTx }],
    cP [{ cIn 1 with witnessUtxo := some cWU, nonWitnessUtxo := some cTx }],
    cP [{ cIn 1 with witnessUtxo := some cWU }],
    combine?_some (by decide +kernel), combine?_some (by decide +kernel), combine?_some (by decide +kernel), combine?_some (by decide +kernel), by decide +kernel⟩

/-- C28 fails also for different numbers of inputs: one grouping is refused, the other loses an input. -/
theorem C28_length_counterexample : ∃ a b c ab r bc : Psbt DL, a.combine b = .ok ab ∧ ab.combine c = .ok r ∧
    b.combine c = .ok bc ∧ combine? a bc ≠ some r :=
  ⟨cP [cIn 1], cP [], cP [{ cIn 1 with sequence := some 1 }], cP [cIn 1], cP [{ cIn 1 with sequence := some 1 }], cP [],
    combine?_some (by decide +kernel), combine?_some (by decide +kernel), combine?_some (by decide +kernel), by decide +kernel⟩

/-- C28. Combining three PSBTs with the same numbers of inputs and outputs does not depend on the grouping, provided at
each input position no two kinds of UTXO occur. -/
theorem C28_partial {a b c : Psbt L}
    (hi1 : a.inputs.length = b.inputs.length) (hi2 : b.inputs.length = c.inputs.length)
    (ho1 : a.outputs.length = b.outputs.length) (ho2 : b.outputs.length = c.outputs.length)
    (hu : ∀ (k : Nat) i j l, a.inputs[k]? = some i → b.inputs[k]? = some j → c.inputs[k]? = some l →
      (i.nonWitnessUtxo = none ∧ j.nonWitnessUtxo = none ∧ l.nonWitnessUtxo = none) ∨
      (i.witnessUtxo = none ∧ j.witnessUtxo = none ∧ l.witnessUtxo = none)) (r : Psbt L) :
    (a.combine b >>= fun ab => ab.combine c) = .ok r ↔ (b.combine c >>= fun bc => a.combine bc) = .ok r := by
  have hI := combineZip_assoc (f := Input.combine) (ds := r.inputs) hi1 hi2
    (fun k x y z e1 e2 e3 d => inputCombine_assoc (hu k x y z e1 e2 e3))
  have hO := combineZip_assoc (f := Output.combine) (ds := r.outputs) ho1 ho2
    (fun k x y z e1 e2 e3 d => outputCombine_assoc)
  have hG := globalCombine_assoc (a := a.global) (b := b.global) (c := c.global) (d := r.global)
  simp only [bind_ok, combine_ok]
  constructor
  · rintro ⟨m, ⟨g1, i1, o1⟩, g2, i2, o2⟩
    obtain ⟨g, g3, g4⟩ := hG.mp ⟨_, g1, g2⟩
    obtain ⟨i, i3, i4⟩ := hI.mp ⟨_, i1, i2⟩
    obtain ⟨o, o3, o4⟩ := hO.mp ⟨_, o1, o2⟩
    exact ⟨⟨g, i, o⟩, ⟨g3, i3, o3⟩, g4, i4, o4⟩
  · rintro ⟨m, ⟨g1, i1, o1⟩, g2, i2, o2⟩
    obtain ⟨g, g3, g4⟩ := hG.mpr ⟨_, g1, g2⟩
    obtain ⟨i, i3, i4⟩ := hI.mpr ⟨_, i1, i2⟩
    obtain ⟨o, o3, o4⟩ := hO.mpr ⟨_, o1, o2⟩
    exact ⟨⟨g, i, o⟩, ⟨g3, i3, o3⟩, g4, i4, o4⟩

example : ((combine? (cP [{ cIn 1 with sequence := some 1 }]) (cP [{ cIn 1 with nonWitnessUtxo := some cTx }])).bind
    fun x => combine? x (cP [{ cIn 1 with sighashType := some 1, sequence := some 2 }])) =
    some (cP [{ cIn 1 with sequence := some 1, nonWitnessUtxo := some cTx }]) := by decide +kernel

/-! ### C29 -/

/-- C29 fails: a shorter path that is not an ending of ours makes combining panic. -/
theorem C29_panic_counterexample : ∃ (p q : Psbt DL) (why : String), p.combine q = .error (.panic why) := by
  refine ⟨cXP 1 [1, 2], cXP 1 [3], "attempt to subtract with overflow", ?_⟩
  have : (match (cXP 1 [1, 2]).combine (cXP 1 [3]) with
    | .error (.panic w) => decide (w = "attempt to subtract with overflow") | _ => false) = true := by decide +kernel
  split at this
  · rename_i w e; rw [e]; simp only [decide_eq_true_eq] at this; rw [this]
  · cases this

/-- C29 fails: the same path with another master fingerprint is not reported, theirs silently replaces ours. -/
theorem C29_fingerprint_counterexample : ∃ p q r : Psbt DL, p.combine q = .ok r ∧
    p.global.xpubs.get cX = some (cKS 1 [7]) ∧ q.global.xpubs.get cX = some (cKS 2 [7]) ∧
    r.global.xpubs.get cX = some (cKS 2 [7]) :=
  ⟨cXP 1 [7], cXP 2 [7], cXP 2 [7], combine?_some (by decide +kernel), by decide +kernel, by decide +kernel, by decide +kernel⟩

/-- C29. After a successful combine, an extended key known to one side has that origin, and one known to both has the
one with the longer path, of which the other path is an ending. (Missing: equal paths with different fingerprints should
be an error.) -/
theorem C29_result_partial {p q r : Psbt L} (h : p.combine q = .ok r) (x : L.xpub.T) :
    (p.global.xpubs.get x = none → r.global.xpubs.get x = q.global.xpubs.get x) ∧
    (q.global.xpubs.get x = none → r.global.xpubs.get x = p.global.xpubs.get x) ∧
    (∀ s t, p.global.xpubs.get x = some s → q.global.xpubs.get x = some t →
      ∃ u, r.global.xpubs.get x = some u ∧ Spec.MergedKey s t u) := by
  obtain ⟨hg, -, -⟩ := combine_ok.mp h
  obtain ⟨-, -, hx, -⟩ := globalCombine_ok.mp hg
  have hx := hx x
  refine ⟨?_, ?_, ?_⟩
  · intro e; rw [e] at hx; exact (Option.some.inj hx).symm
  · intro e; rw [e] at hx
    cases e' : p.global.xpubs.get x with
    | none => rw [e'] at hx; exact (Option.some.inj hx).symm
    | some s => rw [e'] at hx; exact (Option.some.inj hx).symm
  · intro s t e1 e2
    rw [e1, e2] at hx
    simp only [mergeOpt, Option.map_eq_some_iff] at hx
    obtain ⟨u, h1, h2⟩ := hx
    exact ⟨u, h2.symm, ksMerge_iff.mp h1⟩

/-- C29. The global maps of PSBTs of the same versions can be combined exactly if for every common extended key one
path is an ending of the other. -/
theorem C29_success_iff_partial {a b : Global L} (hv : a.version = b.version) (ht : a.txVersion = b.txVersion) :
    (∃ c, a.combine b = .ok c) ↔
    ∀ x s t, a.xpubs.get x = some s → b.xpubs.get x = some t → s.2 <:+ t.2 ∨ t.2 <:+ s.2 := by
  constructor
  · rintro ⟨c, h⟩ x s t e1 e2
    obtain ⟨-, -, hx, -⟩ := globalCombine_ok.mp h
    have hx := hx x
    rw [e1, e2] at hx
    simp only [mergeOpt, Option.map_eq_some_iff] at hx
    obtain ⟨u, h1, -⟩ := hx
    cases ksMerge_iff.mp h1 with
    | mine _ h => exact .inr h
    | theirs h => exact .inl h
  · intro h
    obtain ⟨r, hr⟩ := mergeXpubs_total (m := a.xpubs) (n := b.xpubs) (by
      intro x
      cases e1 : a.xpubs.get x with
      | none => exact ⟨_, rfl⟩
      | some s =>
        cases e2 : b.xpubs.get x with
        | none => exact ⟨_, rfl⟩
        | some t =>
          rcases h x s t e1 e2 with hs | hs
          · exact ⟨some t, by simp only [mergeOpt, ksMerge_iff.mpr (.theirs hs), Option.map_some]⟩
          · by_cases hl : t.2.length < s.2.length
            · exact ⟨some s, by simp only [mergeOpt, ksMerge_iff.mpr (.mine hl hs), Option.map_some]⟩
            · have he : t.2 = s.2 := hs.eq_of_length (by have := hs.length_le; omega)
              have hst : s.2 <:+ t.2 := by rw [he]; exact List.suffix_refl _
              exact ⟨some t, by simp only [mergeOpt, ksMerge_iff.mpr (.theirs hst), Option.map_some]⟩)
    exact ⟨{ a with
      xpubs := r
      spEcdhShares := a.spEcdhShares.extend b.spEcdhShares
      spDleqProofs := a.spDleqProofs.extend b.spDleqProofs
      proprietaries := a.proprietaries.extend b.proprietaries
      unknowns := a.unknowns.extend b.unknowns }, globalCombine_ok.mpr ⟨hv, ht, hr, rfl⟩⟩

theorem mergeXpubs_panic {m : BMap L.xpub.T KeySource} {l : List (L.xpub.T × KeySource)} (hs : KSorted l) {why : String}
    (h : mergeXpubs m l = .error (.panic why)) :
    ∃ x s t, m.get x = some s ∧ (x, t) ∈ l ∧ t.2.length < s.2.length ∧ ¬ t.2 <:+ s.2 := by
  induction l generalizing m with
  | nil => cases h
  | cons a rest ih =>
    obtain ⟨x, fp1, d1⟩ := a
    have lift : ∀ c, (mergeXpubs (m.insert x c) rest = .error (.panic why)) →
        ∃ x' s t, m.get x' = some s ∧ (x', t) ∈ (x, fp1, d1) :: rest ∧ t.2.length < s.2.length ∧ ¬ t.2 <:+ s.2 := by
      intro c hc
      obtain ⟨y, s, t, h1, h2, h3⟩ := ih hs.tail hc
      have : y ≠ x := by
        intro e; subst e
        have := hs.lt_of_mem _ h2; simp [OrdKey.irrefl] at this
      rw [BMap.get_insert, if_neg this] at h1
      exact ⟨y, s, t, h1, List.mem_cons_of_mem _ h2, h3⟩
    rw [mergeXpubs] at h
    cases hm : m.get x with
    | none => rw [hm] at h; exact lift _ h
    | some a =>
      obtain ⟨fp2, d2⟩ := a
      rw [hm] at h
      simp only [test1_iff] at h
      split at h
      · obtain ⟨y, s, t, h1, h2, h3⟩ := ih hs.tail h
        exact ⟨y, s, t, h1, List.mem_cons_of_mem _ h2, h3⟩
      · split at h
        · rename_i h1 h2
          exact ⟨x, (fp2, d2), (fp1, d1), hm, List.mem_cons_self, h2, fun hh => h1 (.inr ⟨h2, hh⟩)⟩
        · split at h
          · exact lift _ h
          · cases h

/-- C29. Combining panics only because of an extended key for which the second PSBT has a strictly shorter path that is
not an ending of the first's. -/
theorem C29_panic_only_partial {p q : Psbt L} {why : String} (h : p.combine q = .error (.panic why)) :
    ∃ x s t, p.global.xpubs.get x = some s ∧ q.global.xpubs.get x = some t ∧ t.2.length < s.2.length ∧ ¬ t.2 <:+ s.2 := by
  unfold Psbt.combine at h
  cases hg : p.global.combine q.global with
  | ok g =>
    rw [hg] at h
    simp only [mapErr, ok_bind] at h
    cases hi : combineZip Input.combine p.inputs q.inputs with
    | error e => rw [hi] at h; cases h
    | ok is =>
      rw [hi] at h
      simp only [orFail, mapErr, ok_bind] at h
      cases ho : combineZip Output.combine p.outputs q.outputs with
      | error e => rw [ho] at h; cases h
      | ok os => rw [ho] at h; cases h
  | error e =>
    rw [hg] at h
    cases e with
    | err e => cases h
    | panic w =>
      unfold Global.combine at hg
      split at hg
      · cases hg
      · split at hg
        · cases hg
        · cases hx : mergeXpubs p.global.xpubs q.global.xpubs.l with
          | ok m => rw [hx] at hg; cases hg
          | error e =>
            rw [hx] at hg
            cases hg
            obtain ⟨x, s, t, h1, h2, h3⟩ := mergeXpubs_panic q.global.xpubs.sorted hx
            exact ⟨x, s, t, h1, BMap.mem_iff_get.mp h2, h3⟩

example : combine? (cXP 1 [1, 2, 3]) (cXP 1 [2, 3]) = some (cXP 1 [1, 2, 3]) := by decide +kernel
example : combine? (cXP 1 [2, 3]) (cXP 1 [1, 2, 3]) = some (cXP 1 [1, 2, 3]) := by decide +kernel

end Psbt.V2
