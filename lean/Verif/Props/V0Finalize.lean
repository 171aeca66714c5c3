/- C64-C69: finalizing PSBT v0 inputs with rust-miniscript, and extracting the transaction. -/
import Verif.Lemmas.V0Finalize
import Verif.Lemmas.Timelock
import Verif.Props.V0Extract
import Verif.Props.V0Sign
import Verif.Props.V0Checks
import Verif.Props.V2Finalize
namespace Psbt.V0
open Psbt Psbt.Spec Psbt.Spec.V0

variable {L : Lib} {M : MsLib L}

section Examples
/-- A signed P2WPKH input with a key origin; P2WSH and legacy inputs. -/
def zIn : Input gL := { gIn V2.fSpk with partialSigs := BMap.empty.insert V2.fKey V2.fSig, sighashType := some 1 }
def zKeyed : Input gL := gEcdsa zIn
def zWsh (w : Bytes) : Input gL := { gIn (newP2wsh gL w) with witnessScript := some w }
/-- A non-witness UTXO that lacks the output spent. -/
def zDangling : Input gL := { Input.default gL with nonWitnessUtxo := some ⟨2, 0, [], []⟩ }
def zOut (r : Out Empty (Psbt gL × List (FinErr gL))) : Option (Psbt gL × List (FinErr gL)) :=
  match r with | .ok x => some x | .error _ => none
def zAll (p : Psbt gL) (mall : Bool) : Psbt gL × List (FinErr gL) := (zOut (p.finalizeMut V2.FM mall)).getD (p, [])
def zOne (p : Psbt gL) (n : Nat) : Psbt gL := match p.finalizeInp V2.FM n with | .ok q => q | .error _ => p
end Examples

theorem zSound (is : List (Input gL)) (h : ∀ i ∈ is, i.witnessUtxo ≠ none ∨ i.nonWitnessUtxo = none) : Sound (gP is) := by
  refine ⟨by simp [gP], indicesInRange_iff.mpr fun n t i hi hd => ?_⟩
  obtain ⟨tx, h1, h2, -⟩ := hd
  have := h i (List.mem_of_getElem? hi.2)
  simp_all

/-! ### C66 -/

/-- C66. What finalizing one input does: the input gets the scripts made for it if they exist and the interpreter accepts
them, and nothing else in the PSBT changes. -/
theorem C66_finalize_iff {p : Psbt L} (hp : Sound p) (n : Nat) (q : Psbt L) :
    p.finalizeInp M n = .ok q ↔ ∃ j, Result M p n false (.ok j) ∧ q = withInput p n j := by
  unfold Psbt.finalizeInp
  by_cases hn : n < p.inputs.length
  · rw [if_neg (by omega)]
    obtain ⟨r, hr⟩ := result_total (M := M) (mall := false) hp hn
    rw [result_sound hp hr]
    constructor
    · intro h
      cases r with
      | error e => cases h
      | ok j => exact ⟨j, hr, (Except.ok.inj h).symm⟩
    · rintro ⟨j, hj, rfl⟩
      cases result_unique hp hr hj
      rfl
  · rw [if_pos (by omega)]
    constructor
    · intro h; cases h
    · rintro ⟨j, hj, -⟩
      obtain ⟨t, i, hi⟩ := result_hasInput hj
      exact absurd (List.getElem?_eq_some_iff.mp hi.2).1 hn

/-- C66. The errors, and that there is no panic. -/
theorem C66_error_iff {p : Psbt L} (hp : Sound p) (n : Nat) (e : Fail (FinErr L)) :
    p.finalizeInp M n = .error e ↔
      (p.inputs.length ≤ n ∧ e = .err (.inputIdxOutOfBounds p.inputs.length n)) ∨ ∃ e', Result M p n false (.error e') ∧ e = .err e' := by
  unfold Psbt.finalizeInp
  by_cases hn : n < p.inputs.length
  · rw [if_neg (by omega)]
    obtain ⟨r, hr⟩ := result_total (M := M) (mall := false) hp hn
    rw [result_sound hp hr]
    constructor
    · intro h
      cases r with
      | ok j => cases h
      | error e => exact .inr ⟨e, hr, (Except.error.inj h).symm⟩
    · rintro (⟨h, -⟩ | ⟨j, hj, rfl⟩)
      · omega
      · cases result_unique hp hr hj
        rfl
  · rw [if_pos (by omega)]
    constructor
    · intro h; cases h; exact .inl ⟨by omega, rfl⟩
    · rintro (⟨h, rfl⟩ | ⟨j, hj, -⟩)
      · rfl
      · obtain ⟨t, i, hi⟩ := result_hasInput hj
        exact absurd (List.getElem?_eq_some_iff.mp hi.2).1 hn

/-- C66. A finalized input has the UTXO fields it had, a script sig or witness the interpreter accepts, and nothing else;
the other inputs, the outputs and the global fields stay. -/
theorem C66_effect {p q : Psbt L} (hp : Sound p) {n : Nat} (h : p.finalizeInp M n = .ok q) :
    (∃ i s w, p.inputs[n]? = some i ∧ q.inputs[n]? = some (onlyFinal i s w) ∧ Verdict M p n s w none) ∧
      (∀ m, m ≠ n → q.inputs[m]? = p.inputs[m]?) ∧ { q with inputs := p.inputs } = p := by
  obtain ⟨j, hj, rfl⟩ := (C66_finalize_iff hp n q).mp h
  refine ⟨?_, fun m hm => ?_, rfl⟩
  · cases hj with
    | done hi h1 h2 =>
      exact ⟨_, _, _, hi, by simp [withInput, List.getElem?_set_self (List.getElem?_eq_some_iff.mp hi).1], h2⟩
  · simp [withInput, List.getElem?_set_ne (Ne.symm hm)]

/-- C66. Input by input there is always exactly one result. -/
theorem C66_determined {p : Psbt L} (hp : Sound p) {n : Nat} (hn : n < p.inputs.length) (mall : Bool) :
    ∃ r, Result M p n mall r ∧ ∀ r', Result M p n mall r' → r' = r := by
  obtain ⟨r, hr⟩ := result_total (M := M) (mall := mall) hp hn
  exact ⟨r, hr, fun r' h' => result_unique hp h' hr⟩

/-- C66 fails for a PSBT that can be deserialized: finalizing an input panics if the non-witness UTXO of some input lacks
the output spent. -/
theorem C66_panic_counterexample : ∃ (p : Psbt gL) (s : String), p.inputs.length = p.unsignedTx.input.length ∧
    p.finalizeInp V2.FM 0 = .error (.panic s) := ⟨gP [zIn, zDangling], "index out of bounds", rfl, by decide +kernel⟩

/-- C66 fails: an input that has been finalized is an error when it is finalized again. -/
theorem C66_again_counterexample : ∃ (p q : Psbt gL), Sound p ∧ p.finalizeInp V2.FM 0 = .ok q ∧
    q.finalizeInp V2.FM 0 = .error (.err (.input .missingPubkey 0)) :=
  ⟨gP [zIn], zOne (gP [zIn]) 0, zSound _ (by decide), by decide +kernel, by decide +kernel⟩

example : Sound (gP [zIn, zWsh [3]]) ∧ (gP [zIn, zWsh [3]]).finalizeInp V2.FM 0 = .ok (zOne (gP [zIn, zWsh [3]]) 0) ∧
    ((zOne (gP [zIn, zWsh [3]]) 0).inputs.map Input.finalScriptWitness) = [some [V2.fSig.der.bytes, V2.fKey.bytes], none] :=
  ⟨zSound _ (by decide), by decide +kernel, by decide +kernel⟩
example : (gP [zIn, zWsh [3]]).finalizeInp V2.FM 1 = .error (.err (.input .miniscript 1)) ∧
    (gP [zIn, zWsh [4]]).finalizeInp V2.FM 1 = .error (.err (.input (.interpreter .satisfaction) 1)) ∧
    (gP [zIn, Input.default gL]).finalizeInp V2.FM 0 = .error (.err (.input .missingUtxo 1)) := by decide +kernel

/-! ### C67 -/

/-- C67. What finalizing all inputs does: one input after the other is finalized, each in the PSBT as it is then; errors are
collected in order, and an input with an error stays as it is. There is no panic. -/
theorem C67_each {p : Psbt L} (hp : Sound p) (mall : Bool) : ∃ (rs : List (Except (FinErr L) (Input L))) (is : List (Input L)),
    p.finalizeMut M mall = .ok ({ p with inputs := is }, errors rs) ∧ rs.length = p.inputs.length ∧ is.length = p.inputs.length ∧
    ∀ (n : Nat) i r, p.inputs[n]? = some i → rs[n]? = some r →
      is[n]? = some (chosen i r) ∧ Result M (withFirst p n is) n mall r := by
  obtain ⟨rs, is, h1, h2, h3, h4⟩ := finalizeMut_spec (M := M) hp mall
  refine ⟨rs, is, h1, h2, h3, fun n i r hi hr => ?_⟩
  obtain ⟨r', g1, g2, g3, -⟩ := h4 n i hi
  cases hr.symm.trans g1
  exact ⟨g2, g3⟩

/-- C67. Every input is left as it is or has only the UTXO fields it had and scripts the interpreter accepts for the
original PSBT. Nothing else changes. -/
theorem C67_effect {p q : Psbt L} (hp : Sound p) {mall : Bool} {es : List (FinErr L)} (h : p.finalizeMut M mall = .ok (q, es)) :
    { q with inputs := p.inputs } = p ∧ q.inputs.length = p.inputs.length ∧
    ∀ (n : Nat) i, p.inputs[n]? = some i →
      q.inputs[n]? = some i ∨ ∃ s w, q.inputs[n]? = some (onlyFinal i s w) ∧ Verdict M p n s w none := by
  obtain ⟨rs, is, h1, h2, h3, h4⟩ := finalizeMut_spec (M := M) hp mall
  obtain ⟨rfl, rfl⟩ := Prod.mk.inj (Except.ok.inj (h.symm.trans h1))
  refine ⟨rfl, h3, fun n i hi => ?_⟩
  obtain ⟨r, g1, g2, g3, g4, g5⟩ := h4 n i hi
  cases g3 with
  | done k1 k2 k3 =>
    cases k1.symm.trans g5
    exact .inr ⟨_, _, g2, g4.symm.verdict k3⟩
  | fails _ => exact .inl g2
  | unfunded _ _ => exact .inl g2
  | refused _ _ => exact .inl g2

/-- C67. If there are no errors, every input has been finalized. -/
theorem C67_ok {p q : Psbt L} (hp : Sound p) {mall : Bool} (h : p.finalizeMut M mall = .ok (q, [])) :
    ∀ (n : Nat) i, p.inputs[n]? = some i → ∃ s w, q.inputs[n]? = some (onlyFinal i s w) ∧ Verdict M p n s w none := by
  obtain ⟨rs, is, h1, h2, h3, h4⟩ := finalizeMut_spec (M := M) hp mall
  obtain ⟨rfl, h5⟩ := Prod.mk.inj (Except.ok.inj (h.symm.trans h1))
  intro n i hi
  obtain ⟨r, g1, g2, g3, g4, g5⟩ := h4 n i hi
  obtain ⟨j, rfl⟩ := errors_nil.mp h5.symm r (List.mem_of_getElem? g1)
  cases g3 with
  | done k1 k2 k3 =>
    cases k1.symm.trans g5
    exact ⟨_, _, g2, g4.symm.verdict k3⟩

/-- C67. If nothing is known about the output some input spends, no input is finalized. -/
theorem C67_unfunded {p q : Psbt L} (hp : Sound p) {mall : Bool} {es : List (FinErr L)} (hu : ∃ i ∈ p.inputs, Unfunded i)
    (h : p.finalizeMut M mall = .ok (q, es)) : q = p ∧ es.length = p.inputs.length := by
  have hv : ∀ n s w r, ¬ Verdict M p n s w r := by
    rintro n s w r ⟨t, i, u, us, -, -, hf, -⟩
    obtain ⟨i, hi, hu⟩ := hu
    obtain ⟨k, hk⟩ := List.getElem?_of_mem hi
    obtain ⟨t, u, -, g⟩ := funding_funded hf hk
    have := hu.1; have := hu.2
    cases g <;> simp_all
  obtain ⟨rs, is, h1, h2, h3, h4⟩ := finalizeMut_spec (M := M) hp mall
  obtain ⟨rfl, rfl⟩ := Prod.mk.inj (Except.ok.inj (h.symm.trans h1))
  have he : ∀ (n : Nat) i, p.inputs[n]? = some i → is[n]? = some i ∧ ∃ e, rs[n]? = some (.error e) := by
    intro n i hi
    obtain ⟨r, g1, g2, g3, g4, g5⟩ := h4 n i hi
    cases g3 with
    | done k1 k2 k3 => exact (hv _ _ _ _ (g4.symm.verdict k3)).elim
    | fails _ => exact ⟨g2, _, g1⟩
    | unfunded _ _ => exact ⟨g2, _, g1⟩
    | refused _ _ => exact ⟨g2, _, g1⟩
  have hi : is = p.inputs := by
    apply List.ext_getElem?
    intro n
    by_cases hn : n < p.inputs.length
    · rw [List.getElem?_eq_getElem hn]; exact (he n _ (List.getElem?_eq_getElem hn)).1
    · rw [List.getElem?_eq_none (by omega), List.getElem?_eq_none (by omega)]
  subst hi
  refine ⟨rfl, ?_⟩
  rw [errors_length, h2]
  intro r hr
  obtain ⟨n, hn⟩ := List.getElem?_of_mem hr
  have hl := (List.getElem?_eq_some_iff.mp hn).1
  obtain ⟨-, e, he⟩ := he n _ (List.getElem?_eq_getElem (by omega))
  exact ⟨e, Option.some.inj (hn.symm.trans he)⟩

/-- C67. If the scripts of each input need no keys that only other inputs list, each input ends up as if it were finalized
alone, in the original PSBT. -/
theorem C67_independent_partial {p q : Psbt L} (hp : Sound p) {mall : Bool} {es : List (FinErr L)}
    (hc : ∀ n, SelfContained M p n) (h : p.finalizeMut M mall = .ok (q, es)) :
    ∃ rs : List (Except (FinErr L) (Input L)), es = errors rs ∧ rs.length = p.inputs.length ∧
      ∀ (n : Nat) i r, p.inputs[n]? = some i → rs[n]? = some r → Result M p n mall r ∧ q.inputs[n]? = some (chosen i r) := by
  obtain ⟨rs, is, h1, h2, h3, h4⟩ := finalizeMut_spec (M := M) hp mall
  obtain ⟨rfl, rfl⟩ := Prod.mk.inj (Except.ok.inj (h.symm.trans h1))
  refine ⟨rs, rfl, h2, fun n i r hi hr => ?_⟩
  obtain ⟨r', g1, g2, g3, g4, g5⟩ := h4 n i hi
  cases hr.symm.trans g1
  obtain ⟨r', hr'⟩ := result_total (M := M) (mall := mall) hp (n := n) (List.getElem?_eq_some_iff.mp hi).1
  have := result_unique (g4.sound hp) g3 (result_self hp g4 (hc n) (g5.trans hi.symm) hr')
  subst this
  exact ⟨hr', g2⟩

/-- C67. The functions `finalize` and `finalize_mall`: they first check the signature types, then finalize one input after the
other up to the first that fails; those before it stay finalized, each with the scripts made for it when its turn came, the others stay
as they are. -/
theorem C67_stops {p : Psbt L} (hp : Sound p) (mall : Bool) : ∃ c q r, p.finalizeHelper M mall = .ok (q, r) ∧
    c ≤ p.inputs.length ∧ { q with inputs := p.inputs } = p ∧
    (∀ n : Nat, c ≤ n → q.inputs[n]? = p.inputs[n]?) ∧
    (∀ (n : Nat) i, n < c → p.inputs[n]? = some i → ∃ s w, q.inputs[n]? = some (V0.onlyFinal i s w) ∧ Verdict M p n s w none ∧
      Result M (withFirst p n q.inputs) n mall (.ok (V0.onlyFinal i s w))) ∧
    (r = .ok () ↔ SigTypes p ∧ c = p.inputs.length) ∧
    (SigTypes p → c < p.inputs.length → ∃ e, r = .error e ∧ Result M q c mall (.error e)) ∧ (¬ SigTypes p → c = 0) := by
  unfold Psbt.finalizeHelper
  cases hs : p.sanityCheck with
  | error e =>
    have hn : ¬ SigTypes p := fun h => by rw [sanityCheck_ok.mpr ⟨hp.1, h⟩] at hs; cases hs
    exact ⟨0, p, .error e, rfl, by omega, rfl, fun _ _ => rfl, fun n i h => by omega, by simp [hn], fun h => (hn h).elim, fun _ => rfl⟩
  | ok _ =>
    have hn := (sanityCheck_ok.mp hs).2
    obtain ⟨c, q, r, h1, h2, h3, h4, h5, h6, h7⟩ := finalizeWhile_spec (M := M) (mall := mall) p.inputs.length hp (k := 0) (by omega)
    refine ⟨c, q, r, by simp only [List.range_eq_range']; exact h1, h2, h4, fun n h => h5 n (by omega),
      fun n i h => h6 n i (by omega) (by omega), ?_, fun _ hc => ?_, fun h => (h hn).elim⟩
    · rcases h7 with ⟨rfl, rfl⟩ | ⟨e, rfl, g1, g2⟩
      · simp [hn]
      · simp only [reduceCtorEq, false_iff, not_and]; omega
    · rcases h7 with ⟨rfl, rfl⟩ | ⟨e, rfl, g1, g2⟩
      · omega
      · exact ⟨e, rfl, by simpa using g2⟩

/-- C67 fails in general: an input that can be finalized is not, because an earlier input has been finalized before and its
key origins have been removed. -/
theorem C67_independent_counterexample : ∃ (p q q' : Psbt gL) (j : Input gL), Sound p ∧ p.finalizeInp V2.FM 1 = .ok q' ∧
    q'.inputs[1]? = some j ∧ j.finalScriptWitness ≠ none ∧ p.finalizeMut V2.FM false = .ok (q, [.input .miniscript 1]) :=
  ⟨gP [zKeyed, zWsh [3]], (zAll (gP [zKeyed, zWsh [3]]) false).1, zOne (gP [zKeyed, zWsh [3]]) 1,
    onlyFinal (zWsh [3]) [] [[3, 0]], zSound _ (by decide), by decide +kernel, by decide +kernel, by decide +kernel,
    by decide +kernel⟩

/-- C67 fails for a PSBT that can be deserialized: finalizing panics if the non-witness UTXO of some input lacks the output
spent. -/
theorem C67_panic_counterexample : ∃ (p : Psbt gL) (s : String), p.inputs.length = p.unsignedTx.input.length ∧
    p.finalizeMut V2.FM false = .error (.panic s) := ⟨gP [zIn, zDangling], "index out of bounds", rfl, by decide +kernel⟩

example : Sound (gP [zIn, zWsh [3], zWsh [7]]) ∧ (gP [zIn, zWsh [3], zWsh [7]]).finalizeMut V2.FM false =
      .ok ((zAll (gP [zIn, zWsh [3], zWsh [7]]) false).1, [.input .miniscript 1]) ∧
    ((zAll (gP [zIn, zWsh [3], zWsh [7]]) false).1.inputs.map Input.finalScriptWitness) =
      [some [V2.fSig.der.bytes, V2.fKey.bytes], none, some [[7]]] :=
  ⟨zSound _ (by decide), by decide +kernel, by decide +kernel⟩
example : (gP [zIn, zWsh [7]]).finalizeMut V2.FM false = .ok ((zAll (gP [zIn, zWsh [7]]) false).1, []) := by decide +kernel
example : (∃ i ∈ (gP [zIn, Input.default gL]).inputs, Unfunded i) ∧
    (gP [zIn, Input.default gL]).finalizeMut V2.FM false = .ok (gP [zIn, Input.default gL], [.input .missingUtxo 1, .input .missingUtxo 1]) :=
  ⟨⟨Input.default gL, by simp [gP], rfl, rfl⟩, by decide +kernel⟩
-- The hypothesis of the partial theorem is met by scripts without key hashes.
def zPlain : Psbt gL := gP [{ gEcdsa (gIn [7, 8]) with sighashType := some 1 }, { gIn [7] with witnessScript := some [7, 9] }]
example (n : Nat) : SelfContained V2.FM zPlain n := by
  have key : ∀ (m m' : BMap (FixedBytes 20) gL.pubkey.T) (ctx : MsCtx) (s ms : Bytes), s.head? = some 7 →
      V2.FM.parse ctx s = some ms → V2.FM.substitute m ms = V2.FM.substitute m' ms := by
    intro m m' ctx s ms hs h
    simp only [V2.FM, Demo.msLib, hs, reduceCtorEq, if_false, Option.some.injEq, show ¬ ((7 : UInt8) = 0xff) by decide] at h ⊢
    subst h
    simp [hs]
  intro t i u hi hu
  have h2 := hi.2
  match n with
  | 0 =>
    cases h2; cases hu with
    | witness h =>
      cases h
      refine ⟨fun keys ctx s ms _ h h' => key _ _ ctx s ms ?_ h', fun _ _ _ _ _ _ h => by cases h⟩
      rcases h with h | h
      · cases h
      · subst h; rfl
    | nonWitness h => cases h
  | 1 =>
    cases h2; cases hu with
    | witness h =>
      cases h
      refine ⟨fun keys ctx s ms _ h h' => key _ _ ctx s ms ?_ h', fun _ _ _ _ _ _ h => by cases h⟩
      rcases h with h | h
      · cases h; rfl
      · subst h; rfl
    | nonWitness h => cases h
  | n + 2 => cases h2

/-! ### C68 -/

/-- Which result an input has in a PSBT in which some inputs have been finalized, if it needs no keys that only other inputs
list. -/
theorem result_back {p q : Psbt L} (hp : Sound p) (h : Same p q) {n : Nat} (hc : SelfContained M p n) (hn : q.inputs[n]? = p.inputs[n]?)
    {mall : Bool} {i : Input L} (hi : p.inputs[n]? = some i) {r} (hr : Result M q n mall r) : Result M p n mall r := by
  obtain ⟨r', hr'⟩ := result_total (M := M) (mall := mall) hp (n := n) (List.getElem?_eq_some_iff.mp hi).1
  rw [result_unique (h.sound hp) hr (result_self hp h hc hn hr')]
  exact hr'

theorem get_withFirst {p : Psbt L} {is : List (Input L)} (hl : is.length = p.inputs.length) (n : Nat) :
    (withFirst p n is).inputs[n]? = p.inputs[n]? := by
  by_cases hn : n < p.inputs.length
  · simp only [withFirst]
    rw [List.getElem?_append_right (by rw [List.length_take]; omega), List.length_take, List.getElem?_drop,
      show n + (n - min n is.length) = n by omega]
  · rw [List.getElem?_eq_none (l := p.inputs) (by omega), List.getElem?_eq_none]
    simp only [withFirst, List.length_append, List.length_take, List.length_drop]; omega

/-- C68. An input for which there are only malleable satisfactions is finalized by the functions for all inputs that allow them, and
is left as it is by those that do not, with an error; provided inputs need no keys that only other inputs list. -/
theorem C68_all_partial {p : Psbt L} (hp : Sound p) (hc : ∀ n, SelfContained M p n) {n : Nat} {i : Input L} (hi : p.inputs[n]? = some i)
    (ho : OnlyMalleable M p n) :
    (∃ q es s w, p.finalizeMut M true = .ok (q, es) ∧ Satisfiable M p n true s w ∧ q.inputs[n]? = some (V0.onlyFinal i s w)) ∧
    (∃ q es, p.finalizeMut M false = .ok (q, es) ∧ q.inputs[n]? = some i ∧ ∃ e ∈ es, Result M p n false (.error e)) ∧
    ∃ q e, p.finalizeHelper M false = .ok (q, .error e) ∧ q.inputs[n]? = some i := by
  obtain ⟨⟨s, w, k1, k2⟩, k3⟩ := ho
  have no : ∀ {r}, Result M p n false r → ∃ e, r = .error e := by
    intro r h
    cases h with
    | done _ h _ => exact absurd h (k3 _ _)
    | fails _ => exact ⟨_, rfl⟩
    | unfunded h _ => exact absurd h (k3 _ _)
    | refused h _ => exact absurd h (k3 _ _)
  refine ⟨?_, ?_, ?_⟩
  · obtain ⟨rs, is, h1, h2, h3, h4⟩ := finalizeMut_spec (M := M) hp true
    obtain ⟨r, g1, g2, g3, g4, g5⟩ := h4 n i hi
    cases result_unique hp (result_back hp g4 (hc n) (g5.trans hi.symm) hi g3) (.done hi k1 k2)
    exact ⟨_, _, s, w, h1, ⟨k1, k2⟩, g2⟩
  · obtain ⟨rs, is, h1, h2, h3, h4⟩ := finalizeMut_spec (M := M) hp false
    obtain ⟨r, g1, g2, g3, g4, g5⟩ := h4 n i hi
    have g := result_back hp g4 (hc n) (g5.trans hi.symm) hi g3
    obtain ⟨e, rfl⟩ := no g
    refine ⟨_, _, h1, g2, e, ?_, g⟩
    have := List.mem_of_getElem? g1
    clear h1 h2 h4 g1
    induction rs with
    | nil => cases this
    | cons a rs ih =>
      cases a with
      | ok a => exact ih (by simpa using this)
      | error a =>
        rcases List.mem_cons.mp this with h | h
        · cases h; exact List.mem_cons_self ..
        · exact List.mem_cons_of_mem _ (ih h)
  · unfold Psbt.finalizeHelper
    cases hs : p.sanityCheck with
    | error e => exact ⟨p, e, rfl, hi⟩
    | ok _ =>
      obtain ⟨c, q, r, h1, h2, h3, h4, h5, h6, h7⟩ := finalizeWhile_spec (M := M) (mall := false) p.inputs.length hp (k := 0) (by omega)
      have hl := (List.getElem?_eq_some_iff.mp hi).1
      have hcn : c ≤ n := Classical.byContradiction fun hn => by
        obtain ⟨s, w, -, -, g⟩ := h6 n i (by omega) (by omega) hi
        obtain ⟨e, he⟩ := no (result_back hp (same_withFirst h3 n) (hc n) (get_withFirst h3.length n) hi g)
        cases he
      rcases h7 with ⟨rfl, rfl⟩ | ⟨e, rfl, g1, g2⟩
      · omega
      · exact ⟨q, e, by simp only [List.range_eq_range']; exact h1, (h5 n (by omega)).trans hi⟩

/-- C68. The function that stops at the first error finalizes all inputs if malleable satisfactions are allowed and all inputs have
some; again provided inputs need no keys that only other inputs list. -/
theorem C68_whole_partial {p : Psbt L} (hp : Sound p) (ht : SigTypes p) (hc : ∀ n, SelfContained M p n)
    (ha : ∀ n < p.inputs.length, ∃ s w, Satisfiable M p n true s w) :
    ∃ q, p.finalizeHelper M true = .ok (q, .ok ()) ∧
      ∀ (n : Nat) i, p.inputs[n]? = some i → ∃ s w, Satisfiable M p n true s w ∧ q.inputs[n]? = some (V0.onlyFinal i s w) := by
  unfold Psbt.finalizeHelper
  rw [sanityCheck_ok.mpr ⟨hp.1, ht⟩]
  obtain ⟨c, q, r, h1, h2, h3, h4, h5, h6, h7⟩ := finalizeWhile_spec (M := M) (mall := true) p.inputs.length hp (k := 0) (by omega)
  rcases h7 with ⟨rfl, rfl⟩ | ⟨e, rfl, g1, g2⟩
  · refine ⟨q, by simp only [List.range_eq_range']; exact h1, fun n i hi => ?_⟩
    have hl := (List.getElem?_eq_some_iff.mp hi).1
    obtain ⟨s, w, e1, e2, e3⟩ := h6 n i (by omega) (by omega) hi
    obtain ⟨s', w', k1, k2⟩ := ha n hl
    have := result_unique hp (result_back hp (same_withFirst h3 n) (hc n) (get_withFirst h3.length n) hi e3) (.done hi k1 k2)
    exact ⟨s', w', ⟨k1, k2⟩, by rw [e1, Except.ok.inj this]⟩
  · rw [Nat.zero_add] at g2
    obtain ⟨s, w, k1, k2⟩ := ha c g1
    cases result_unique hp (result_back hp h3 (hc c) (h5 c (by omega)) (List.getElem?_eq_getElem g1) g2)
      (.done (List.getElem?_eq_getElem g1) k1 k2)

/-- C68. The function for one input that says it allows malleable satisfactions does what the other does: neither finalizes an input
for which there are only malleable ones. -/
theorem C68_single_partial {p : Psbt L} (hp : Sound p) (n : Nat) : p.finalizeInpMall M n = p.finalizeInp M n ∧
    (OnlyMalleable M p n → ∀ q, p.finalizeInpMall M n ≠ .ok q ∧ p.finalizeInp M n ≠ .ok q) := by
  refine ⟨rfl, fun ho q => ?_⟩
  have : p.finalizeInp M n ≠ .ok q := by
    intro h
    obtain ⟨j, hj, -⟩ := (C66_finalize_iff hp n q).mp h
    cases hj with
    | done _ h _ => exact ho.2 _ _ h
  exact ⟨this, this⟩

/-- C68 fails: `finalize_inp_mall` does not finalize an input that needs a malleable satisfaction, although
`finalize_mall_mut` does. -/
theorem C68_counterexample : ∃ (p q : Psbt gL), Sound p ∧ p.finalizeMut V2.FM true = .ok (q, []) ∧
    (q.inputs.map Input.finalScriptWitness) = [some [[5]]] ∧ p.finalizeInpMall V2.FM 0 = .error (.err (.input .miniscript 0)) :=
  ⟨gP [zWsh [5]], (zAll (gP [zWsh [5]]) true).1, zSound _ (by decide), by decide +kernel, by decide +kernel, by decide +kernel⟩

-- A library whose scripts have no key hashes, so that no input needs keys of another; a PSBT with an input for which there are only
-- malleable satisfactions meets the hypotheses of the three theorems.
def zM : MsLib gL := { V2.FM with substitute := fun _ b => b, tapSubstitute := fun _ b => b }
def zOnly : Psbt gL := gP [zWsh [7], zWsh [5]]
theorem zOnly_self (n : Nat) : SelfContained zM zOnly n := fun _ _ _ _ _ => ⟨fun _ _ _ _ _ _ _ => rfl, fun _ _ _ _ _ _ _ _ => rfl⟩
theorem zOnly_sound : Sound zOnly := zSound _ (by decide)
theorem zOnly_can : ∀ n < zOnly.inputs.length, ∃ s w, Satisfiable zM zOnly n true s w := by
  have key : ∀ n, ∀ j, (zOnly.finalizeInput zM n true) = .ok j → n < zOnly.inputs.length → ∃ s w, Satisfiable zM zOnly n true s w := by
    intro n j h hn
    obtain ⟨r, hr⟩ := result_total (M := zM) (mall := true) zOnly_sound hn
    have := result_sound zOnly_sound hr
    cases hr with
    | done h1 h2 h3 => exact ⟨_, _, h2, h3⟩
    | fails _ => simp only [h, reduceCtorEq] at this
    | unfunded _ _ => simp only [h, reduceCtorEq] at this
    | refused _ _ => simp only [h, reduceCtorEq] at this
  intro n hn
  match n, hn with
  | 0, hn => exact key 0 (match zOnly.finalizeInput zM 0 true with | .ok q => q | .error _ => zOnly) (by decide +kernel) hn
  | 1, hn => exact key 1 (match zOnly.finalizeInput zM 1 true with | .ok q => q | .error _ => zOnly) (by decide +kernel) hn
example : OnlyMalleable zM zOnly 1 := by
  refine ⟨zOnly_can 1 (by decide), fun s w h => ?_⟩
  have h2 : zOnly.satisfyInput zM 1 false = .error (.err (.input .miniscript 1)) := by decide +kernel
  have := h2.symm.trans (scripts_sound h)
  simp at this
example : SigTypes zOnly := (sanityCheck_ok.mp (by decide +kernel)).2

/-! ### C69 -/

/-- C69. When extracting succeeds and what is extracted: there are as many input maps as inputs, the partial signatures have
the declared types, every input has a final script, and the interpreter accepts the final scripts; the transaction is the
unsigned one with the final scripts filled in. -/
theorem C69_extract_iff (p : Psbt L) (tx : Tx) : p.extract M = .ok tx ↔
    p.inputs.length = p.unsignedTx.input.length ∧ SigTypes p ∧ AllFinal p ∧
    (∀ (n : Nat) i, p.inputs[n]? = some i → Verdict M p n (i.finalScriptSig.getD []) (i.finalScriptWitness.getD []) none) ∧
    tx.version = p.unsignedTx.version ∧ tx.lockTime = p.unsignedTx.lockTime ∧ tx.output = p.unsignedTx.output ∧
    tx.input.length = p.unsignedTx.input.length ∧
    ∀ (n : Nat) t i s, HasInput p n t i → tx.input[n]? = some s → FilledIn t i s := extract_ok

theorem onlyFinal_getD {i : Input L} {s : Bytes} {w : List Bytes} :
    (onlyFinal i s w).finalScriptSig.getD [] = s ∧ (onlyFinal i s w).finalScriptWitness.getD [] = w := by
  constructor
  · simp only [V0.onlyFinal]
    by_cases h : s = []
    · simp [h]
    · simp [h]
  · simp only [V0.onlyFinal]
    by_cases h : w = []
    · simp [h]
    · simp [h]

theorem same_of_mut {p q : Psbt L} (hp : Sound p) {mall : Bool} {es : List (FinErr L)} (h : p.finalizeMut M mall = .ok (q, es)) :
    Same p q := by
  obtain ⟨rs, is, h1, h2, h3, h4, h5⟩ := finalizeEach_spec (M := M) (mall := mall) hp (k := 0) (m := p.inputs.length) (by omega)
  unfold Psbt.finalizeMut at h
  rw [List.range_eq_range', h3] at h
  cases h
  exact h4

/-- C69. After finalizing all inputs without errors the transaction can be extracted, except if for some input neither a
script sig nor a witness is needed. -/
theorem C69_after_finalize_partial {p q : Psbt L} (hp : Sound p) {mall : Bool} (h : p.finalizeMut M mall = .ok (q, [])) :
    (∃ tx, q.extract M = .ok tx) ↔ AllFinal q := by
  constructor
  · rintro ⟨tx, h⟩; exact (extract_ok.mp h).2.2.1
  · intro hf
    have hs := same_of_mut hp h
    have hq := hs.sound hp
    have hok := C67_ok hp h
    have hsig : SigTypes q := by
      intro j hj
      obtain ⟨n, hn⟩ := List.getElem?_of_mem hj
      have hl := (List.getElem?_eq_some_iff.mp hn).1
      rw [hs.length] at hl
      obtain ⟨s, w, h1, -⟩ := hok n _ (List.getElem?_eq_getElem hl)
      cases hn.symm.trans h1
      exact ⟨⟨0x01, by decide⟩, .inl ⟨rfl, rfl⟩, fun pk sig h => by cases h⟩
    have hv : ∀ (n : Nat) i, q.inputs[n]? = some i → Verdict M q n (i.finalScriptSig.getD []) (i.finalScriptWitness.getD []) none := by
      intro n j hn
      have hl := (List.getElem?_eq_some_iff.mp hn).1
      rw [hs.length] at hl
      obtain ⟨s, w, h1, h2⟩ := hok n _ (List.getElem?_eq_getElem hl)
      cases hn.symm.trans h1
      rw [onlyFinal_getD.1, onlyFinal_getD.2]
      exact hs.verdict h2
    obtain ⟨r, he⟩ := extractFrom_total (n := 0) hq.1 hf
    obtain ⟨g1, g2, g3⟩ := (extractFrom_ok hq.1).mp he
    exact ⟨{ q.unsignedTx with input := r }, extract_ok.mpr ⟨hq.1, hsig, hf, hv, rfl, rfl, rfl, g2,
      fun n t i s hi hs => g3 n t i s hi.1 hi.2 hs⟩⟩

/-- C69. If the inputs of the unsigned transaction have neither script sigs nor witnesses, as is checked for every
transaction a PSBT is made from, the extracted transaction is the one `extract_tx_unchecked_fee_rate` gives. -/
theorem C69_unchecked {p : Psbt L} {tx : Tx} (hu : ∀ t ∈ p.unsignedTx.input, t.scriptSig = [] ∧ t.witness = [])
    (h : p.extract M = .ok tx) : tx = p.extractUnchecked := by
  unfold Psbt.extract at h
  rw [bind_ok] at h
  obtain ⟨-, -, h⟩ := h
  rw [bind_ok] at h
  obtain ⟨r, h1, h⟩ := h
  rw [bind_ok] at h
  obtain ⟨-, -, h⟩ := h
  cases h
  rw [extractFrom_fill h1 hu]
  rfl

/-- C69. What each error of extracting means. It does not panic if the non-witness UTXOs that are needed have the output
spent. -/
theorem C69_errors {p : Psbt L} (hr : IndicesInRange p) {e : Fail (FinErr L)} (h : p.extract M = .error e) :
    match (generalizing := false) e with
    | .err (.wrongInputCount a b) => a = p.unsignedTx.input.length ∧ b = p.inputs.length ∧ a ≠ b
    | .err (.missingWitness n) => ∃ i, p.inputs[n]? = some i ∧ i.finalScriptSig = none ∧ i.finalScriptWitness = none
    | .err (.input .nonStandardSighashType _) => ¬ SigTypes p
    | .err (.input (.wrongSighashFlag _ _ _) _) => ¬ SigTypes p
    | .err (.input .missingUtxo n) => FirstUnfunded p n
    | .err (.input (.interpreter e) n) =>
        ∃ i, p.inputs[n]? = some i ∧ Verdict M p n (i.finalScriptSig.getD []) (i.finalScriptWitness.getD []) (some e)
    | _ => False := by
  unfold Psbt.extract at h
  cases h1 : p.sanityCheck with
  | error e =>
    rw [h1] at h
    cases h
    by_cases hl : p.unsignedTx.input.length = p.inputs.length
    · have hs : ¬ SigTypes p := fun hs => by
        have := sanityCheck_ok.mpr ⟨hl.symm, hs⟩
        rw [h1] at this; cases this
      unfold Psbt.sanityCheck at h1
      rw [if_neg (by simp [hl])] at h1
      rcases sanityFrom_error h1 with ⟨k, rfl⟩ | ⟨ty, t, key, k, rfl⟩
      · exact hs
      · exact hs
    · unfold Psbt.sanityCheck at h1
      rw [if_pos hl] at h1
      cases h1
      exact ⟨rfl, rfl, hl⟩
  | ok _ =>
    have hl := (sanityCheck_ok.mp h1).1
    rw [h1] at h
    have hp : Sound p := ⟨hl, hr⟩
    simp only [V2.orFail, ok_bind] at h
    cases h2 : extractFrom 0 p.unsignedTx.input p.inputs with
    | error e' =>
      rw [h2] at h
      cases h
      obtain ⟨k, i, g1, g2, g3, rfl⟩ := extractFrom_error hl h2
      rw [Nat.zero_add]
      exact ⟨i, g1, g2, g3⟩
    | ok r =>
      simp only [h2, ok_bind] at h
      cases h3 : p.interpreterCheck M with
      | ok _ => rw [h3] at h; cases h
      | error e' =>
        rw [h3] at h
        cases h
        unfold Psbt.interpreterCheck at h3
        rcases prevouts_cases hp with ⟨us, g1, g2⟩ | ⟨k, g1, g2⟩
        · rw [g1] at h3
          simp only [ok_bind] at h3
          obtain ⟨k, i, e', k1, rfl, k2⟩ := interpFrom_error g2 (n := 0) rfl h3
          exact ⟨i, k1, k2⟩
        · rw [g1] at h3
          cases h3
          exact g2

/-- C69 fails: an input whose script needs no script sig and no witness is finalized without error, but then the
transaction cannot be extracted. -/
theorem C69_empty_counterexample : ∃ (p q : Psbt gL), Sound p ∧ p.finalizeMut V2.FM false = .ok (q, []) ∧
    q.extract V2.FM = .error (.err (.missingWitness 0)) :=
  ⟨gP [gIn [7, 8]], (zAll (gP [gIn [7, 8]]) false).1, zSound _ (by decide), by decide +kernel, by decide +kernel⟩

/-- C69 fails for taproot inputs that declare the default sighash type: extracting is an error though all is final. -/
theorem C69_default_type_counterexample : ∃ (p : Psbt gL), Sound p ∧ AllFinal p ∧ p.extract V2.FM = .error (.err (.input .nonStandardSighashType 0)) :=
  ⟨gP [{ gIn V2.spkTr with sighashType := some 0, finalScriptWitness := some [[1]] }], zSound _ (by decide),
    by simp [AllFinal, gP], by decide +kernel⟩

def zTx : Tx := match (zAll (gP [zIn, zWsh [7]]) false).1.extract V2.FM with | .ok t => t | .error _ => ⟨0, 0, [], []⟩
example : (zAll (gP [zIn, zWsh [7]]) false).1.extract V2.FM = .ok zTx ∧ zTx.input.map TxIn.witness = [[V2.fSig.der.bytes, V2.fKey.bytes], [[7]]] :=
  by decide +kernel

/-! ### C64, C65 -/

/-- C64. The finalizer uses the signatures, keys, scripts and preimages the input holds, finds all of them, and uses
nothing else. -/
theorem C64_v0_answers (p : Psbt L) (n : Nat) (i : Input L) : Answers M (V0.held i) (p.satisfier M n i) where
  keySpend := rfl
  leafSig _ _ _ := Iff.rfl
  scripts := rfl
  sig _ _ := Iff.rfl
  hashSig kh pk sig h := by
    obtain ⟨⟨a, b⟩, hm, hp, he⟩ := findMap_some h
    cases he
    exact ⟨BMap.mem_iff_get.mp hm, beq_iff_eq.mp hp⟩
  hashSigAll pk sig h := findMap_ne (BMap.mem_iff_get.mpr h) (by simp)
  hashLeafSig kh leaf pk sig h := by
    obtain ⟨⟨⟨a, l⟩, b⟩, hm, hp, he⟩ := findMap_some h
    cases he
    simp only [Bool.and_eq_true, beq_iff_eq] at hp
    obtain ⟨h1, rfl⟩ := hp
    exact ⟨BMap.mem_iff_get.mp hm, h1⟩
  hashLeafSigAll pk leaf sig h := findMap_ne (BMap.mem_iff_get.mpr h) (by simp)
  hashKey kh pk h := by
    obtain ⟨a, hm, hp, he⟩ := findMap_some h
    subst he
    exact ⟨⟨a.1, List.mem_map.mpr ⟨a, hm, rfl⟩, rfl⟩, beq_iff_eq.mp hp⟩
  hashKeyAll k hk := by
    obtain ⟨a, hm, rfl⟩ := List.mem_map.mp hk
    exact findMap_ne hm (by simp)
  ripemd160 _ _ := preimage_iff
  sha256 _ _ := preimage_iff
  hash160 _ _ := preimage_iff
  hash256 _ _ := preimage_iff

example : ((gP [zIn]).satisfier V2.FM 0 zIn).rawPkhEcdsaSig (gL.hash160 V2.fKey.bytes) = some (V2.fKey, V2.fSig) := by decide +kernel

/-- C65. For a PSBT v0 the finalizer considers an absolute lock met exactly if `CHECKLOCKTIMEVERIFY` passes in the unsigned
transaction; its lock time and sequence numbers are those of the extracted transaction (`C69_extract_iff`). -/
theorem C65_v0_after {p : Psbt L} {n : Nat} {t : TxIn} {i : Input L} (hi : HasInput p n t i) (l : AbsLock) :
    (p.satisfier M n i).after l = true ↔ CltvPasses (absOperand l) p.unsignedTx.lockTime t.sequence := by
  have hth : LOCK_TIME_THRESHOLD.toNat = 500000000 := rfl
  simp only [Psbt.satisfier, hi.1, checkAfter, CltvPasses]
  by_cases hs : t.sequence = SEQUENCE_MAX
  · rw [if_pos hs]
    simp only [Bool.false_eq_true, false_iff]
    rintro ⟨-, -, h⟩
    exact h (by rw [hs]; rfl)
  · rw [if_neg hs]
    have hs' : t.sequence.toNat ≠ 0xFFFFFFFF := fun h => hs (UInt32.toNat_inj.mp h)
    unfold absOfConsensus
    by_cases hl : p.unsignedTx.lockTime < LOCK_TIME_THRESHOLD
    · rw [dif_pos hl]
      have hl' := UInt32.lt_iff_toNat_lt.mp hl
      rw [hth] at hl'
      cases l with
      | blocks b =>
        have hb := UInt32.lt_iff_toNat_lt.mp b.2
        rw [hth] at hb
        simp only [decide_eq_true_eq, UInt32.le_iff_toNat_le, absOperand]
        exact ⟨fun h => ⟨⟨fun _ => hl', fun _ => hb⟩, h, hs'⟩, fun h => h.2.1⟩
      | seconds b =>
        have hb := UInt32.le_iff_toNat_le.mp b.2
        rw [hth] at hb
        simp only [Bool.false_eq_true, false_iff, absOperand]
        rintro ⟨h, -⟩
        have := h.mpr hl'
        omega
    · rw [dif_neg hl]
      have hl' := UInt32.le_iff_toNat_le.mp (UInt32.not_lt.mp hl)
      rw [hth] at hl'
      cases l with
      | blocks b =>
        have hb := UInt32.lt_iff_toNat_lt.mp b.2
        rw [hth] at hb
        simp only [Bool.false_eq_true, false_iff, absOperand]
        rintro ⟨h, -⟩
        have := h.mp hb
        omega
      | seconds b =>
        have hb := UInt32.le_iff_toNat_le.mp b.2
        rw [hth] at hb
        simp only [decide_eq_true_eq, UInt32.le_iff_toNat_le, absOperand]
        exact ⟨fun h => ⟨⟨fun _ => by omega, fun _ => by omega⟩, h, hs'⟩, fun h => h.2.1⟩

theorem version_lt {v : UInt32} : v.toInt32 < 2 ↔ v.toNat < 2 ∨ 2 ^ 31 ≤ v.toNat := by
  have hv := v.toNat_lt
  have e : v.toInt32.toInt = v.toBitVec.toInt := rfl
  rw [Int32.lt_iff_toInt_lt, e, BitVec.toInt_eq_toNat_cond, show (2 : Int32).toInt = 2 from rfl]
  have : v.toBitVec.toNat = v.toNat := rfl
  rw [this]
  split <;> omega

/-- C65. For a PSBT v0 the finalizer considers a relative lock met exactly if `CHECKSEQUENCEVERIFY` passes in the unsigned
transaction and the transaction version is not 2^31 or more (then it never does). -/
theorem C65_v0_older {p : Psbt L} {n : Nat} {t : TxIn} {i : Input L} (hi : HasInput p n t i) (l : RelLock) :
    (p.satisfier M n i).older l = true ↔
      CsvPasses (relOperand l) p.unsignedTx.version t.sequence ∧ p.unsignedTx.version.toNat < 2 ^ 31 := by
  have b31 := bit_ne_zero t.sequence 31 (by omega) 0x80000000 rfl
  have hs := t.sequence.toNat_lt
  simp only [Psbt.satisfier, hi.1, checkOlder]
  by_cases hc : (p.unsignedTx.version.toInt32 < 2 || t.sequence &&& 0x80000000 ≠ 0) = true
  · rw [if_pos hc]
    simp only [Bool.or_eq_true, decide_eq_true_eq, version_lt, b31] at hc
    simp only [Bool.false_eq_true, false_iff, CsvPasses]
    rintro ⟨⟨h1, h2, -⟩, h3⟩
    omega
  · have key : (match relOfSequence t.sequence with | none => false | some lock => l.isImpliedBy lock) = true ↔
        CsvPasses (relOperand l) 2 t.sequence := by
      rw [← implied_iff]
      cases relOfSequence t.sequence <;> rfl
    rw [if_neg hc]
    refine Iff.trans (b := CsvPasses (relOperand l) 2 t.sequence) (by rw [← key]; cases relOfSequence t.sequence <;> rfl) ?_
    simp only [Bool.or_eq_true, decide_eq_true_eq, version_lt, b31] at hc
    simp only [CsvPasses]
    constructor
    · rintro ⟨-, h⟩; exact ⟨⟨by omega, h⟩, by omega⟩
    · rintro ⟨⟨-, h⟩, -⟩; exact ⟨by decide, h⟩

/-- C65 fails for transaction versions of 2^31 and more, which consensus treats as at least 2: the lock is met, but the
finalizer does not use it. -/
theorem C65_v0_older_counterexample : ∃ (p : Psbt gL) (t : TxIn) (i : Input gL), HasInput p 0 t i ∧
    CsvPasses (relOperand (.blocks 10)) p.unsignedTx.version t.sequence ∧ (p.satisfier V2.FM 0 i).older (.blocks 10) = false :=
  ⟨{ gP [zWsh [2]] with unsignedTx := ⟨0x80000002, 0, [⟨⟨Demo.rep 32 7, 0⟩, [], 10, []⟩], []⟩ }, ⟨⟨Demo.rep 32 7, 0⟩, [], 10, []⟩, zWsh [2],
    ⟨rfl, rfl⟩, by unfold CsvPasses; decide, by decide +kernel⟩

-- Locks that are met and are not.
example : ({ gP [zWsh [2]] with unsignedTx := ⟨2, 100, [⟨⟨Demo.rep 32 7, 0⟩, [], 10, []⟩], []⟩ } : Psbt gL).satisfier V2.FM 0 (zWsh [2])
    |> fun s => s.older (.blocks 10) = true ∧ s.older (.blocks 11) = false ∧ s.older (.time 1) = false ∧
      s.after (.blocks ⟨100, by decide⟩) = true ∧ s.after (.blocks ⟨101, by decide⟩) = false ∧
      s.after (.seconds ⟨500000000, by decide⟩) = false := by decide +kernel

end Psbt.V0
