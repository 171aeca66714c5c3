/- C83: the life of a PSBT v2 from its creation to the transaction extracted from it. -/
import Verif.Spec.Lifecycle
import Verif.Props.V2Combine
import Verif.Props.V2Extract
import Verif.Props.V2Finalize
import Verif.Props.V2HandOver
namespace Psbt.V2
open Psbt

variable {L : Lib} {S : SigLib L} {M : MsLib L}

/-- What inputs and outputs a PSBT moves. -/
def moved (p : Psbt L) : UInt32 × List OutPoint × List TxOut :=
  (p.global.txVersion, p.inputs.map Input.outPoint, p.outputs.map Output.txOut)

theorem moved_of {p q : Psbt L} (hg : q.global.txVersion = p.global.txVersion) (hi : q.inputs.map Input.outPoint = p.inputs.map Input.outPoint)
    (ho : q.outputs.map Output.txOut = p.outputs.map Output.txOut) : moved q = moved p := by
  unfold moved
  rw [hg, hi, ho]

theorem map_set {α β : Type} {f : α → β} {l : List α} {n : Nat} {i j : α} (h : l[n]? = some i) (e : f j = f i) :
    (l.set n j).map f = l.map f := by
  rw [List.map_set, e]
  refine List.ext_getElem? fun k => ?_
  rw [List.getElem?_set]
  split
  · rename_i hk
    subst hk
    split
    · rw [List.getElem?_map, h]; rfl
    · rename_i hl
      rw [List.getElem?_eq_none_iff.mpr (by omega)]
  · rfl

theorem worked_moved {p q : Psbt L} (h : Spec.Worked S M p q) : moved q = moved p := by
  induction h with
  | refl => rfl
  | setInput _ hi h1 h2 ih =>
    refine Eq.trans ?_ ih
    refine moved_of rfl (map_set hi ?_) rfl
    simp only [Input.outPoint, h1, h2]
  | setOutput _ hi h1 h2 ih =>
    refine Eq.trans ?_ ih
    refine moved_of rfl rfl (map_set hi ?_)
    simp only [Output.txOut, h1, h2]
  | updaterNew _ h ih => rw [(updaterNew_ok h).1]; exact ih
  | setSequence _ h ih =>
    obtain ⟨-, i, hi, rfl⟩ := setSequence_ok h
    refine Eq.trans ?_ ih
    refine moved_of rfl (map_set hi ?_) rfl
    rfl
  | signerNew _ h ih => rw [(signerNew_ok h).1]; exact ih
  | @sign q r _ _ _ _ h ih =>
    have he := C33_frame h
    refine Eq.trans ?_ ih
    have e1 : moved (Spec.erase r) = moved (Spec.erase q) := by rw [he]
    have e2 : ∀ x : Psbt L, moved (Spec.erase x) = moved x := fun x =>
      moved_of rfl (by simp only [Spec.erase, List.map_map]; rfl) rfl
    rw [e2, e2] at e1
    exact e1
  | combine _ h ih =>
    obtain ⟨-, -, -, ⟨-, h1, -⟩, h2, h3⟩ := C24_agreement_partial h
    exact (moved_of h1 h2 h3).trans ih
  | finalizerNew _ h ih => rw [((C41_new_iff _ _).mp h).1]; exact ih
  | @finalize q f r debug _ hn h ih =>
    obtain ⟨rfl, hf, -⟩ := (C41_new_iff _ _).mp hn
    obtain ⟨hg, ho, hl, hr, -⟩ := (C41_finalize_iff hf debug r).mp h
    refine (moved_of (by rw [hg]) ?_ (by rw [ho])).trans ih
    refine List.ext_getElem? fun n => ?_
    rw [List.getElem?_map, List.getElem?_map]
    cases hj : r.inputs[n]? with
    | none => rw [List.getElem?_eq_none_iff.mpr (by rw [← hl]; exact List.getElem?_eq_none_iff.mp hj)]
    | some j =>
      obtain ⟨i, hi⟩ : ∃ i, f.inputs[n]? = some i :=
        ⟨_, List.getElem?_eq_getElem (by rw [← hl]; exact (List.getElem?_eq_some_iff.mp hj).1)⟩
      have := hr n i j hi hj
      rw [hi]
      generalize hx : (Except.ok j : Except (FinalizeInputErr L) (Input L)) = x at this
      cases this with
      | segwit _ _ _ => rw [Except.ok.inj hx]; rfl
      | legacy _ _ => rw [Except.ok.inj hx]; rfl
      | noWitness _ _ => cases hx
      | fails _ => cases hx

theorem extractUnchecked_moves {q : Psbt L} {t : Tx} (h : Extractor.extractUnchecked q = .ok t) :
    t.version = q.global.txVersion ∧ Spec.Moves t (q.inputs.map Input.outPoint) (q.outputs.map Output.txOut) := by
  obtain ⟨-, n, ts, -, hts, rfl⟩ := extractUnchecked_ok.mp h
  refine ⟨rfl, ?_, rfl⟩
  refine List.ext_getElem? fun k => ?_
  have hk : (q.inputs.map Input.signedTxIn)[k]? = (ts.map Except.ok)[k]? := by rw [hts]
  rw [List.getElem?_map, List.getElem?_map] at hk ⊢
  cases hi : q.inputs[k]? with
  | none =>
    rw [hi] at hk
    cases ht : ts[k]? with
    | none => rfl
    | some t => rw [ht] at hk; cases hk
  | some i =>
    rw [hi] at hk
    cases ht : ts[k]? with
    | none => rw [ht] at hk; cases hk
    | some t =>
      rw [ht] at hk
      simp only [Option.map_some, Option.some.injEq] at hk ⊢
      unfold Input.signedTxIn at hk
      split at hk
      · rw [← Except.ok.inj hk]
      · cases hk

/-- C83, from end to end. The creator and the constructor make a PSBT of these inputs and outputs; it goes through any number of
calls of the other roles, combining with anything; whatever transaction is extracted in the end, in whichever way, has the
version chosen, spends the outpoints of these inputs and pays these outputs, in this order. Missing from the full property:
the lock time and the sequence numbers, see `C83_final_lock_time` and `C40_unsigned_tx_counterexample`. -/
theorem C83_end_to_end_partial {p q : Psbt L} {is : List (Input L)} {os : List (Output L)} (hb : Spec.Built .psbt p is os)
    (h : Spec.Worked S M p q) {t : Tx}
    (ht : Extractor.extractUnchecked q = .ok t ∨ Extractor.extractTx q = .ok t ∨ ∃ max, Extractor.extractWithLimit q max = .ok t) :
    t.version = p.global.txVersion ∧
    Spec.Moves t (is.map fun i => ⟨i.previousTxid, i.spentOutputIndex⟩) (os.map fun o => ⟨o.amount, o.scriptPubkey⟩) := by
  have hu : Extractor.extractUnchecked q = .ok t := by
    rcases ht with h | h | ⟨max, h⟩
    · exact h
    · exact ((C32_with_limit_iff _ t).mp h).1
    · exact ((C32_with_limit_iff _ t).mp h).1
  obtain ⟨h1, h2⟩ := extractUnchecked_moves hu
  have hm := worked_moved h
  unfold moved at hm
  simp only [Prod.mk.injEq] at hm
  obtain ⟨m1, m2, m3⟩ := hm
  obtain ⟨rfl, rfl, -⟩ := C19_counts hb
  rw [m2, m3] at h2
  exact ⟨h1.trans m1, h2⟩

/-- C83. What becomes of lock time and sequence numbers: a transaction extracted from what the finalizer returns has the fallback
lock time (or none) and final sequence numbers everywhere, whatever lock times and sequence numbers the inputs asked for. -/
theorem C83_final_lock_time {p q : Psbt L} {debug : Bool} (hn : Finalizer.new p = .ok p) (hf : Finalizer.finalize M debug p = .ok q) {t : Tx}
    (ht : Extractor.extractUnchecked q = .ok t) :
    t.lockTime = p.global.fallbackLockTime.getD 0 ∧ ∀ x ∈ t.input, x.sequence = 0xFFFFFFFF := by
  obtain ⟨-, hfund, -⟩ := (C41_new_iff p p).mp hn
  obtain ⟨hg, ho, hl, hr, -⟩ := (C41_finalize_iff hfund debug q).mp hf
  have hin : ∀ j ∈ q.inputs, j.sequence = none ∧ j.minTime = none ∧ j.minHeight = none := by
    intro j hj
    obtain ⟨n, hjn⟩ := List.mem_iff_getElem?.mp hj
    obtain ⟨i, hi⟩ : ∃ i, p.inputs[n]? = some i :=
      ⟨_, List.getElem?_eq_getElem (by rw [← hl]; exact (List.getElem?_eq_some_iff.mp hjn).1)⟩
    have := hr n i j hi hjn
    generalize hx : (Except.ok j : Except (FinalizeInputErr L) (Input L)) = x at this
    cases this with
    | segwit _ _ _ => rw [Except.ok.inj hx]; exact ⟨rfl, rfl, rfl⟩
    | legacy _ _ => rw [Except.ok.inj hx]; exact ⟨rfl, rfl, rfl⟩
    | noWitness _ _ => cases hx
    | fails _ => cases hx
  obtain ⟨-, n, ts, hlt, hts, rfl⟩ := extractUnchecked_ok.mp ht
  constructor
  · rw [C17_lock_time_iff] at hlt
    have hu : ∀ j ∈ q.inputs, ¬ Spec.Constrained j := fun j hj => by
      obtain ⟨-, h1, h2⟩ := hin j hj
      unfold Spec.Constrained
      rw [h1, h2]; simp
    rw [← hg]
    exact lockTime_unique hlt (.fallback hu)
  · intro x hx
    obtain ⟨k, hk⟩ := List.mem_iff_getElem?.mp hx
    have e : (q.inputs.map Input.signedTxIn)[k]? = (ts.map Except.ok)[k]? := by rw [hts]
    rw [List.getElem?_map, List.getElem?_map, hk] at e
    cases hi : q.inputs[k]? with
    | none => rw [hi] at e; cases e
    | some j =>
      rw [hi] at e
      simp only [Option.map_some, Option.some.injEq] at e
      unfold Input.signedTxIn at e
      split at e
      · rw [← Except.ok.inj e, (hin j (List.mem_of_getElem? hi)).1]; rfl
      · cases e

section Examples
theorem lc_built : Spec.Built .psbt ho4 [hoIn] [hoOut] :=
  .updater (m := .modifiable) (.output (is := [hoIn]) (os := []) (by decide)
    (.input (is := []) (by decide) (.constructorModifiable (.fallbackLockTime 7 .new)) rfl) rfl) rfl
/-- Set sequence, fill in the key origin, sign, combine with a copy without signature, finalize. -/
def lcIn : Input EL := { hoIn with sequence := some 9 }
def lc1 : Psbt EL := { ho5 with inputs := ho5.inputs.set 0 { lcIn with bip32Derivations := sOrigin } }
def lc2 : Psbt EL × Except (BMap Nat (List EL.pubkey.T) × BMap Nat SignErr) (BMap Nat (List EL.pubkey.T)) :=
  ok! (lc1, .ok .empty) (lc1.sign SS (sTx lc1) sKeys)
def lc3 : Psbt EL := ok! ho5 (lc2.1.combine ho5)
theorem lc_worked : Spec.Worked SS FM ho4 (fDone lc3) :=
  .finalize (f := lc3) (debug := true)
    (.combine (q := lc2.1) (r := lc3) (o := ho5) (.sign (q := lc1) (r := lc2.1) (tx := sTx lc1) (k := sKeys) (e := lc2.2)
      (.setInput (n := 0) (i := lcIn) (.setSequence (n := 9) (k := 0) .refl rfl) rfl rfl rfl)
      (ok!_eq (d := (lc1, .ok .empty)) (by decide +kernel))) (ok!_eq (d := ho5) (by decide +kernel)))
    (by decide +kernel) (by decide +kernel)
example : Extractor.new (fDone lc3) = .ok (fDone lc3) ∧ (Extractor.extractUnchecked (fDone lc3)).isOk = true ∧
    ∃ i ∈ lc3.inputs, i.sequence = some 9 := by
  refine ⟨extractorNew_ok.mpr ⟨rfl, by decide +kernel, 7, by decide +kernel⟩, by decide +kernel, by decide +kernel⟩
end Examples

end Psbt.V2
