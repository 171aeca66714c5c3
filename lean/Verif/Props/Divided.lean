/- C128: parties finalize their own inputs and combine. -/
import Verif.Spec.Divided
import Verif.Props.V0Finalize
import Verif.Lemmas.V0Combine
namespace Psbt.V0
open Psbt Psbt.Spec Psbt.Spec.V0

variable {L : Lib} {M : MsLib L}

theorem CopyOf.same {p q : Psbt L} (h : CopyOf p q) : Same p q := by
  obtain ⟨h1, h2, h3⟩ := h
  refine ⟨h1, List.ext_getElem? fun n => ?_⟩
  rw [List.getElem?_map, List.getElem?_map]
  cases hp : p.inputs[n]? with
  | none =>
    rw [List.getElem?_eq_none (l := q.inputs) (by rw [h2]; exact List.getElem?_eq_none_iff.mp hp)]
  | some i =>
    have hl := (List.getElem?_eq_some_iff.mp hp).1
    obtain ⟨e1, e2⟩ := h3 n i _ hp (List.getElem?_eq_getElem (by omega : n < q.inputs.length))
    rw [List.getElem?_eq_getElem (by omega : n < q.inputs.length)]
    simp only [Option.map_some, e1, e2]

/-- The inputs of a combination. -/
theorem combine_inputs {a b r : Psbt L} (h : a.combine b = (r, .ok ())) : a.unsignedTx = b.unsignedTx ∧ r.unsignedTx = a.unsignedTx ∧
    r.inputs = combineZip Input.combine a.inputs b.inputs := by
  obtain ⟨h1, -, h2⟩ := combine_ok.mp h
  exact ⟨h1, by rw [h2], by rw [h2]⟩

theorem combine_at {a b r : Psbt L} (h : a.combine b = (r, .ok ())) (hl : a.inputs.length = b.inputs.length) {n : Nat} {k : Input L}
    (hk : r.inputs[n]? = some k) : ∃ i j, a.inputs[n]? = some i ∧ b.inputs[n]? = some j ∧ k = i.combine j := by
  obtain ⟨-, -, h3⟩ := combine_inputs h
  rw [h3, combineZip_getElem?] at hk
  cases ha : a.inputs[n]? with
  | none => rw [ha] at hk; simp at hk
  | some i =>
    have := (List.getElem?_eq_some_iff.mp ha).1
    have hb := List.getElem?_eq_getElem (by omega : n < b.inputs.length)
    rw [ha, hb] at hk
    simp at hk
    exact ⟨i, _, rfl, hb, hk.symm⟩

theorem isFinal_iff {i : Input L} : ¬ IsFinal i ↔ i.finalScriptSig = none ∧ i.finalScriptWitness = none := by
  unfold IsFinal
  cases i.finalScriptSig <;> cases i.finalScriptWitness <;> simp

theorem combOpt_none {α : Type} (x : Option α) : V2.combOpt x none = x := by cases x <;> rfl
theorem none_combOpt {α : Type} (x : Option α) : V2.combOpt none x = x := by cases x <;> rfl

theorem final_combine {i j : Input L} (h : ¬ (IsFinal i ∧ IsFinal j)) : (IsFinal (i.combine j) ↔ IsFinal i ∨ IsFinal j) ∧
    (IsFinal i → SameFinal (i.combine j) i) ∧ (IsFinal j → SameFinal (i.combine j) j) := by
  by_cases hi : IsFinal i
  · obtain ⟨e1, e2⟩ := isFinal_iff.mp (fun hj => h ⟨hi, hj⟩)
    have : SameFinal (i.combine j) i := by
      simp only [SameFinal, Input.combine, e1, e2, combOpt_none, and_self]
    refine ⟨⟨fun _ => .inl hi, fun _ => ?_⟩, fun _ => this, fun hj => (h ⟨hi, hj⟩).elim⟩
    unfold IsFinal
    rw [this.1, this.2]
    exact hi
  · obtain ⟨e1, e2⟩ := isFinal_iff.mp hi
    have : SameFinal (i.combine j) j := by
      simp only [SameFinal, Input.combine, e1, e2, none_combOpt, and_self]
    refine ⟨?_, fun h => (hi h).elim, fun _ => this⟩
    unfold IsFinal
    rw [this.1, this.2, e1, e2]
    simp

theorem Same.length_eq {p a b : Psbt L} (ha : Same p a) (hb : Same p b) : a.inputs.length = b.inputs.length := ha.length.trans hb.length.symm

theorem combine_same {p a b r : Psbt L} (ha : Same p a) (hb : Same p b) (h : a.combine b = (r, .ok ())) : Same p r := by
  obtain ⟨-, h2, h3⟩ := combine_inputs h
  refine ⟨h2.trans ha.1, ?_⟩
  rw [← ha.2]
  refine List.ext_getElem? fun n => ?_
  rw [List.getElem?_map, List.getElem?_map]
  cases hr : r.inputs[n]? with
  | none =>
    have := List.getElem?_eq_none_iff.mp hr
    rw [h3, combineZip_length] at this
    rw [List.getElem?_eq_none (l := a.inputs) this]
  | some k =>
    obtain ⟨i, j, h4, h5, rfl⟩ := combine_at h (ha.length_eq hb) hr
    rw [h4]
    have e := congrArg (·[n]?) (ha.2.trans hb.2.symm)
    simp only [List.getElem?_map, h4, h5, Option.map_some, Option.some.injEq, Prod.mk.injEq] at e
    simp only [Option.map_some, Input.combine, ← e.1, ← e.2, V2.combUtxos_self]

theorem divided_inv {p q : Psbt L} {C : Psbt L → Prop} (hp : Sound p) (h : Divided M p C q) : Same p q ∧
    ∀ (n : Nat) j, q.inputs[n]? = some j → IsFinal j → Verdict M p n (j.finalScriptSig.getD []) (j.finalScriptWitness.getD []) none := by
  induction h with
  | copy _ h1 h2 => exact ⟨CopyOf.same h1, fun n j hj hf => absurd hf (h2 j (List.mem_of_getElem? hj))⟩
  | @one q n q' _ h ih =>
    obtain ⟨hs, hv⟩ := ih
    have hq := hs.sound hp
    obtain ⟨⟨i, s, w, h1, h2, h3⟩, h4, -⟩ := C66_effect hq h
    have hs' : Same q q' := by
      obtain ⟨j, hj, rfl⟩ := (C66_finalize_iff hq _ _).mp h
      exact result_same hj
    refine ⟨hs.trans hs', fun m j hj hf => ?_⟩
    by_cases hm : m = n
    · subst hm
      cases hj.symm.trans h2
      rw [onlyFinal_getD.1, onlyFinal_getD.2]
      exact hs.symm.verdict h3
    · exact hv m j ((h4 m hm).symm.trans hj) hf
  | @all q mall q' es _ h ih =>
    obtain ⟨hs, hv⟩ := ih
    have hq := hs.sound hp
    have hs' := same_of_mut hq h
    obtain ⟨-, h1, h2⟩ := C67_effect hq h
    refine ⟨hs.trans hs', fun m j hj hf => ?_⟩
    have hl := (List.getElem?_eq_some_iff.mp hj).1
    have hi := List.getElem?_eq_getElem (by omega : m < q.inputs.length)
    rcases h2 m _ hi with g | ⟨s, w, g1, g2⟩
    · exact hv m j (hi.trans (g.symm.trans hj)) hf
    · cases hj.symm.trans g1
      rw [onlyFinal_getD.1, onlyFinal_getD.2]
      exact hs.symm.verdict g2
  | @combined a b r _ _ hd h iha ihb =>
    obtain ⟨sa, va⟩ := iha
    obtain ⟨sb, vb⟩ := ihb
    refine ⟨combine_same sa sb h, fun n k hk hf => ?_⟩
    obtain ⟨i, j, h1, h2, rfl⟩ := combine_at h (sa.length_eq sb) hk
    obtain ⟨g1, g2, g3⟩ := final_combine (hd n i j h1 h2)
    rcases g1.mp hf with hi | hj
    · rw [(g2 hi).1, (g2 hi).2]; exact va n i h1 hi
    · rw [(g3 hj).1, (g3 hj).2]; exact vb n j h2 hj

/-- C128. However inputs are finalized and copies combined, all final scripts in the result are ones the interpreter accepts. -/
theorem C128_accepted {p q : Psbt L} {C : Psbt L → Prop} (hp : Sound p) (h : Divided M p C q) {n : Nat} {j : Input L} (hj : q.inputs[n]? = some j)
    (hf : IsFinal j) : Verdict M p n (j.finalScriptSig.getD []) (j.finalScriptWitness.getD []) none := (divided_inv hp h).2 n j hj hf

/-- The extended keys come from the copies. -/
theorem divided_xpub {p q : Psbt L} {C : Psbt L → Prop} (hp : Sound p) (h : Divided M p C q) {x : L.xpub.T} {s : KeySource}
    (hs : q.xpub.get x = some s) : ∃ c, C c ∧ CopyOf p c ∧ c.xpub.get x = some s := by
  induction h with
  | copy h1 h2 _ => exact ⟨_, h1, h2, hs⟩
  | @one q n q' hd h ih =>
    obtain ⟨-, -, h1⟩ := C66_effect ((divided_inv hp hd).1.sound hp) h
    exact ih (by rw [← h1]; exact hs)
  | @all q mall q' es hd h ih =>
    obtain ⟨h1, -⟩ := C67_effect ((divided_inv hp hd).1.sound hp) h
    exact ih (by rw [← h1]; exact hs)
  | @combined a b r _ _ _ h iha ihb =>
    obtain ⟨h1, h2, h3⟩ := C48_xpubs h x
    cases ea : a.xpub.get x with
    | none => exact ihb ((h1 ea).symm.trans hs)
    | some s1 =>
      cases eb : b.xpub.get x with
      | none => exact iha ((h2 eb).symm.trans hs)
      | some s2 =>
        obtain ⟨u, hu, hm⟩ := h3 s1 s2 ea eb
        cases hs.symm.trans hu
        cases hm with
        | mine _ _ => exact iha ea
        | theirs _ => exact ihb eb

/-- C128. Combining accepts them all, in any order, whatever has been finalized, if in any two of the copies handed out the paths of
an extended key agree as far as the shorter goes; in particular if the copies have the same extended keys. -/
theorem C128_combines {p a b : Psbt L} {C : Psbt L → Prop} (hp : Sound p) (ha : Divided M p C a) (hb : Divided M p C b)
    (hx : ∀ c d, C c → C d → CopyOf p c → CopyOf p d → ∀ x s t, c.xpub.get x = some s → d.xpub.get x = some t → s.2 <:+ t.2 ∨ t.2 <:+ s.2) :
    ∃ r, a.combine b = (r, .ok ()) := by
  have e : a.unsignedTx = b.unsignedTx := (divided_inv hp ha).1.1.trans (divided_inv hp hb).1.1.symm
  refine (C48_success_iff e).mpr fun x s t h1 h2 => ?_
  obtain ⟨c, c1, c2, c3⟩ := divided_xpub hp ha h1
  obtain ⟨d, d1, d2, d3⟩ := divided_xpub hp hb h2
  exact hx c d c1 d1 c2 d2 x s t c3 d3

/-- C128. Combining copies in which different inputs are final loses no final script and invents none. -/
theorem C128_kept {p a b r : Psbt L} {C : Psbt L → Prop} (hp : Sound p) (ha : Divided M p C a) (hb : Divided M p C b) (hd : Disjoint a b)
    (h : a.combine b = (r, .ok ())) {n : Nat} {i j k : Input L} (hi : a.inputs[n]? = some i) (hj : b.inputs[n]? = some j)
    (hk : r.inputs[n]? = some k) :
    (IsFinal k ↔ IsFinal i ∨ IsFinal j) ∧ (IsFinal i → SameFinal k i) ∧ (IsFinal j → SameFinal k j) := by
  obtain ⟨i', j', h1, h2, rfl⟩ := combine_at h ((divided_inv hp ha).1.length_eq (divided_inv hp hb).1) hk
  cases h1.symm.trans hi
  cases h2.symm.trans hj
  exact final_combine (hd n _ _ hi hj)

theorem fillInputs_get (ts : List TxIn) (is : List (Input L)) (n : Nat) : (fillInputs ts is)[n]? =
    match ts[n]?, is[n]? with
    | some t, some i => some { t with scriptSig := i.finalScriptSig.getD [], witness := i.finalScriptWitness.getD [] }
    | t, _ => t := by
  induction ts generalizing is n with
  | nil => simp [fillInputs]
  | cons t ts ih =>
    cases is with
    | nil => simp only [fillInputs, List.getElem?_nil]; cases (t :: ts)[n]? <;> rfl
    | cons i is =>
      cases n with
      | zero => rfl
      | succ n => simp only [fillInputs, List.getElem?_cons_succ]; exact ih is n

/-- C128. In which order they are combined makes no difference to the transaction. -/
theorem C128_order {p a b r r' : Psbt L} {C : Psbt L → Prop} (hp : Sound p) (ha : Divided M p C a) (hb : Divided M p C b) (hd : Disjoint a b)
    (h : a.combine b = (r, .ok ())) (h' : b.combine a = (r', .ok ())) : r.extractUnchecked = r'.extractUnchecked := by
  have sa := (divided_inv hp ha).1
  have sb := (divided_inv hp hb).1
  have sr := combine_same sa sb h
  have sr' := combine_same sb sa h'
  suffices fillInputs p.unsignedTx.input r.inputs = fillInputs p.unsignedTx.input r'.inputs by
    unfold Psbt.extractUnchecked
    rw [sr.1, sr'.1, this]
  refine List.ext_getElem? fun n => ?_
  rw [fillInputs_get, fillInputs_get]
  cases hk : r.inputs[n]? with
  | none =>
    rw [List.getElem?_eq_none (l := r'.inputs) (by rw [sr'.length, ← sr.length]; exact List.getElem?_eq_none_iff.mp hk)]
  | some k =>
    obtain ⟨i, j, h1, h2, rfl⟩ := combine_at h (sa.length_eq sb) hk
    have hk' := List.getElem?_eq_getElem (by
      have := (List.getElem?_eq_some_iff.mp hk).1; rw [sr'.length, ← sr.length]; exact this : n < r'.inputs.length)
    obtain ⟨j', i', g1, g2, e⟩ := combine_at h' (sb.length_eq sa) hk'
    cases h1.symm.trans g2
    cases h2.symm.trans g1
    rw [hk', e]
    have hn := hd n _ _ h1 h2
    have : SameFinal (i.combine j) (j.combine i) := by
      by_cases hi : IsFinal i
      · have a1 := (final_combine hn).2.1 hi
        have a2 := (final_combine (i := j) (j := i) (fun x => hn ⟨x.2, x.1⟩)).2.2 hi
        exact ⟨a1.1.trans a2.1.symm, a1.2.trans a2.2.symm⟩
      · obtain ⟨e1, e2⟩ := isFinal_iff.mp hi
        simp only [SameFinal, Input.combine, e1, e2, combOpt_none, none_combOpt, and_self]
    cases p.unsignedTx.input[n]? with
    | none => rfl
    | some t => simp only [this.1, this.2]

/-- C128. If in the end every input is final, the transaction with these scripts can be extracted, and it is the one that is extracted
without checks; provided the signatures that are still there have the declared types. -/
theorem C128_extract_partial {p q : Psbt L} {C : Psbt L → Prop} (hp : Sound p) (h : Divided M p C q) (hf : AllFinal q) (ht : SigTypes q)
    (hu : ∀ t ∈ p.unsignedTx.input, t.scriptSig = [] ∧ t.witness = []) : q.extract M = .ok q.extractUnchecked := by
  obtain ⟨hs, hv⟩ := divided_inv hp h
  have hq := hs.sound hp
  obtain ⟨r, he⟩ := extractFrom_total (n := 0) hq.1 hf
  obtain ⟨g1, g2, g3⟩ := (extractFrom_ok hq.1).mp he
  have : q.extract M = .ok { q.unsignedTx with input := r } := extract_ok.mpr ⟨hq.1, ht, hf,
    fun n j hj => hs.verdict (hv n j hj (hf j (List.mem_of_getElem? hj))), rfl, rfl, rfl, g2, fun n t i s hi hs => g3 n t i s hi.1 hi.2 hs⟩
  rw [this, C69_unchecked (by rw [hs.1]; exact hu) this]

theorem onlyAll_divided {p q : Psbt L} {C : Psbt L → Prop} (hp : Sound p) (hC : ∀ q, C q → OnlyAll q) (h : Divided M p C q) : OnlyAll q := by
  have fin : ∀ (i : Input L) s w, ((V0.onlyFinal i s w).sighashType = none ∨ (V0.onlyFinal i s w).sighashType = some 0x01) ∧
      ∀ pk sig, (V0.onlyFinal i s w).partialSigs.get pk = some sig → sig.ty.1 = 0x01 :=
    fun i s w => ⟨.inl rfl, fun pk sig h => by simp [V0.onlyFinal, Input.default] at h⟩
  induction h with
  | copy h _ _ => exact hC _ h
  | @one q n q' hd h ih =>
    obtain ⟨⟨i, s, w, h1, h2, h3⟩, h4, -⟩ := C66_effect ((divided_inv hp hd).1.sound hp) h
    intro j hj
    obtain ⟨m, hm⟩ := List.getElem?_of_mem hj
    by_cases e : m = n
    · subst e; cases hm.symm.trans h2; exact fin _ _ _
    · exact ih j (List.mem_of_getElem? ((h4 m e).symm.trans hm))
  | @all q mall q' es hd h ih =>
    obtain ⟨-, h1, h2⟩ := C67_effect ((divided_inv hp hd).1.sound hp) h
    intro j hj
    obtain ⟨m, hm⟩ := List.getElem?_of_mem hj
    have hl := (List.getElem?_eq_some_iff.mp hm).1
    have hi := List.getElem?_eq_getElem (by omega : m < q.inputs.length)
    rcases h2 m _ hi with g | ⟨s, w, g1, g2⟩
    · exact ih j (List.mem_of_getElem? (hi.trans (g.symm.trans hm)))
    · cases hm.symm.trans g1; exact fin _ _ _
  | @combined a b r ha hb hd h iha ihb =>
    intro k hk
    obtain ⟨n, hn⟩ := List.getElem?_of_mem hk
    obtain ⟨i, j, h1, h2, rfl⟩ := combine_at h ((divided_inv hp ha).1.length_eq (divided_inv hp hb).1) hn
    refine ⟨(iha i (List.mem_of_getElem? h1)).1, fun pk sig hs => ?_⟩
    simp only [Input.combine, BMap.get_extend, Option.or_eq_some_iff] at hs
    rcases hs with hs | ⟨-, hs⟩
    · exact (ihb j (List.mem_of_getElem? h2)).2 pk sig hs
    · exact (iha i (List.mem_of_getElem? h1)).2 pk sig hs

/-- C128. In particular if the copies declare and use no other type than ALL. -/
theorem C128_only_all_partial {p q : Psbt L} (hp : Sound p) (h : Divided M p OnlyAll q) (hf : AllFinal q)
    (hu : ∀ t ∈ p.unsignedTx.input, t.scriptSig = [] ∧ t.witness = []) : q.extract M = .ok q.extractUnchecked := by
  have ho := onlyAll_divided hp (fun _ h => h) h
  refine C128_extract_partial hp h hf (fun i hi => ?_) hu
  obtain ⟨h1, h2⟩ := ho i hi
  refine ⟨⟨0x01, by decide⟩, ?_, fun pk sig hs => Subtype.ext (h2 pk sig hs)⟩
  rcases h1 with h1 | h1
  · exact .inl ⟨h1, rfl⟩
  · exact .inr h1

-- Two parties, each finalizes one input; they combine in either order, and extract.
def dvP : Psbt gL := gP [zIn, zWsh [7]]
def dvA : Psbt gL := zOne dvP 0
def dvB : Psbt gL := (zAll { dvP with inputs := [{ zIn with partialSigs := .empty }, zWsh [7]] } false).1
def dvR : Psbt gL := (dvA.combine dvB).1

theorem dvP_sound : Sound dvP := zSound _ (by decide)
theorem dv_copy {q : Psbt gL} (h1 : q.unsignedTx = dvP.unsignedTx) (h2 : q.inputs.map (fun i => (i.nonWitnessUtxo, i.witnessUtxo)) =
    dvP.inputs.map fun i => (i.nonWitnessUtxo, i.witnessUtxo)) : CopyOf dvP q := by
  have hs : Same dvP q := ⟨h1, h2⟩
  refine ⟨h1, hs.length, fun n i j hi hj => ?_⟩
  have e := congrArg (·[n]?) h2
  simpa only [List.getElem?_map, hi, hj, Option.map_some, Option.some.injEq, Prod.mk.injEq] using e
theorem dv_onlyAll {q : Psbt gL} (h : q.sanityCheck = .ok ()) (h2 : ∀ i ∈ q.inputs, i.sighashType = none ∨ i.sighashType = some 0x01) :
    OnlyAll q := by
  intro i hi
  obtain ⟨ty, h3, h4⟩ := (sanityCheck_ok.mp h).2 i hi
  refine ⟨h2 i hi, fun pk sig hs => ?_⟩
  rw [h4 pk sig hs]
  rcases h3 with h3 | h3
  · exact h3.2
  · rcases h2 i hi with h5 | h5
    · rw [h5] at h3; cases h3
    · have := Option.some.inj (h3.symm.trans h5)
      have h6 := congrArg UInt32.toNat this
      exact UInt8.toNat_inj.mp (by simpa using h6)
theorem dv_fresh {q : Psbt gL} (h : q.inputs.all (fun j => j.finalScriptSig.isNone && j.finalScriptWitness.isNone) = true) :
    ∀ j ∈ q.inputs, ¬ IsFinal j := by
  intro j hj
  have := List.all_eq_true.mp h j hj
  rw [isFinal_iff]
  simpa using this
theorem dv_disjoint {a b : Psbt gL} (h : (a.inputs.zip b.inputs).all (fun x => (x.1.finalScriptSig.isNone && x.1.finalScriptWitness.isNone) ||
    (x.2.finalScriptSig.isNone && x.2.finalScriptWitness.isNone)) = true) : Disjoint a b := by
  intro n i j hi hj hf
  have := List.all_eq_true.mp h (i, j) (List.mem_of_getElem? (i := n) (by rw [List.getElem?_zip_eq_some]; exact ⟨hi, hj⟩))
  have h1 : ¬ (i.finalScriptSig = none ∧ i.finalScriptWitness = none) := fun h => isFinal_iff.mpr h hf.1
  have h2 : ¬ (j.finalScriptSig = none ∧ j.finalScriptWitness = none) := fun h => isFinal_iff.mpr h hf.2
  simp only [Bool.or_eq_true, Bool.and_eq_true, Option.isNone_iff_eq_none] at this
  exact this.elim h1 h2

theorem dvA_divided : Divided V2.FM dvP OnlyAll dvA :=
  .one (.copy (dv_onlyAll (by decide +kernel) (by decide +kernel)) (dv_copy rfl rfl) (dv_fresh (by decide +kernel)))
    (by decide +kernel : dvP.finalizeInp V2.FM 0 = .ok dvA)
theorem dvB_divided : Divided V2.FM dvP OnlyAll dvB :=
  .all (mall := false) (.copy (dv_onlyAll (q := { dvP with inputs := [{ zIn with partialSigs := .empty }, zWsh [7]] }) (by decide +kernel) (by decide +kernel))
    (dv_copy rfl rfl) (dv_fresh (by decide +kernel)))
    (by decide +kernel : ({ dvP with inputs := [{ zIn with partialSigs := .empty }, zWsh [7]] } : Psbt gL).finalizeMut V2.FM false =
      .ok (dvB, [.input .missingPubkey 0]))
theorem dvR_divided : Divided V2.FM dvP OnlyAll dvR := .combined dvA_divided dvB_divided (dv_disjoint (by decide +kernel)) (by decide +kernel)
example : dvR.extract V2.FM = .ok dvR.extractUnchecked ∧ dvR.extractUnchecked = (dvB.combine dvA).1.extractUnchecked ∧
    dvR.extractUnchecked.input.map TxIn.witness = [[V2.fSig.der.bytes, V2.fKey.bytes], [[7]]] :=
  ⟨C128_only_all_partial dvP_sound dvR_divided (by unfold AllFinal; decide +kernel) (by decide +kernel),
    C128_order dvP_sound dvA_divided dvB_divided (dv_disjoint (by decide +kernel)) (by decide +kernel : dvA.combine dvB = (dvR, .ok ()))
      (by decide +kernel : dvB.combine dvA = ((dvB.combine dvA).1, .ok ())), by decide +kernel⟩

-- Copies with the same extended keys.
example : Divided V2.FM dvP (fun q => OnlyAll q ∧ q.xpub = dvP.xpub) dvP ∧ (∃ r, dvA.combine dvB = (r, .ok ())) ∧ (∃ r, dvB.combine dvA = (r, .ok ())) ∧
    ∀ c d : Psbt gL, (OnlyAll c ∧ c.xpub = dvP.xpub) → (OnlyAll d ∧ d.xpub = dvP.xpub) → CopyOf dvP c → CopyOf dvP d →
      ∀ x s t, c.xpub.get x = some s → d.xpub.get x = some t → s.2 <:+ t.2 ∨ t.2 <:+ s.2 := by
  refine ⟨.copy ⟨dv_onlyAll (by decide +kernel) (by decide +kernel), rfl⟩ (dv_copy rfl rfl) (dv_fresh (by decide +kernel)),
    ⟨dvR, by decide +kernel⟩, ⟨(dvB.combine dvA).1, by decide +kernel⟩, ?_⟩
  rintro c d ⟨-, h1⟩ ⟨-, h2⟩ - - x s t e1 e2
  rw [h1] at e1; rw [h2] at e2
  cases e1.symm.trans e2
  exact .inl (List.suffix_refl _)

/-- An input that is signed with another type than ALL. -/
def dvS : Input gL :=
  { zIn with partialSigs := BMap.empty.insert V2.fKey { V2.fSig with ty := ⟨0x83, by decide⟩ }, sighashType := some 0x83 }

/-- C128 fails: if a party finalizes an input that is signed with another type than ALL, and combines the result with the copy of one who
has not, what comes out cannot be extracted: the signatures come back, the type they are declared to have does not. The other way round it
can. -/
theorem C128_type_counterexample : ∃ (p a r r' : Psbt gL) (tx : Tx), Sound p ∧ SigTypes p ∧ p.finalizeInp V2.FM 0 = .ok a ∧ Disjoint a p ∧ AllFinal a ∧
    a.extract V2.FM = .ok tx ∧ p.combine a = (r', .ok ()) ∧ r'.extract V2.FM = .ok tx ∧
    a.combine p = (r, .ok ()) ∧ r.extract V2.FM = .error (.err (.input (.wrongSighashFlag ⟨0x01, by decide⟩ ⟨0x83, by decide⟩ V2.fKey) 0)) :=
  ⟨gP [dvS], zOne (gP [dvS]) 0, ((zOne (gP [dvS]) 0).combine (gP [dvS])).1, ((gP [dvS]).combine (zOne (gP [dvS]) 0)).1,
    (zOne (gP [dvS]) 0).extractUnchecked, zSound _ (by decide), (sanityCheck_ok.mp (by decide +kernel)).2, by decide +kernel,
    dv_disjoint (by decide +kernel), by unfold AllFinal; decide +kernel, by decide +kernel, by decide +kernel, by decide +kernel,
    by decide +kernel, by decide +kernel⟩

end Psbt.V0
