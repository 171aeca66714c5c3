/- C26, C48: exactly when combining loses a key; C58: exactly when a constructor extends a PSBT that is not flagged modifiable. -/
import Verif.Props.V2Combine
import Verif.Props.V0Combine
import Verif.Props.V2Roles
import Verif.Props.Precedence
namespace Psbt
variable {L : Lib}

namespace Spec

/-- What is lost when two inputs are combined: the second's sighash type, if the first has none; and the non-witness UTXOs, if the second
has a witness UTXO and the first has none. -/
def LosesInput (sighash₁ sighash₂ : Option UInt32) (nw₁ nw₂ : Option Tx) (w₁ w₂ : Option TxOut) : Prop :=
  (sighash₁ = none ∧ sighash₂ ≠ none) ∨ (w₁ = none ∧ w₂ ≠ none ∧ (nw₁ ≠ none ∨ nw₂ ≠ none))

/-- Neither map has an unknown pair of these key types. -/
def NoUnknown (tys : List UInt8) (a b : BMap RawKey Bytes) : Prop := ∀ k : RawKey, k.ty ∈ tys → a.get k = none ∧ b.get k = none

/-- The pairs of the map at a position; none if there is no such map. -/
def inputPairs (p : V2.Psbt L) (k : Nat) : List Pair := (p.inputs[k]?.map V2.Input.getPairs).getD []
def outputPairs (p : V2.Psbt L) (k : Nat) : List Pair := (p.outputs[k]?.map V2.Output.getPairs).getD []

/-- `r` has, in each map, a pair for every key of that map of `p` and of `q`, taken from one of them. -/
structure KeepsAll (p q r : V2.Psbt L) : Prop where
  global : Merged [] [] p.global.getPairs q.global.getPairs r.global.getPairs
  inputs : ∀ k, Merged [] [] (inputPairs p k) (inputPairs q k) (inputPairs r k)
  outputs : ∀ k, Merged [] [] (outputPairs p k) (outputPairs q k) (outputPairs r k)

end Spec

theorem ty_bare {t : UInt8} {v : Bytes} {p : Pair} (h : p ∈ [bare t v]) : p.key.ty = t := by
  cases List.mem_singleton.mp h; rfl
theorem ty_emitOpt {α : Type} {t : UInt8} {c : Codec α} {o : Option α} {p : Pair} (h : p ∈ emitOpt t c o) : p.key.ty = t ∧ o ≠ none := by
  cases o with
  | none => cases h
  | some v => cases List.mem_singleton.mp h; exact ⟨rfl, by simp⟩
theorem ty_emitMap {K V : Type} [OrdKey K] {t : UInt8} {ck : Codec K} {cv : Codec V} {m : BMap K V} {p : Pair} (h : p ∈ emitMap t ck cv m) :
    p.key.ty = t := by
  obtain ⟨x, -, rfl⟩ := List.mem_map.mp h; rfl
theorem ty_emitSp {V : Type} {t : UInt8} {s : V → Bytes} {m : BMap L.compressed.T V} {p : Pair} (h : p ∈ emitSp L t s m) : p.key.ty = t := by
  unfold emitSp at h
  split at h
  · obtain ⟨x, -, rfl⟩ := List.mem_map.mp h; rfl
  · cases h
theorem ty_emitProp {m : BMap PropKey Bytes} {p : Pair} (h : p ∈ emitProp m) : p.key.ty = 0xfc := by
  obtain ⟨x, -, rfl⟩ := List.mem_map.mp h; rfl
theorem get_emitUnknown {m : BMap RawKey Bytes} {p : Pair} (h : p ∈ emitUnknown m) : m.get p.key ≠ none := by
  obtain ⟨x, hx, rfl⟩ := List.mem_map.mp h
  rw [BMap.mem_iff_get.mp hx]; simp

theorem merged_present {α : Type} {ex ey : List UInt8} (t : UInt8) (c : Codec α) {a b : Option α} (h : a ≠ none ∨ b = none) :
    Spec.Merged ex ey (emitOpt t c a) (emitOpt t c b) (emitOpt t c a) := by
  have := V2.merged_opt (ex := ex) (ey := ey) t c a b
  rcases h with h | h
  · cases a with
    | none => exact absurd rfl h
    | some x => exact this
  · subst h; cases a <;> exact this

theorem combUtxos_kept {n n' : Option Tx} {w w' : Option TxOut} (h : w ≠ none ∨ w' = none ∨ (n = none ∧ n' = none)) :
    (V2.combUtxos (n, w) (n', w')).1 = V2.combOpt n n' := by
  rcases h with h | h | ⟨rfl, rfl⟩
  · cases w with
    | none => exact absurd rfl h
    | some x => rfl
  · subst h; cases w <;> rfl
  · cases w <;> cases w' <;> rfl

theorem get_extend_none {a b : BMap RawKey Bytes} {tys : List UInt8} (h : Spec.NoUnknown tys a b) {k : RawKey} (hk : k.ty ∈ tys) :
    (a.extend b).get k = none := by
  rw [BMap.get_extend, (h k hk).1, (h k hk).2]; rfl

theorem not_loses {s s' : Option UInt32} {n n' : Option Tx} {w w' : Option TxOut} :
    ¬ Spec.LosesInput s s' n n' w w' ↔ (s ≠ none ∨ s' = none) ∧ (w ≠ none ∨ w' = none ∨ (n = none ∧ n' = none)) := by
  unfold Spec.LosesInput
  cases s <;> cases s' <;> cases n <;> cases n' <;> cases w <;> cases w' <;> simp

namespace V2

theorem input_ty0 {i : Input L} {p : Pair} (hp : p ∈ i.getPairs) (ht : p.key.ty = 0x00) (hu : i.unknowns.get p.key = none) :
    i.nonWitnessUtxo ≠ none := by
  unfold Input.getPairs at hp
  obtain ⟨x, hx, hp⟩ := List.mem_flatten.mp hp
  simp only [List.mem_cons, List.not_mem_nil, or_false] at hx
  repeat' (rcases hx with rfl | hx)
  all_goals try subst hx
  all_goals first
    | exact absurd hu (get_emitUnknown hp)
    | exact absurd ((ty_bare hp).symm.trans ht) (by decide)
    | exact absurd ((ty_emitMap hp).symm.trans ht) (by decide)
    | exact absurd ((ty_emitSp hp).symm.trans ht) (by decide)
    | exact absurd ((ty_emitProp hp).symm.trans ht) (by decide)
    | exact absurd ((ty_emitOpt hp).1.symm.trans ht) (by decide)
    | exact (ty_emitOpt hp).2

theorem input_ty3 {i : Input L} {p : Pair} (hp : p ∈ i.getPairs) (ht : p.key.ty = 0x03) (hu : i.unknowns.get p.key = none) :
    i.sighashType ≠ none := by
  unfold Input.getPairs at hp
  obtain ⟨x, hx, hp⟩ := List.mem_flatten.mp hp
  simp only [List.mem_cons, List.not_mem_nil, or_false] at hx
  repeat' (rcases hx with rfl | hx)
  all_goals try subst hx
  all_goals first
    | exact absurd hu (get_emitUnknown hp)
    | exact absurd ((ty_bare hp).symm.trans ht) (by decide)
    | exact absurd ((ty_emitMap hp).symm.trans ht) (by decide)
    | exact absurd ((ty_emitSp hp).symm.trans ht) (by decide)
    | exact absurd ((ty_emitProp hp).symm.trans ht) (by decide)
    | exact absurd ((ty_emitOpt hp).1.symm.trans ht) (by decide)
    | exact (ty_emitOpt hp).2

theorem global_ty3 {g : Global L} {p : Pair} (hp : p ∈ g.getPairs) (ht : p.key.ty = 0x03) (hu : g.unknowns.get p.key = none) :
    g.fallbackLockTime ≠ none := by
  unfold Global.getPairs at hp
  obtain ⟨x, hx, hp⟩ := List.mem_flatten.mp hp
  simp only [List.mem_cons, List.not_mem_nil, or_false] at hx
  repeat' (rcases hx with rfl | hx)
  all_goals try subst hx
  all_goals first
    | exact absurd hu (get_emitUnknown hp)
    | exact absurd ((ty_bare hp).symm.trans ht) (by decide)
    | exact absurd ((ty_emitSp hp).symm.trans ht) (by decide)
    | exact absurd ((ty_emitProp hp).symm.trans ht) (by decide)
    | (obtain ⟨x, -, rfl⟩ := List.mem_map.mp hp; exact absurd ht (by show PSBT_GLOBAL_XPUB ≠ 3; decide))
    | exact absurd ((ty_emitOpt hp).1.symm.trans ht) (by decide)
    | exact (ty_emitOpt hp).2

theorem input_mem0 {i : Input L} (h : i.nonWitnessUtxo ≠ none) : ∃ p ∈ i.getPairs, p.key = ⟨0x00, []⟩ := by
  obtain ⟨v, hv⟩ := Option.ne_none_iff_exists'.mp h
  exact ⟨bare PSBT_IN_NON_WITNESS_UTXO (txCodec.ser v), by simp [Input.getPairs, hv, emitOpt], rfl⟩
theorem input_mem3 {i : Input L} (h : i.sighashType ≠ none) : ∃ p ∈ i.getPairs, p.key = ⟨0x03, []⟩ := by
  obtain ⟨v, hv⟩ := Option.ne_none_iff_exists'.mp h
  exact ⟨bare PSBT_IN_SIGHASH_TYPE (u32Codec.ser v), by simp [Input.getPairs, hv, emitOpt], rfl⟩
theorem global_mem3 {g : Global L} (h : g.fallbackLockTime ≠ none) : ∃ p ∈ g.getPairs, p.key = ⟨0x03, []⟩ := by
  obtain ⟨v, hv⟩ := Option.ne_none_iff_exists'.mp h
  exact ⟨bare PSBT_GLOBAL_FALLBACK_LOCKTIME (u32Codec.ser v), by simp [Global.getPairs, hv, emitOpt], rfl⟩

/-- C26, exactly, for the global map: a key is lost if and only if the second has a fallback lock time and the first has none. -/
theorem C26_global_iff_partial {p q r : Psbt L} (h : p.combine q = .ok r)
    (hu : Spec.NoUnknown [0x03] p.global.unknowns q.global.unknowns) :
    Spec.Merged [] [] p.global.getPairs q.global.getPairs r.global.getPairs ↔
      p.global.fallbackLockTime ≠ none ∨ q.global.fallbackLockTime = none := by
  obtain ⟨hg, -, -⟩ := combine_ok.mp h
  obtain ⟨-, -, hx, hc⟩ := globalCombine_ok.mp hg
  constructor
  · intro hm
    refine Classical.byContradiction fun hn => ?_
    have hf : p.global.fallbackLockTime = none := Classical.byContradiction fun e => hn (.inl e)
    obtain ⟨x, hx1, hx2⟩ := global_mem3 (g := q.global) (fun e => hn (.inr e))
    obtain ⟨y, hy1, hy2⟩ := hm.right x hx1 (by simp)
    have ht : y.key.ty = 0x03 := by rw [hy2, hx2]
    refine global_ty3 hy1 ht ?_ ?_
    · rw [hc]; exact get_extend_none hu (by simp [ht])
    · rw [hc]; exact hf
  · intro hf
    have hxp := merged_xpubs (ex := []) (ey := []) hx
    rw [hc]
    unfold Global.getPairs
    repeat' apply merged_flatten_cons
    all_goals first
      | exact hxp
      | exact merged_bare _ _ _
      | exact merged_map _ _ _ _ _
      | exact merged_prop _ _
      | exact merged_unknown _ _
      | exact merged_sp _ _ _ _
      | exact merged_nil
      | exact merged_present _ _ hf

/-- C26, exactly, for an input that both have: a key is lost if and only if it is the second's sighash type and the first has none, or a
non-witness UTXO and only the second has a witness UTXO. -/
theorem C26_input_iff_partial {p q r : Psbt L} (h : p.combine q = .ok r) {k : Nat} {i j c : Input L}
    (e1 : p.inputs[k]? = some i) (e2 : q.inputs[k]? = some j) (e3 : r.inputs[k]? = some c)
    (hu : Spec.NoUnknown [0x00, 0x03] i.unknowns j.unknowns) :
    Spec.Merged [] [] i.getPairs j.getPairs c.getPairs ↔
      ¬ Spec.LosesInput i.sighashType j.sighashType i.nonWitnessUtxo j.nonWitnessUtxo i.witnessUtxo j.witnessUtxo := by
  obtain ⟨-, hi, -⟩ := combine_ok.mp h
  have hc := (inputCombine_ok.mp (((combineZip_ok.mp hi).2 k i c e1 e3).1 j e2)).2.2
  subst hc
  constructor
  · rintro hm (⟨h1, h2⟩ | ⟨h1, h2, h3⟩)
    · obtain ⟨x, hx1, hx2⟩ := input_mem3 h2
      obtain ⟨y, hy1, hy2⟩ := hm.right x hx1 (by simp)
      have ht : y.key.ty = 0x03 := by rw [hy2, hx2]
      exact input_ty3 hy1 ht (get_extend_none hu (by simp [ht])) h1
    · have key : ∃ y ∈ (i.merge j).getPairs, y.key = ⟨0x00, []⟩ := by
        rcases h3 with h3 | h3
        · obtain ⟨x, hx1, hx2⟩ := input_mem0 h3
          obtain ⟨y, hy1, hy2⟩ := hm.left x hx1 (by simp)
          exact ⟨y, hy1, hy2.trans hx2⟩
        · obtain ⟨x, hx1, hx2⟩ := input_mem0 h3
          obtain ⟨y, hy1, hy2⟩ := hm.right x hx1 (by simp)
          exact ⟨y, hy1, hy2.trans hx2⟩
      obtain ⟨y, hy1, hy2⟩ := key
      have ht : y.key.ty = 0x00 := by rw [hy2]
      refine input_ty0 hy1 ht (get_extend_none hu (by simp [ht])) ?_
      obtain ⟨w, hw⟩ := Option.ne_none_iff_exists'.mp h2
      simp only [Input.merge, h1, hw, combUtxos]
  · intro hn
    obtain ⟨h1, h2⟩ := not_loses.mp hn
    unfold Input.getPairs Input.merge
    rw [combUtxos_snd, combUtxos_kept h2]
    repeat' apply merged_flatten_cons
    all_goals first
      | exact merged_bare _ _ _
      | exact merged_opt _ _ _ _
      | exact merged_map _ _ _ _ _
      | exact merged_prop _ _
      | exact merged_unknown _ _
      | exact merged_sp _ _ _ _
      | exact merged_nil
      | exact merged_present _ _ h1

theorem merged_left (x : List Pair) : Spec.Merged [] [] x [] x :=
  ⟨fun _ h => .inl h, fun p h _ => ⟨p, h, rfl⟩, by simp⟩

theorem noUnknown_input {p q : Psbt L} (hp : Spec.UnknownsApart p) (hq : Spec.UnknownsApart q) {i j : Input L} (hi : i ∈ p.inputs)
    (hj : j ∈ q.inputs) : Spec.NoUnknown [0x00, 0x03] i.unknowns j.unknowns := by
  intro k hk
  have hs : k.ty ∈ Spec.singleInput := by
    simp only [List.mem_cons, List.not_mem_nil, or_false] at hk
    rcases hk with h | h <;> rw [h] <;> decide
  exact ⟨Option.eq_none_iff_forall_ne_some.mpr fun v e => hp.inputs i hi k v e hs,
    Option.eq_none_iff_forall_ne_some.mpr fun v e => hq.inputs j hj k v e hs⟩

theorem noUnknown_global {p q : Psbt L} (hp : Spec.UnknownsApart p) (hq : Spec.UnknownsApart q) :
    Spec.NoUnknown [0x03] p.global.unknowns q.global.unknowns := by
  intro k hk
  have hs : k.ty ∈ Spec.singleGlobal := by
    simp only [List.mem_cons, List.not_mem_nil, or_false] at hk
    rw [hk]; decide
  exact ⟨Option.eq_none_iff_forall_ne_some.mpr fun v e => hp.global k v e hs,
    Option.eq_none_iff_forall_ne_some.mpr fun v e => hq.global k v e hs⟩

/-- C26, exactly, for whole PSBTs: combining keeps every key of both if and only if the second has no more inputs and outputs than the
first, it does not have a fallback lock time that the first lacks, and nothing is lost in any input that both have. The hypotheses hold
of every PSBT that was parsed (`C102_v2_parsed`). -/
theorem C26_iff_partial {p q r : Psbt L} (hp : Spec.UnknownsApart p) (hq : Spec.UnknownsApart q) (h : p.combine q = .ok r) :
    Spec.KeepsAll p q r ↔
      q.inputs.length ≤ p.inputs.length ∧ q.outputs.length ≤ p.outputs.length ∧
      (p.global.fallbackLockTime ≠ none ∨ q.global.fallbackLockTime = none) ∧
      ∀ (k : Nat) i j, p.inputs[k]? = some i → q.inputs[k]? = some j →
        ¬ Spec.LosesInput i.sighashType j.sighashType i.nonWitnessUtxo j.nonWitnessUtxo i.witnessUtxo j.witnessUtxo := by
  obtain ⟨-, ⟨il, hi⟩, ⟨ol, ho⟩⟩ := C26_partial h
  constructor
  · intro hk
    refine ⟨Nat.le_of_not_lt fun hl => ?_, Nat.le_of_not_lt fun hl => ?_, (C26_global_iff_partial h (noUnknown_global hp hq)).mp hk.global, ?_⟩
    · have := hk.inputs p.inputs.length
      have e1 : r.inputs[p.inputs.length]? = none := List.getElem?_eq_none (by omega)
      have e2 := List.getElem?_eq_getElem hl
      simp only [Spec.inputPairs, e1, e2, Option.map_some, Option.map_none, Option.getD_some, Option.getD_none] at this
      obtain ⟨y, hy, -⟩ := this.right (bare PSBT_IN_PREVIOUS_TXID (q.inputs[p.inputs.length]).previousTxid.1) (by simp [Input.getPairs]) (by simp)
      cases hy
    · have := hk.outputs p.outputs.length
      have e1 : r.outputs[p.outputs.length]? = none := List.getElem?_eq_none (by omega)
      have e2 := List.getElem?_eq_getElem hl
      simp only [Spec.outputPairs, e1, e2, Option.map_some, Option.map_none, Option.getD_some, Option.getD_none] at this
      obtain ⟨y, hy, -⟩ := this.right (bare PSBT_OUT_AMOUNT (amountCodec.ser (q.outputs[p.outputs.length]).amount))
        (by simp [Output.getPairs]) (by simp)
      cases hy
    · intro k i j e1 e2
      obtain ⟨hlt, -⟩ := List.getElem?_eq_some_iff.mp e1
      have e3 := List.getElem?_eq_getElem (l := r.inputs) (i := k) (by omega)
      refine (C26_input_iff_partial h e1 e2 e3 (noUnknown_input hp hq (List.mem_of_getElem? e1) (List.mem_of_getElem? e2))).mp ?_
      have := hk.inputs k
      simpa only [Spec.inputPairs, e1, e2, e3, Option.map_some, Option.getD_some] using this
  · rintro ⟨l1, l2, hf, hn⟩
    refine ⟨(C26_global_iff_partial h (noUnknown_global hp hq)).mpr hf, fun k => ?_, fun k => ?_⟩
    · by_cases hk : k < p.inputs.length
      · have e1 := List.getElem?_eq_getElem hk
        have e3 := List.getElem?_eq_getElem (l := r.inputs) (i := k) (by omega)
        cases e2 : q.inputs[k]? with
        | none =>
          simp only [Spec.inputPairs, e1, e2, e3, Option.map_some, Option.map_none, Option.getD_some, Option.getD_none]
          rw [(hi k _ _ e1 e3).2 e2]
          exact merged_left _
        | some j =>
          simp only [Spec.inputPairs, e1, e2, e3, Option.map_some, Option.getD_some]
          exact (C26_input_iff_partial h e1 e2 e3 (noUnknown_input hp hq (List.mem_of_getElem? e1) (List.mem_of_getElem? e2))).mpr
            (hn k _ _ e1 e2)
      · have e1 : p.inputs[k]? = none := List.getElem?_eq_none (by omega)
        have e2 : q.inputs[k]? = none := List.getElem?_eq_none (by omega)
        have e3 : r.inputs[k]? = none := List.getElem?_eq_none (by omega)
        simp only [Spec.inputPairs, e1, e2, e3, Option.map_none, Option.getD_none]
        exact merged_nil
    · by_cases hk : k < p.outputs.length
      · have e1 := List.getElem?_eq_getElem hk
        have e3 := List.getElem?_eq_getElem (l := r.outputs) (i := k) (by omega)
        cases e2 : q.outputs[k]? with
        | none =>
          simp only [Spec.outputPairs, e1, e2, e3, Option.map_some, Option.map_none, Option.getD_some, Option.getD_none]
          rw [(ho k _ _ e1 e3).2 e2]
          exact merged_left _
        | some j =>
          simp only [Spec.outputPairs, e1, e2, e3, Option.map_some, Option.getD_some]
          exact (ho k _ _ e1 e3).1 j e2
      · have e1 : p.outputs[k]? = none := List.getElem?_eq_none (by omega)
        have e2 : q.outputs[k]? = none := List.getElem?_eq_none (by omega)
        have e3 : r.outputs[k]? = none := List.getElem?_eq_none (by omega)
        simp only [Spec.outputPairs, e1, e2, e3, Option.map_none, Option.getD_none]
        exact merged_nil

/-- Two PSBTs of which combining keeps all, and two of which it loses a sighash type. -/
example : ∃ p q r s t : Psbt DL, Spec.UnknownsApart p ∧ Spec.UnknownsApart q ∧ Spec.UnknownsApart s ∧ p.combine q = .ok r ∧ Spec.KeepsAll p q r ∧
    p ≠ q ∧ p.combine s = .ok t ∧ ¬ Spec.KeepsAll p s t := by
  have hc : (cP [cIn 1]).combine (cP [{ cIn 1 with witnessUtxo := some cWU }]) = .ok (cP [{ cIn 1 with witnessUtxo := some cWU }]) :=
    combine?_some (by decide +kernel)
  have hd : (cP [cIn 1]).combine (cP [{ cIn 1 with sighashType := some 1 }]) = .ok (cP [cIn 1]) := combine?_some (by decide +kernel)
  have a1 : Spec.UnknownsApart (cP [cIn 1]) := pApart _ (by decide)
  have a2 : Spec.UnknownsApart (cP [{ cIn 1 with witnessUtxo := some cWU }]) := pApart _ (by decide)
  have a3 : Spec.UnknownsApart (cP [{ cIn 1 with sighashType := some 1 }]) := pApart _ (by decide)
  refine ⟨_, _, _, _, _, a1, a2, a3, hc, (C26_iff_partial a1 a2 hc).mpr ⟨by decide, by decide, by decide, ?_⟩, by decide +kernel, hd, ?_⟩
  · intro k i j e1 e2
    match k with
    | 0 => cases e1; cases e2; exact not_loses.mpr ⟨.inr rfl, .inr (.inr ⟨rfl, rfl⟩)⟩
    | k + 1 => cases e1
  · intro hk
    exact ((C26_iff_partial a1 a3 hd).mp hk).2.2.2 0 _ _ rfl rfl (.inl ⟨rfl, by simp⟩)

/-- Nothing is lost although both have UTXOs and a sighash type. -/
example : ∃ (p q r : Psbt DL) (i j c : Input DL), p.combine q = .ok r ∧ p.inputs[0]? = some i ∧ q.inputs[0]? = some j ∧
    r.inputs[0]? = some c ∧ Spec.NoUnknown [0x00, 0x03] i.unknowns j.unknowns ∧ Spec.NoUnknown [0x03] p.global.unknowns q.global.unknowns ∧
    i.sighashType ≠ none ∧ j.nonWitnessUtxo ≠ none ∧ Spec.Merged [] [] i.getPairs j.getPairs c.getPairs := by
  have hc : (cP [{ cIn 1 with witnessUtxo := some cWU, sighashType := some 1 }]).combine
      (cP [{ cIn 1 with witnessUtxo := some cWU, nonWitnessUtxo := some cTx, sighashType := some 1 }]) =
      .ok (cP [{ cIn 1 with witnessUtxo := some cWU, nonWitnessUtxo := some cTx, sighashType := some 1 }]) :=
    combine?_some (by decide +kernel)
  have hu : Spec.NoUnknown [0x00, 0x03] (BMap.empty : BMap RawKey Bytes) BMap.empty := fun _ _ => ⟨rfl, rfl⟩
  exact ⟨_, _, _, _, _, _, hc, rfl, rfl, rfl, hu, fun _ _ => ⟨rfl, rfl⟩, by simp, by simp,
    (C26_input_iff_partial hc (k := 0) rfl rfl rfl hu).mpr (not_loses.mpr ⟨by simp, by simp⟩)⟩

/-! ### C58 -/

/-- The histories of a constructor, of any kind and from any PSBT, with what was called since it was made: `ni` if `no_more_inputs` was,
`no` if `no_more_outputs` was. -/
inductive Spec.Extending : Mod → Psbt L → Bool → Bool → Prop
  | constructorModifiable (p) : Spec.Extending .modifiable (Creator.constructorModifiable p) false false
  | constructorInputsOnly (p) : Spec.Extending .inputsOnly (Creator.constructorInputsOnly p) false false
  | constructorOutputsOnly (p) : Spec.Extending .outputsOnly (Creator.constructorOutputsOnly p) false false
  | constructorNew {m p q} : Constructor.new m p = .ok q → Spec.Extending m q false false
  | input {m p q i ni no} : m ≠ .outputsOnly → Spec.Extending m p ni no → Constructor.input p i = .ok q → Spec.Extending m q ni no
  | output {m p q o ni no} : m ≠ .inputsOnly → Spec.Extending m p ni no → Constructor.output p o = .ok q → Spec.Extending m q ni no
  | noMoreInputs {m p ni no} : Spec.Extending m p ni no → Spec.Extending m (Constructor.noMoreInputs p) true no
  | noMoreOutputs {m p ni no} : Spec.Extending m p ni no → Spec.Extending m (Constructor.noMoreOutputs p) ni true

/-- C58, exactly: a constructor that can add inputs (outputs) holds a PSBT whose inputs (outputs) are flagged modifiable if and only if
`no_more_inputs` (`no_more_outputs`) was not called on it. -/
theorem C58_iff_partial {m : Mod} {p : Psbt L} {ni no : Bool} (h : Spec.Extending m p ni no) :
    (m ≠ .outputsOnly → (Spec.flag p 0 = true ↔ ni = false)) ∧ (m ≠ .inputsOnly → (Spec.flag p 1 = true ↔ no = false)) := by
  induction h with
  | constructorModifiable p => have := fun k => (C20_creator_flags p k 0 0).2.2.2.2.2.2.1; simp [this]
  | constructorInputsOnly p => have := fun k => (C20_creator_flags p k 0 0).2.2.2.2.2.2.2.1; simp [this]
  | constructorOutputsOnly p => have := fun k => (C20_creator_flags p k 0 0).2.2.2.2.2.2.2.2; simp [this]
  | constructorNew e =>
    have := ctorNew_ok e
    subst this
    rename_i m' _
    cases m'
    · obtain ⟨h1, h2, -⟩ := (C20_constructor_new_iff _ _).1.mp e; simp [h1, h2]
    · obtain ⟨h1, -⟩ := (C20_constructor_new_iff _ _).2.1.mp e; simp [h1]
    · obtain ⟨h1, -⟩ := (C20_constructor_new_iff _ _).2.2.mp e; simp [h1]
  | input _ _ e ih => unfold Spec.flag at *; rw [(input_ok e).2.2.2]; exact ih
  | output _ _ e ih => unfold Spec.flag at *; rw [(output_ok e).2.2.2]; exact ih
  | noMoreInputs _ ih => rename_i p' _ _ _; have := fun k => (C20_no_more p' k).1; simp only [this]; simpa using ih.2
  | noMoreOutputs _ ih => rename_i p' _ _ _; have := fun k => (C20_no_more p' k).2.1; simp only [this]; simpa using ih.1

/-- An input is added after `no_more_outputs`, and another after `no_more_inputs`: only the second goes against the flag. -/
example : ∃ (p q : Psbt (Demo.lib false)), Spec.Extending .modifiable p false true ∧ Spec.flag p 0 = true ∧
    Spec.Extending .modifiable q true true ∧ Spec.flag q 0 = false ∧ q.inputs.length = 2 := by
  have a := Spec.Extending.input (m := .modifiable) (i := ltInput none none) (q := (match Constructor.input (Constructor.noMoreOutputs
      (Creator.constructorModifiable (Creator.new (Demo.lib false)))) (ltInput none none) with | .ok q => q | .error _ => Creator.new _))
    (by decide) (.noMoreOutputs (.constructorModifiable (Creator.new (Demo.lib false)))) rfl
  obtain ⟨p, hp⟩ : ∃ p, p = (match Constructor.input (Constructor.noMoreOutputs (Creator.constructorModifiable (Creator.new (Demo.lib false))))
    (ltInput none none) with | .ok q => q | .error _ => Creator.new _) := ⟨_, rfl⟩
  rw [← hp] at a
  have b := Spec.Extending.input (i := ltInput none none) (q := (match Constructor.input (Constructor.noMoreInputs p) (ltInput none none) with
    | .ok q => q | .error _ => Creator.new _)) (by decide) (.noMoreInputs a) (by rw [hp]; rfl)
  refine ⟨_, _, a, (C58_iff_partial a).1 (by decide) |>.mpr rfl, b, ?_, by rw [hp]; rfl⟩
  have := (C58_iff_partial b).1 (by decide)
  simpa using this

end V2

namespace V0

theorem input_ty0 {i : Input L} {p : Pair} (hp : p ∈ i.getPairs) (ht : p.key.ty = 0x00) (hu : i.unknown.get p.key = none) :
    i.nonWitnessUtxo ≠ none := by
  unfold Input.getPairs at hp
  obtain ⟨x, hx, hp⟩ := List.mem_flatten.mp hp
  simp only [List.mem_cons, List.not_mem_nil, or_false] at hx
  repeat' (rcases hx with rfl | hx)
  all_goals try subst hx
  all_goals first
    | exact absurd hu (get_emitUnknown hp)
    | exact absurd ((ty_emitMap hp).symm.trans ht) (by decide)
    | exact absurd ((ty_emitProp hp).symm.trans ht) (by decide)
    | exact absurd ((ty_emitOpt hp).1.symm.trans ht) (by decide)
    | exact (ty_emitOpt hp).2

theorem input_ty3 {i : Input L} {p : Pair} (hp : p ∈ i.getPairs) (ht : p.key.ty = 0x03) (hu : i.unknown.get p.key = none) :
    i.sighashType ≠ none := by
  unfold Input.getPairs at hp
  obtain ⟨x, hx, hp⟩ := List.mem_flatten.mp hp
  simp only [List.mem_cons, List.not_mem_nil, or_false] at hx
  repeat' (rcases hx with rfl | hx)
  all_goals try subst hx
  all_goals first
    | exact absurd hu (get_emitUnknown hp)
    | exact absurd ((ty_emitMap hp).symm.trans ht) (by decide)
    | exact absurd ((ty_emitProp hp).symm.trans ht) (by decide)
    | exact absurd ((ty_emitOpt hp).1.symm.trans ht) (by decide)
    | exact (ty_emitOpt hp).2

theorem input_mem0 {i : Input L} (h : i.nonWitnessUtxo ≠ none) : ∃ p ∈ i.getPairs, p.key = ⟨0x00, []⟩ := by
  obtain ⟨v, hv⟩ := Option.ne_none_iff_exists'.mp h
  exact ⟨bare PSBT_IN_NON_WITNESS_UTXO (txCodec.ser v), by simp [Input.getPairs, hv, emitOpt], rfl⟩
theorem input_mem3 {i : Input L} (h : i.sighashType ≠ none) : ∃ p ∈ i.getPairs, p.key = ⟨0x03, []⟩ := by
  obtain ⟨v, hv⟩ := Option.ne_none_iff_exists'.mp h
  exact ⟨bare PSBT_IN_SIGHASH_TYPE (u32Codec.ser v), by simp [Input.getPairs, hv, emitOpt], rfl⟩

/-- C48, exactly: when the combined input lacks a key of one of the two. -/
theorem C48_input_iff_partial {p q r : Psbt L} (h : p.combine q = (r, .ok ())) {k : Nat} {i j c : Input L}
    (e1 : p.inputs[k]? = some i) (e2 : q.inputs[k]? = some j) (e3 : r.inputs[k]? = some c)
    (hu : Spec.NoUnknown [0x00, 0x03] i.unknown j.unknown) :
    Spec.Merged [] [] i.getPairs j.getPairs c.getPairs ↔
      ¬ Spec.LosesInput i.sighashType j.sighashType i.nonWitnessUtxo j.nonWitnessUtxo i.witnessUtxo j.witnessUtxo := by
  obtain ⟨-, -, hr⟩ := combine_ok.mp h
  rw [hr] at e3
  simp only [combineZip_getElem?, e1, e2, Option.some.injEq] at e3
  subst e3
  constructor
  · rintro hm (⟨h1, h2⟩ | ⟨h1, h2, h3⟩)
    · obtain ⟨x, hx1, hx2⟩ := input_mem3 h2
      obtain ⟨y, hy1, hy2⟩ := hm.right x hx1 (by simp)
      have ht : y.key.ty = 0x03 := by rw [hy2, hx2]
      exact input_ty3 hy1 ht (get_extend_none hu (by simp [ht])) h1
    · have key : ∃ y ∈ (i.combine j).getPairs, y.key = ⟨0x00, []⟩ := by
        rcases h3 with h3 | h3
        · obtain ⟨x, hx1, hx2⟩ := input_mem0 h3
          obtain ⟨y, hy1, hy2⟩ := hm.left x hx1 (by simp)
          exact ⟨y, hy1, hy2.trans hx2⟩
        · obtain ⟨x, hx1, hx2⟩ := input_mem0 h3
          obtain ⟨y, hy1, hy2⟩ := hm.right x hx1 (by simp)
          exact ⟨y, hy1, hy2.trans hx2⟩
      obtain ⟨y, hy1, hy2⟩ := key
      have ht : y.key.ty = 0x00 := by rw [hy2]
      refine input_ty0 hy1 ht (get_extend_none hu (by simp [ht])) ?_
      obtain ⟨w, hw⟩ := Option.ne_none_iff_exists'.mp h2
      simp only [Input.combine, h1, hw, V2.combUtxos]
  · intro hn
    obtain ⟨h1, h2⟩ := not_loses.mp hn
    unfold Input.getPairs Input.combine
    rw [V2.combUtxos_snd, combUtxos_kept h2]
    repeat' apply V2.merged_flatten_cons
    all_goals first
      | exact V2.merged_opt _ _ _ _
      | exact V2.merged_map _ _ _ _ _
      | exact V2.merged_prop _ _
      | exact V2.merged_unknown _ _
      | exact V2.merged_nil
      | exact merged_present _ _ h1

/-- Nothing is lost although both have UTXOs and the first a sighash type. -/
example : ∃ (p q r : Psbt DL) (i j c : Input DL), p.combine q = (r, .ok ()) ∧ p.inputs[0]? = some i ∧ q.inputs[0]? = some j ∧
    r.inputs[0]? = some c ∧ Spec.NoUnknown [0x00, 0x03] i.unknown j.unknown ∧
    i.sighashType ≠ none ∧ j.nonWitnessUtxo ≠ none ∧ Spec.Merged [] [] i.getPairs j.getPairs c.getPairs := by
  have hc : (cP { cI with witnessUtxo := some cU, sighashType := some 1 } cI).combine
      (cP { cI with witnessUtxo := some cU, nonWitnessUtxo := some cT } cI) =
      (cP { cI with witnessUtxo := some cU, nonWitnessUtxo := some cT, sighashType := some 1 } cI, .ok ()) :=
    Prod.ext (by decide +kernel) (by decide +kernel)
  have hu : Spec.NoUnknown [0x00, 0x03] (BMap.empty : BMap RawKey Bytes) BMap.empty := fun _ _ => ⟨rfl, rfl⟩
  exact ⟨_, _, _, _, _, _, hc, rfl, rfl, rfl, hu, by simp, by simp,
    (C48_input_iff_partial hc (k := 0) rfl rfl rfl hu).mpr (not_loses.mpr ⟨by simp, by simp⟩)⟩

end V0
end Psbt
