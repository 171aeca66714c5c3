/- C74: fields that are left out. -/
import Verif.Spec.SerdeAbsent
import Verif.Props.Serde
namespace Psbt

variable {L : Lib} {S : SerdeLib L} {f : Fmt} {α : Type}

/-- Optional fields are read as such, all others are required. -/
structure Fields (names : List String) (c : SCodec α) : Prop where
  body : ∃ g : Fmt → List (String × SVal) → Option α, (∀ f v, c.de f v = (structDe names v).bind (g f)) ∧
    (∀ f fs fs', (∀ {β : Type} (c : SCodec β) n, optField c f fs n = optField c f fs' n) →
      (∀ {β : Type} (c : SCodec β) n, n ∉ Spec.optionalFields → reqField c f fs n = reqField c f fs' n) → g f fs = g f fs') ∧
    ∀ f fs n, n ∈ names → n ∉ Spec.optionalFields → fs.lookup n = none → g f fs = none

theorem reqField_there {β : Type} {c : SCodec β} {fs : List (String × SVal)} {n : String} {b : β} (h : reqField c f fs n = some b) : fs.lookup n ≠ none := by
  unfold reqField at h
  split at h
  · rename_i e; rw [e]; simp
  · cases h

theorem absent_none {β : Type} {o : Option β} {P : Prop} (hp : P) (h : ∀ b, o = some b → ¬ P) : o = none := by
  cases o with
  | none => rfl
  | some b => exact absurd hp (h b rfl)

theorem bind_there {β γ : Type} {o : Option β} {k : β → Option γ} {b : γ} (h : (o >>= k) = some b) : ∃ a, o = some a ∧ k a = some b :=
  Option.bind_eq_some_iff.mp h

theorem rawKeyS_fields : Fields ["type_value", "key"] rawKeyS := by
  refine ⟨_, fun _ _ => rfl, fun f fs fs' h1 h2 => ?_, fun f fs n hn ho hl => absent_none hl fun b hb => ?_⟩
  · simp only [h1, h2 _ "type_value" (by decide), h2 _ "key" (by decide)]
  · iterate 2 obtain ⟨_, _, hb⟩ := bind_there hb
    simp only [List.mem_cons, List.not_mem_nil, or_false] at hn
    rcases hn with rfl | rfl <;>
      first | (apply reqField_there; assumption) | exact absurd (by decide) ho

theorem pairRawS_fields : Fields ["key", "value"] pairRawS := by
  refine ⟨_, fun _ _ => rfl, fun f fs fs' h1 h2 => ?_, fun f fs n hn ho hl => absent_none hl fun b hb => ?_⟩
  · simp only [h1, h2 _ "key" (by decide), h2 _ "value" (by decide)]
  · iterate 2 obtain ⟨_, _, hb⟩ := bind_there hb
    simp only [List.mem_cons, List.not_mem_nil, or_false] at hn
    rcases hn with rfl | rfl <;>
      first | (apply reqField_there; assumption) | exact absurd (by decide) ho

theorem propKeyS_fields : Fields ["prefix", "subtype", "key"] propKeyS := by
  refine ⟨_, fun _ _ => rfl, fun f fs fs' h1 h2 => ?_, fun f fs n hn ho hl => absent_none hl fun b hb => ?_⟩
  · simp only [h1, h2 _ "prefix" (by decide), h2 _ "subtype" (by decide), h2 _ "key" (by decide)]
  · iterate 3 obtain ⟨_, _, hb⟩ := bind_there hb
    simp only [List.mem_cons, List.not_mem_nil, or_false] at hn
    rcases hn with rfl | rfl | rfl <;>
      first | (apply reqField_there; assumption) | exact absurd (by decide) ho

theorem V2.Global.serdeFields : Fields (Spec.globalFields L.sp) (V2.Global.serde S) := by
  refine ⟨_, fun _ _ => rfl, fun f fs fs' h1 h2 => ?_, fun f fs n hn ho hl => absent_none hl fun b hb => ?_⟩
  · simp only [h1, h2 _ "version" (by decide), h2 _ "tx_version" (by decide), h2 _ "tx_modifiable_flags" (by decide), h2 _ "input_count" (by decide), h2 _ "output_count" (by decide), h2 _ "xpubs" (by decide), h2 _ "sp_ecdh_shares" (by decide), h2 _ "sp_dleq_proofs" (by decide), h2 _ "proprietaries" (by decide), h2 _ "unknowns" (by decide)]
  · iterate 7 obtain ⟨_, _, hb⟩ := bind_there hb
    obtain ⟨_, g1, hb⟩ := bind_there hb
    obtain ⟨_, g2, hb⟩ := bind_there hb
    iterate 2 obtain ⟨_, _, hb⟩ := bind_there hb
    cases hs : L.sp
    · rw [hs] at hn g1 g2
      simp only [Spec.globalFields, Bool.false_eq_true, if_false, if_true, List.append_nil, List.cons_append, List.nil_append, List.mem_cons, List.not_mem_nil, or_false] at hn g1 g2
      rcases hn with rfl | rfl | rfl | rfl | rfl | rfl | rfl | rfl | rfl <;>
        first | (apply reqField_there; assumption) | exact absurd (by decide) ho
    · rw [hs] at hn g1 g2
      simp only [Spec.globalFields, Bool.false_eq_true, if_false, if_true, List.append_nil, List.cons_append, List.nil_append, List.mem_cons, List.not_mem_nil, or_false] at hn g1 g2
      rcases hn with rfl | rfl | rfl | rfl | rfl | rfl | rfl | rfl | rfl | rfl | rfl <;>
        first | (apply reqField_there; assumption) | exact absurd (by decide) ho

theorem V2.Input.serdeFields : Fields (Spec.inputFields L.sp) (V2.Input.serde S) := by
  refine ⟨_, fun _ _ => rfl, fun f fs fs' h1 h2 => ?_, fun f fs n hn ho hl => absent_none hl fun b hb => ?_⟩
  · simp only [h1, h2 _ "previous_txid" (by decide), h2 _ "spent_output_index" (by decide), h2 _ "partial_sigs" (by decide), h2 _ "bip32_derivations" (by decide), h2 _ "ripemd160_preimages" (by decide), h2 _ "sha256_preimages" (by decide), h2 _ "hash160_preimages" (by decide), h2 _ "hash256_preimages" (by decide), h2 _ "tap_script_sigs" (by decide), h2 _ "tap_scripts" (by decide), h2 _ "tap_key_origins" (by decide), h2 _ "sp_ecdh_shares" (by decide), h2 _ "sp_dleq_proofs" (by decide), h2 _ "proprietaries" (by decide), h2 _ "unknowns" (by decide)]
  · iterate 24 obtain ⟨_, _, hb⟩ := bind_there hb
    obtain ⟨_, g1, hb⟩ := bind_there hb
    obtain ⟨_, g2, hb⟩ := bind_there hb
    iterate 2 obtain ⟨_, _, hb⟩ := bind_there hb
    cases hs : L.sp
    · rw [hs] at hn g1 g2
      simp only [Spec.inputFields, Bool.false_eq_true, if_false, if_true, List.append_nil, List.cons_append, List.nil_append, List.mem_cons, List.not_mem_nil, or_false] at hn g1 g2
      rcases hn with rfl | rfl | rfl | rfl | rfl | rfl | rfl | rfl | rfl | rfl | rfl | rfl | rfl | rfl | rfl | rfl | rfl | rfl | rfl | rfl | rfl | rfl | rfl | rfl | rfl | rfl <;>
        first | (apply reqField_there; assumption) | exact absurd (by decide) ho
    · rw [hs] at hn g1 g2
      simp only [Spec.inputFields, Bool.false_eq_true, if_false, if_true, List.append_nil, List.cons_append, List.nil_append, List.mem_cons, List.not_mem_nil, or_false] at hn g1 g2
      rcases hn with rfl | rfl | rfl | rfl | rfl | rfl | rfl | rfl | rfl | rfl | rfl | rfl | rfl | rfl | rfl | rfl | rfl | rfl | rfl | rfl | rfl | rfl | rfl | rfl | rfl | rfl | rfl | rfl <;>
        first | (apply reqField_there; assumption) | exact absurd (by decide) ho

theorem V2.Output.serdeFields : Fields (Spec.outputFields L.sp) (V2.Output.serde S) := by
  refine ⟨_, fun _ _ => rfl, fun f fs fs' h1 h2 => ?_, fun f fs n hn ho hl => absent_none hl fun b hb => ?_⟩
  · simp only [h1, h2 _ "amount" (by decide), h2 _ "script_pubkey" (by decide), h2 _ "bip32_derivations" (by decide), h2 _ "tap_key_origins" (by decide), h2 _ "proprietaries" (by decide), h2 _ "unknowns" (by decide)]
  · iterate 8 obtain ⟨_, _, hb⟩ := bind_there hb
    obtain ⟨_, g1, hb⟩ := bind_there hb
    obtain ⟨_, g2, hb⟩ := bind_there hb
    iterate 2 obtain ⟨_, _, hb⟩ := bind_there hb
    cases hs : L.sp
    · rw [hs] at hn g1 g2
      simp only [Spec.outputFields, Bool.false_eq_true, if_false, if_true, List.append_nil, List.cons_append, List.nil_append, List.mem_cons, List.not_mem_nil, or_false] at hn g1 g2
      rcases hn with rfl | rfl | rfl | rfl | rfl | rfl | rfl | rfl | rfl | rfl <;>
        first | (apply reqField_there; assumption) | exact absurd (by decide) ho
    · rw [hs] at hn g1 g2
      simp only [Spec.outputFields, Bool.false_eq_true, if_false, if_true, List.append_nil, List.cons_append, List.nil_append, List.mem_cons, List.not_mem_nil, or_false] at hn g1 g2
      rcases hn with rfl | rfl | rfl | rfl | rfl | rfl | rfl | rfl | rfl | rfl | rfl | rfl <;>
        first | (apply reqField_there; assumption) | exact absurd (by decide) ho

theorem V2.Psbt.serdeFields : Fields ["global", "inputs", "outputs"] (V2.Psbt.serde S) := by
  refine ⟨_, fun _ _ => rfl, fun f fs fs' h1 h2 => ?_, fun f fs n hn ho hl => absent_none hl fun b hb => ?_⟩
  · simp only [h1, h2 _ "global" (by decide), h2 _ "inputs" (by decide), h2 _ "outputs" (by decide)]
  · iterate 3 obtain ⟨_, _, hb⟩ := bind_there hb
    simp only [List.mem_cons, List.not_mem_nil, or_false] at hn
    rcases hn with rfl | rfl | rfl <;>
      first | (apply reqField_there; assumption) | exact absurd (by decide) ho

theorem V0.Input.serdeFields : Fields Spec.V0.inputFields (V0.Input.serde S) := by
  refine ⟨_, fun _ _ => rfl, fun f fs fs' h1 h2 => ?_, fun f fs n hn ho hl => absent_none hl fun b hb => ?_⟩
  · simp only [h1, h2 _ "partial_sigs" (by decide), h2 _ "bip32_derivation" (by decide), h2 _ "ripemd160_preimages" (by decide), h2 _ "sha256_preimages" (by decide), h2 _ "hash160_preimages" (by decide), h2 _ "hash256_preimages" (by decide), h2 _ "tap_script_sigs" (by decide), h2 _ "tap_scripts" (by decide), h2 _ "tap_key_origins" (by decide), h2 _ "proprietary" (by decide), h2 _ "unknown" (by decide)]
  · iterate 21 obtain ⟨_, _, hb⟩ := bind_there hb
    simp only [Spec.V0.inputFields, List.mem_cons, List.not_mem_nil, or_false] at hn
    rcases hn with rfl | rfl | rfl | rfl | rfl | rfl | rfl | rfl | rfl | rfl | rfl | rfl | rfl | rfl | rfl | rfl | rfl | rfl | rfl | rfl | rfl <;>
      first | (apply reqField_there; assumption) | exact absurd (by decide) ho

theorem V0.Output.serdeFields : Fields Spec.V0.outputFields (V0.Output.serde S) := by
  refine ⟨_, fun _ _ => rfl, fun f fs fs' h1 h2 => ?_, fun f fs n hn ho hl => absent_none hl fun b hb => ?_⟩
  · simp only [h1, h2 _ "bip32_derivation" (by decide), h2 _ "tap_key_origins" (by decide), h2 _ "proprietary" (by decide), h2 _ "unknown" (by decide)]
  · iterate 8 obtain ⟨_, _, hb⟩ := bind_there hb
    simp only [Spec.V0.outputFields, List.mem_cons, List.not_mem_nil, or_false] at hn
    rcases hn with rfl | rfl | rfl | rfl | rfl | rfl | rfl | rfl <;>
      first | (apply reqField_there; assumption) | exact absurd (by decide) ho

theorem V0.Psbt.serdeFields : Fields ["unsigned_tx", "version", "xpub", "proprietary", "unknown", "inputs", "outputs"] (V0.Psbt.serde S) := by
  refine ⟨_, fun _ _ => rfl, fun f fs fs' h1 h2 => ?_, fun f fs n hn ho hl => absent_none hl fun b hb => ?_⟩
  · simp only [h1, h2 _ "unsigned_tx" (by decide), h2 _ "version" (by decide), h2 _ "xpub" (by decide), h2 _ "proprietary" (by decide), h2 _ "unknown" (by decide), h2 _ "inputs" (by decide), h2 _ "outputs" (by decide)]
  · iterate 7 obtain ⟨_, _, hb⟩ := bind_there hb
    simp only [List.mem_cons, List.not_mem_nil, or_false] at hn
    rcases hn with rfl | rfl | rfl | rfl | rfl | rfl | rfl <;>
      first | (apply reqField_there; assumption) | exact absurd (by decide) ho

theorem IsStruct.serdeFields {names : List String} {c : SCodec α} (h : IsStruct S names c) : Fields names c := by
  cases h
  · exact rawKeyS_fields
  · exact pairRawS_fields
  · exact propKeyS_fields
  · exact V2.Global.serdeFields
  · exact V2.Input.serdeFields
  · exact V2.Output.serdeFields
  · exact V2.Psbt.serdeFields
  · exact V0.Input.serdeFields
  · exact V0.Output.serdeFields
  · exact V0.Psbt.serdeFields

theorem knownFields_absent {names : List String} {n : String} {l : List (SVal × SVal)} {fs : List (String × SVal)} (h : Spec.Absent n l)
    (hk : knownFields names l = some fs) : n ∉ fs.map (·.1) := by
  induction l generalizing fs with
  | nil => cases hk; simp
  | cons x l ih =>
    obtain ⟨k, v⟩ := x
    cases k with
    | str m =>
      simp only [knownFields, Option.bind_eq_bind, Option.bind_eq_some_iff, Option.some.injEq] at hk
      obtain ⟨r, hr, rfl⟩ := hk
      have := ih (fun v hv => h v (by simp [hv])) hr
      have hm : n ≠ m := fun e => h v (by simp [e])
      split
      · simp only [List.map_cons, List.mem_cons, not_or]; exact ⟨hm, this⟩
      · exact this
    | _ => simp [knownFields] at hk

/-- C74. A field that holds one value or nothing may be left out instead of being written as null, in a human-readable format. -/
theorem C74_left_out (S : SerdeLib L) {names : List String} {c : SCodec α} (h : IsStruct S names c) (f : Fmt) (hf : f.human = true) {n : String}
    (ho : n ∈ Spec.optionalFields) {l : List (SVal × SVal)} (hl : Spec.Absent n l) : c.de f (.map l) = c.de f (.map ((.str n, .null) :: l)) := by
  by_cases hn : n ∈ names
  case neg => exact (h.byName.unknown hn _ l).symm
  obtain ⟨g, h1, h2, -⟩ := h.serdeFields.body
  rw [h1, h1]
  simp only [structDe, knownFields, Option.bind_eq_bind, hn, ↓reduceIte]
  cases hk : knownFields names l with
  | none => rfl
  | some fs =>
    have ha := knownFields_absent hl hk
    simp only [Option.bind_some, List.map_cons, List.nodup_cons, ha, not_false_eq_true, true_and]
    split
    · simp only [Option.bind_some]
      have hln : fs.lookup n = none := List.lookup_eq_none_iff.mpr (by
        intro p hp
        simp only [bne_iff_ne, ne_eq]
        rintro rfl
        exact ha (List.mem_map_of_mem hp))
      refine h2 f _ _ (fun c m => ?_) (fun c m hm => ?_)
      · by_cases e : m = n
        · subst e
          simp only [optField, hln, List.lookup, beq_self_eq_true, optS, hf, ↓reduceIte]
        · have e' : (m == n) = false := by simpa using e
          simp only [optField, List.lookup, e']
      · have e : (m == n) = false := by
          simp only [beq_eq_false_iff_ne, ne_eq]
          rintro rfl; exact hm ho
        simp only [reqField, List.lookup, e]
    · rfl

example (S : SerdeLib L) : (V0.Output.serde S).de ⟨true, true⟩ (.map [(.str "unknown", .seq []), (.str "proprietary", .seq []),
    (.str "bip32_derivation", .seq []), (.str "tap_key_origins", .seq [])]) = some (V0.Output.default L) := by
  rw [C74_left_out S .output0 _ rfl (n := "redeem_script") (by decide) (by simp [Spec.Absent])]
  rfl

/-- C74. A field of any other kind has to be there. -/
theorem C74_required (S : SerdeLib L) {names : List String} {c : SCodec α} (h : IsStruct S names c) (f : Fmt) {n : String} (hn : n ∈ names)
    (ho : n ∉ Spec.optionalFields) {l : List (SVal × SVal)} (hl : Spec.Absent n l) : c.de f (.map l) = none := by
  obtain ⟨g, h1, -, h3⟩ := h.serdeFields.body
  rw [h1]
  simp only [structDe, Option.bind_eq_bind]
  cases hk : knownFields names l with
  | none => rfl
  | some fs =>
    have ha := knownFields_absent hl hk
    simp only [Option.bind_some]
    split
    · refine h3 f fs n hn ho (List.lookup_eq_none_iff.mpr ?_)
      intro p hp
      simp only [bne_iff_ne, ne_eq]
      rintro rfl
      exact ha (List.mem_map_of_mem hp)
    · rfl
example (S : SerdeLib L) : (V0.Output.serde S).de ⟨true, true⟩ (.map [(.str "unknown", .seq []), (.str "proprietary", .seq []),
    (.str "bip32_derivation", .seq [])]) = none :=
  C74_required S .output0 _ (n := "tap_key_origins") (by decide) (by decide) (by simp [Spec.Absent])

end Psbt
