/- Serde of whole PSBTs, structs read by name, and an instance of the assumed implementations. -/
import Verif.Lemmas.SerdeStructs
import Mathlib.Logic.Equiv.List
import Mathlib.Data.Countable.Basic
namespace Psbt
variable {L : Lib} {S : SerdeLib L} {f : Fmt} {α : Type}

theorem V2.Psbt.serde_rt (h : S.Good) (p : V2.Psbt L) (ht : Spec.Typed p) :
    (V2.Psbt.serde S).Rt f p ↔ (f.human = true → f.borrows = false → ∀ i ∈ p.inputs, Spec.NoPreimages i) := by
  have e1 := V2.Global.serde_eq (f := f) h p.global ht.global
  have e2 : (vecS (V2.Input.serde S)).Rt f p.inputs ↔ (f.human = true → f.borrows = false → ∀ i ∈ p.inputs, Spec.NoPreimages i) := by
    rw [vecS_rt]
    constructor
    · intro hh h1 h2 i hi
      exact (V2.Input.serde_rt h i (ht.inputs i hi)).1 (hh i hi) h1 h2
    · intro hh i hi
      exact (V2.Input.serde_rt h i (ht.inputs i hi)).2 fun h1 h2 => hh h1 h2 i hi
  have e3 : (vecS (V2.Output.serde S)).Rt f p.outputs := vecS_rt.2 fun o ho => V2.Output.serde_eq h o (ht.outputs o ho)
  rw [← e2]
  unfold SCodec.Rt at *
  conv => lhs; unfold V2.Psbt.serde
  simp only
  rw [structDe_ser (by decide) (by rfl)]
  simp only [Option.bind_eq_bind, Option.bind_some]
  rw [reqField_eq (by rfl), e1]
  simp only [Option.bind_some]
  rw [reqField_eq (by rfl)]
  rw [reqField_eq (by rfl), e3]
  simp only [Option.bind_some]
  cases hd : (vecS (V2.Input.serde S)).de f ((vecS (V2.Input.serde S)).ser f p.inputs) with
  | none => simp
  | some l =>
    simp only [Option.bind_some, Option.some.injEq]
    constructor
    · intro he; rw [← he]
    · intro he; subst he; rfl

theorem V0.Psbt.serde_rt (h : S.Good) (p : V0.Psbt L) :
    (V0.Psbt.serde S).Rt f p ↔ (f.human = true → f.borrows = false → ∀ i ∈ p.inputs, Spec.V0.NoPreimages i) := by
  have e2 : (vecS (V0.Input.serde S)).Rt f p.inputs ↔ (f.human = true → f.borrows = false → ∀ i ∈ p.inputs, Spec.V0.NoPreimages i) := by
    rw [vecS_rt]
    constructor
    · intro hh h1 h2 i hi
      exact (V0.Input.serde_rt h i).1 (hh i hi) h1 h2
    · intro hh i hi
      exact (V0.Input.serde_rt h i).2 fun h1 h2 => hh h1 h2 i hi
  have e3 : (vecS (V0.Output.serde S)).Rt f p.outputs := vecS_rt.2 fun o _ => V0.Output.serde_eq h o
  have a1 := h.tx.rt f p.unsignedTx
  have a2 := h.u32.rt f p.version
  have a3 := mapS_good (f := f) h.xpub h.keySource p.xpub
  have a4 := asSeqBytesS_good (f := f) propKeyS_good p.proprietary
  have a5 := asSeqBytesS_good (f := f) rawKeyS_good p.unknown
  rw [← e2]
  unfold SCodec.Rt at *
  conv => lhs; unfold V0.Psbt.serde
  simp only
  rw [structDe_ser (by decide) (by rfl)]
  simp only [Option.bind_eq_bind, Option.bind_some]
  rw [reqField_eq (by rfl), a1, reqField_eq (by rfl), a2, reqField_eq (by rfl), a3, reqField_eq (by rfl), a4, reqField_eq (by rfl), a5]
  simp only [Option.bind_some]
  rw [reqField_eq (by rfl)]
  rw [reqField_eq (by rfl), e3]
  simp only [Option.bind_some]
  cases hd : (vecS (V0.Input.serde S)).de f ((vecS (V0.Input.serde S)).ser f p.inputs) with
  | none => simp
  | some l =>
    simp only [Option.bind_some, Option.some.injEq]
    constructor
    · intro he; rw [← he]
    · intro he; subst he; rfl

theorem vecS_json' {c : SCodec α} {l : List α} (h : ∀ a ∈ l, Jsonable (c.ser f a)) : Jsonable ((vecS c).ser f l) :=
  .seq (by
    intro v hv
    obtain ⟨a, ha, rfl⟩ := List.mem_map.1 hv
    exact h a ha)

theorem V2.Psbt.serde_json (h : S.Good) (p : V2.Psbt L) (hf : f.human = true) : Jsonable ((V2.Psbt.serde S).ser f p) := by
  refine structSer_json hf ?_
  simp only [List.forall_mem_cons]
  exact ⟨V2.Global.serde_json h p.global hf, vecS_json' fun i _ => V2.Input.serde_json h i hf,
    vecS_json' fun o _ => V2.Output.serde_json h o hf, by simp⟩

theorem V0.Psbt.serde_json (h : S.Good) (p : V0.Psbt L) (hf : f.human = true) : Jsonable ((V0.Psbt.serde S).ser f p) := by
  refine structSer_json hf ?_
  simp only [List.forall_mem_cons]
  exact ⟨h.tx.json f _ hf, h.u32.json f _ hf, mapS_json h.xpubStr h.keySource _ hf, asSeqBytesS_json propKeyS_good _ hf,
    asSeqBytesS_json rawKeyS_good _ hf, vecS_json' fun i _ => V0.Input.serde_json h i hf,
    vecS_json' fun o _ => V0.Output.serde_json h o hf, by simp⟩

/-! ## Structs are read by name -/

/-- Deserialisation of a struct looks at its fields by name only. -/
def ByName (names : List String) (c : SCodec α) : Prop :=
  ∃ g : Fmt → List (String × SVal) → Option α, (∀ f v, c.de f v = (structDe names v).bind (g f)) ∧
    ∀ f fs fs', (∀ n, fs.lookup n = fs'.lookup n) → g f fs = g f fs'

theorem lookup_perm {l l' : List (String × SVal)} (hp : l.Perm l') (hn : (l.map (·.1)).Nodup) (n : String) : l.lookup n = l'.lookup n := by
  induction hp with
  | nil => rfl
  | cons x _ ih =>
    simp only [List.map_cons, List.nodup_cons] at hn
    obtain ⟨k, v⟩ := x
    simp only [List.lookup_cons]
    rw [ih hn.2]
  | swap x y l =>
    obtain ⟨k, v⟩ := x
    obtain ⟨k', v'⟩ := y
    simp only [List.map_cons, List.nodup_cons, List.mem_cons, not_or] at hn
    simp only [List.lookup_cons]
    by_cases h1 : n = k
    · subst h1
      have : (n == k') = false := by simp; exact fun e => hn.1.1 e.symm
      simp [this]
    · have : (n == k) = false := by simp [h1]
      simp [this]
  | trans h1 _ ih1 ih2 => rw [ih1 hn, ih2 ((h1.map _).nodup_iff.1 hn)]

theorem knownFields_perm {names : List String} {l l' : List (SVal × SVal)} (hp : l.Perm l') :
    (knownFields names l = none ∧ knownFields names l' = none) ∨
      ∃ fs fs', knownFields names l = some fs ∧ knownFields names l' = some fs' ∧ fs.Perm fs' := by
  induction hp with
  | nil => exact .inr ⟨[], [], rfl, rfl, .nil⟩
  | cons x _ ih =>
    obtain ⟨k, v⟩ := x
    cases k with
    | str n =>
      simp only [knownFields, Option.bind_eq_bind]
      rcases ih with ⟨h1, h2⟩ | ⟨fs, fs', h1, h2, h3⟩
      · left; simp [h1, h2]
      · right
        simp only [h1, h2, Option.bind_some]
        refine ⟨_, _, rfl, rfl, ?_⟩
        split
        · exact h3.cons _
        · exact h3
    | _ => left; exact ⟨rfl, rfl⟩
  | swap x y l =>
    obtain ⟨k, v⟩ := x
    obtain ⟨k', v'⟩ := y
    cases k with
    | str n =>
      cases k' with
      | str n' =>
        simp only [knownFields, Option.bind_eq_bind]
        cases hk : knownFields names l with
        | none => left; simp
        | some fs =>
          right
          simp only [Option.bind_some]
          refine ⟨_, _, rfl, rfl, ?_⟩
          by_cases h1 : n ∈ names <;> by_cases h2 : n' ∈ names <;> simp only [h1, h2, ↓reduceIte] <;> first | exact .swap .. | exact .refl _
      | _ => left; refine ⟨rfl, ?_⟩; simp only [knownFields]; rfl
    | _ => left; refine ⟨?_, rfl⟩; cases k' <;> simp only [knownFields] <;> rfl
  | trans _ _ ih1 ih2 =>
    rcases ih1 with ⟨h1, h2⟩ | ⟨fs, fs', h1, h2, h3⟩ <;> rcases ih2 with ⟨h4, h5⟩ | ⟨gs, gs', h4, h5, h6⟩
    · exact .inl ⟨h1, h5⟩
    · simp [h2] at h4
    · simp [h2] at h4
    · rw [h2] at h4
      cases h4
      exact .inr ⟨fs, gs', h1, h5, h3.trans h6⟩

theorem ByName.perm {names : List String} {c : SCodec α} (h : ByName names c) {l l' : List (SVal × SVal)} (hp : l.Perm l') :
    c.de f (.map l) = c.de f (.map l') := by
  obtain ⟨g, h1, h2⟩ := h
  rw [h1, h1]
  simp only [structDe, Option.bind_eq_bind]
  rcases knownFields_perm (names := names) hp with ⟨h3, h4⟩ | ⟨fs, fs', h3, h4, h5⟩
  · simp [h3, h4]
  · simp only [h3, h4, Option.bind_some]
    by_cases hn : (fs.map (·.1)).Nodup
    · have hn' := (h5.map (·.1)).nodup_iff.1 hn
      simp only [hn, hn', ↓reduceIte, Option.bind_some]
      exact h2 f _ _ (lookup_perm h5 hn)
    · have hn' : ¬ (fs'.map (·.1)).Nodup := fun e => hn ((h5.map (·.1)).nodup_iff.2 e)
      simp [hn, hn']

theorem ByName.unknown {names : List String} {c : SCodec α} (h : ByName names c) {n : String} (hn : n ∉ names) (v : SVal)
    (l : List (SVal × SVal)) : c.de f (.map ((.str n, v) :: l)) = c.de f (.map l) := by
  obtain ⟨g, h1, -⟩ := h
  rw [h1, h1]
  congr 1
  simp only [structDe, knownFields, Option.bind_eq_bind, hn, ↓reduceIte]
  cases knownFields names l <;> rfl

theorem ByName.duplicate {names : List String} {c : SCodec α} (h : ByName names c) {n : String} (hn : n ∈ names) {v w : SVal}
    {l : List (SVal × SVal)} (hd : [(.str n, v), (.str n, w)].Sublist l) : c.de f (.map l) = none := by
  obtain ⟨g, h1, -⟩ := h
  have key : ∀ {m l : List (SVal × SVal)} {fs}, m.Sublist l → knownFields names l = some fs →
      ∃ gs, knownFields names m = some gs ∧ gs.Sublist fs := by
    intro m l fs hs
    induction hs generalizing fs with
    | slnil => intro h; exact ⟨_, h, .refl _⟩
    | cons x _ ih =>
      obtain ⟨k, v⟩ := x
      intro h
      cases k with
      | str n =>
        simp only [knownFields, Option.bind_eq_bind, Option.bind_eq_some_iff, Option.some.injEq] at h
        obtain ⟨r, hr, rfl⟩ := h
        obtain ⟨gs, h1, h2⟩ := ih hr
        refine ⟨gs, h1, ?_⟩
        split
        · exact h2.cons _
        · exact h2
      | _ => simp [knownFields] at h
    | cons_cons x _ ih =>
      obtain ⟨k, v⟩ := x
      intro h
      cases k with
      | str n =>
        simp only [knownFields, Option.bind_eq_bind, Option.bind_eq_some_iff, Option.some.injEq] at h
        obtain ⟨r, hr, rfl⟩ := h
        obtain ⟨gs, h1, h2⟩ := ih hr
        simp only [knownFields, Option.bind_eq_bind, h1, Option.bind_some]
        refine ⟨_, rfl, ?_⟩
        split
        · exact h2.cons_cons _
        · exact h2
      | _ => simp [knownFields] at h
  rw [h1]
  simp only [structDe, Option.bind_eq_bind]
  cases hk : knownFields names l with
  | none => rfl
  | some fs =>
    obtain ⟨gs, h3, h4⟩ := key hd hk
    simp only [knownFields, Option.bind_eq_bind, Option.bind_some, hn, ↓reduceIte, Option.some.injEq] at h3
    subst h3
    have : ¬ (fs.map (·.1)).Nodup := fun e => by
      have := e.sublist (h4.map (·.1))
      simp at this
    simp [this]

theorem rawKeyS_byName : ByName ["type_value", "key"] rawKeyS :=
  ⟨_, fun _ _ => rfl, fun f fs fs' h => by simp only [reqField, h]⟩
theorem pairRawS_byName : ByName ["key", "value"] pairRawS :=
  ⟨_, fun _ _ => rfl, fun f fs fs' h => by simp only [reqField, h]⟩
theorem propKeyS_byName : ByName ["prefix", "subtype", "key"] propKeyS :=
  ⟨_, fun _ _ => rfl, fun f fs fs' h => by simp only [reqField, h]⟩
theorem V2.Global.byName : ByName (V2.Global.fieldNames L) (V2.Global.serde S) :=
  ⟨_, fun _ _ => rfl, fun f fs fs' h => by simp only [reqField, optField, h]⟩
theorem V2.Input.byName : ByName (V2.Input.fieldNames L) (V2.Input.serde S) :=
  ⟨_, fun _ _ => rfl, fun f fs fs' h => by simp only [reqField, optField, h]⟩
theorem V2.Output.byName : ByName (V2.Output.fieldNames L) (V2.Output.serde S) :=
  ⟨_, fun _ _ => rfl, fun f fs fs' h => by simp only [reqField, optField, h]⟩
theorem V2.Psbt.byName : ByName V2.Psbt.fieldNames (V2.Psbt.serde S) :=
  ⟨_, fun _ _ => rfl, fun f fs fs' h => by simp only [reqField, h]⟩
theorem V0.Input.byName : ByName V0.Input.fieldNames (V0.Input.serde S) :=
  ⟨_, fun _ _ => rfl, fun f fs fs' h => by simp only [reqField, optField, h]⟩
theorem V0.Output.byName : ByName V0.Output.fieldNames (V0.Output.serde S) :=
  ⟨_, fun _ _ => rfl, fun f fs fs' h => by simp only [reqField, optField, h]⟩
theorem V0.Psbt.byName : ByName V0.Psbt.fieldNames (V0.Psbt.serde S) :=
  ⟨_, fun _ _ => rfl, fun f fs fs' h => by simp only [reqField, h]⟩

/-! ## An instance -/

/-- Any countable type as strings of as many letters as the number of the value. -/
noncomputable def countS (α : Type) [h : Countable α] : SCodec α where
  ser _ a := .str (String.ofList (List.replicate (h.exists_injective_nat.choose a) 'a'))
  de _ v :=
    match v with
    | .str s => by
      classical
      exact if h' : ∃ a, h.exists_injective_nat.choose a = s.toList.length then some h'.choose else none
    | _ => none

theorem countS_good (α : Type) [h : Countable α] : (countS α).Good where
  rt f a := by
    have hi := h.exists_injective_nat.choose_spec
    simp only [countS]
    have hex : ∃ b, h.exists_injective_nat.choose b =
        (String.ofList (List.replicate (h.exists_injective_nat.choose a) 'a')).toList.length := ⟨a, by simp⟩
    rw [dif_pos hex]
    congr 1
    apply hi
    rw [hex.choose_spec]
    simp
  notNull f a _ := by simp [countS]
  json f a _ := .str _

theorem countS_str (α : Type) [h : Countable α] : (countS α).IsStr := fun _ _ _ => ⟨_, rfl⟩

instance : Countable UInt8 := Function.Injective.countable (f := UInt8.toNat) fun _ _ => UInt8.toNat_inj.1
instance : Countable UInt32 := Function.Injective.countable (f := UInt32.toNat) fun _ _ => UInt32.toNat_inj.1
instance : Countable UInt64 := Function.Injective.countable (f := UInt64.toNat) fun _ _ => UInt64.toNat_inj.1
instance (F : Foreign) : Countable F.T := Function.Injective.countable (f := Foreign.T.bytes) fun _ _ => Foreign.T.ext'
instance : Countable OutPoint := Function.Injective.countable (f := fun o => (o.txid, o.vout)) (by rintro ⟨⟩ ⟨⟩ h; simp_all)
instance : Countable TxIn :=
  Function.Injective.countable (f := fun i => (i.previousOutput, i.scriptSig, i.sequence, i.witness)) (by rintro ⟨⟩ ⟨⟩ h; simp_all)
instance : Countable TxOut := Function.Injective.countable (f := fun o => (o.value, o.scriptPubkey)) (by rintro ⟨⟩ ⟨⟩ h; simp_all)
instance : Countable Tx :=
  Function.Injective.countable (f := fun t => (t.version, t.lockTime, t.input, t.output)) (by rintro ⟨⟩ ⟨⟩ h; simp_all)
instance : Countable TapLeaf := Function.Injective.countable (f := fun l => (l.depth, l.ver, l.script)) (by rintro ⟨⟩ ⟨⟩ h; simp_all)
instance : Countable (TapTree L) := Function.Injective.countable (f := fun t => t.leaves) (by rintro ⟨⟩ ⟨⟩ h; simp_all)
instance : Countable (EcdsaSig L) := Function.Injective.countable (f := fun s => (s.der, s.ty)) (by rintro ⟨⟩ ⟨⟩ h; simp_all)
instance : Countable TapSig := Function.Injective.countable (f := fun s => (s.sig, s.ty)) (by rintro ⟨⟩ ⟨⟩ h; simp_all)

/-- Implementations as assumed exist, whatever the library is. -/
noncomputable def someSerde (L : Lib) : SerdeLib L :=
  ⟨countS _, countS _, countS _, countS _, countS _, countS _, countS _, countS _, countS _, countS _, countS _, countS _, countS _, countS _,
   countS _, countS _, countS _, countS _, countS _, countS _, countS _, countS _, countS _, countS _, countS _, countS _, countS _, countS _,
   countS _, countS _, countS _⟩

theorem someSerde_good (L : Lib) : (someSerde L).Good := by
  constructor <;> first | exact countS_good _ | exact countS_str _

end Psbt
