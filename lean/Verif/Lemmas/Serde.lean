import Verif.Model.Serde
import Verif.Lemmas.BMap
namespace Psbt
variable {α β K V : Type} {f : Fmt}

/-- A value is read back from what is written for it. -/
def SCodec.Rt (c : SCodec α) (f : Fmt) (a : α) : Prop := c.de f (c.ser f a) = some a

theorem u8S_good : u8S.Good where
  rt f a := by
    have := a.toNat_lt
    simp only [u8S]
    rw [if_pos (by omega)]; simp
  notNull f a _ := by simp [u8S]
  json f a _ := .num _
theorem mapAll_rt {c : SCodec α} {l : List α} (h : ∀ a ∈ l, c.Rt f a) : mapAll (c.de f) (l.map (c.ser f)) = some l := by
  induction l with
  | nil => rfl
  | cons a l ih =>
    have h1 := h a (by simp)
    simp only [SCodec.Rt] at h1
    simp [mapAll, h1, ih (fun b hb => h b (by simp [hb]))]

theorem mapAll_some {c : SCodec α} {l : List α} (h : mapAll (c.de f) (l.map (c.ser f)) = some l) : ∀ a ∈ l, c.Rt f a := by
  induction l with
  | nil => simp
  | cons a l ih =>
    simp only [List.map_cons, mapAll, Option.bind_eq_bind, Option.bind_eq_some_iff] at h
    obtain ⟨x, hx, y, hy, h⟩ := h
    cases h
    intro b hb
    rcases List.mem_cons.1 hb with rfl | hb
    · exact hx
    · exact ih hy b hb

theorem vecS_rt {c : SCodec α} {l : List α} : (vecS c).Rt f l ↔ ∀ a ∈ l, c.Rt f a :=
  ⟨mapAll_some, mapAll_rt⟩

theorem vecS_good {c : SCodec α} (h : c.Good) : (vecS c).Good where
  rt f l := vecS_rt.2 fun a _ => h.rt f a
  notNull f l _ := by simp [vecS]
  json f l hf := .seq (by
    intro v hv
    obtain ⟨a, _, rfl⟩ := List.mem_map.1 hv
    exact h.json f a hf)

theorem optS_rt {c : SCodec α} (hn : ∀ a, f.human = true → c.ser f a ≠ .null) {o : Option α} (h : ∀ a, o = some a → c.Rt f a) :
    (optS c).Rt f o := by
  unfold SCodec.Rt optS
  cases hf : f.human with
  | false =>
    cases o with
    | none => simp [hf]
    | some a =>
      have := h a rfl
      simp only [SCodec.Rt] at this
      simp [this, hf]
  | true =>
    cases o with
    | none => simp [hf]
    | some a =>
      have h1 := h a rfl
      have h2 := hn a hf
      simp only [SCodec.Rt] at h1
      simp only [hf, ↓reduceIte, h1, Option.map_some]

theorem optS_good {c : SCodec α} (h : c.Good) (o : Option α) : (optS c).Rt f o :=
  optS_rt (fun a => h.notNull f a) (fun a _ => h.rt f a)

theorem optS_json {c : SCodec α} (h : c.Good) (o : Option α) (hf : f.human = true) : Jsonable ((optS c).ser f o) := by
  cases o with
  | none => simp [optS, hf]; exact .null
  | some a => simp [optS, hf]; exact h.json f a hf

theorem pairS_rt {c : SCodec α} {d : SCodec β} {p : α × β} (h1 : c.Rt f p.1) (h2 : d.Rt f p.2) : (pairS c d).Rt f p := by
  simp only [SCodec.Rt] at *
  simp [pairS, h1, h2]

theorem pairS_good {c : SCodec α} {d : SCodec β} (h1 : c.Good) (h2 : d.Good) : (pairS c d).Good where
  rt f p := pairS_rt (h1.rt f _) (h2.rt f _)
  notNull f p _ := by simp [pairS]
  json f p hf := .seq (by
    intro v hv
    simp only [List.mem_cons, List.not_mem_nil, or_false] at hv
    rcases hv with rfl | rfl
    · exact h1.json f _ hf
    · exact h2.json f _ hf)

section maps
variable [OrdKey K] [DecidableEq K]

theorem foldl_insert_self (m : BMap K V) : m.l.foldl (fun acc kv => acc.insert kv.1 kv.2) .empty = m := BMap.empty_extend m

theorem insertAll_eq {g : SVal → Option K} {h : SVal → Option V} {a : K → SVal} {b : V → SVal} :
    ∀ {l : List (K × V)} {m : BMap K V}, (∀ kv ∈ l, g (a kv.1) = some kv.1 ∧ h (b kv.2) = some kv.2) →
      insertAll g h (l.map fun kv => (a kv.1, b kv.2)) m = some (l.foldl (fun acc kv => acc.insert kv.1 kv.2) m)
  | [], m, _ => rfl
  | kv :: l, m, hl => by
    obtain ⟨h1, h2⟩ := hl kv (by simp)
    simp only [List.map_cons, insertAll, h1, h2, Option.bind_eq_bind, Option.bind_some, List.foldl_cons]
    exact insertAll_eq fun x hx => hl x (by simp [hx])

theorem insertPairs_eq {g : SVal → Option (K × V)} {a : K × V → SVal} :
    ∀ {l : List (K × V)} {m : BMap K V}, (∀ kv ∈ l, g (a kv) = some kv) →
      insertPairs g (l.map a) m = some (l.foldl (fun acc kv => acc.insert kv.1 kv.2) m)
  | [], m, _ => rfl
  | kv :: l, m, hl => by
    simp only [List.map_cons, insertPairs, hl kv (by simp), Option.bind_eq_bind, Option.bind_some, List.foldl_cons]
    exact insertPairs_eq fun x hx => hl x (by simp [hx])

theorem mapS_good {ck : SCodec K} {cv : SCodec V} (h1 : ck.Good) (h2 : cv.Good) (m : BMap K V) : (mapS ck cv).Rt f m := by
  simp only [SCodec.Rt, mapS]
  rw [insertAll_eq (fun kv _ => ⟨h1.rt f _, h2.rt f _⟩), foldl_insert_self]

theorem mapS_json {ck : SCodec K} {cv : SCodec V} (h1 : ck.IsStr) (h2 : cv.Good) (m : BMap K V) (hf : f.human = true) :
    Jsonable ((mapS ck cv).ser f m) := by
  simp only [mapS]
  refine .map (fun kv hkv => ?_) (fun kv hkv => ?_)
  · obtain ⟨x, _, rfl⟩ := List.mem_map.1 hkv
    exact h1 f x.1 hf
  · obtain ⟨x, _, rfl⟩ := List.mem_map.1 hkv
    exact h2.json f _ hf

theorem asSeqS_good {ck : SCodec K} {cv : SCodec V} (h1 : ck.Good) (h2 : cv.Good) (m : BMap K V) : (asSeqS ck cv).Rt f m := by
  have hm := mapS_good (f := f) h1 h2 m
  simp only [SCodec.Rt, asSeqS] at *
  cases hf : f.human with
  | false => simp only [hf, Bool.false_eq_true, ↓reduceIte]; exact hm
  | true =>
    simp only [hf, ↓reduceIte]
    rw [insertPairs_eq (fun kv _ => (pairS_good h1 h2).rt f kv), foldl_insert_self]

theorem asSeqS_json {ck : SCodec K} {cv : SCodec V} (h1 : ck.Good) (h2 : cv.Good) (m : BMap K V) (hf : f.human = true) :
    Jsonable ((asSeqS ck cv).ser f m) := by
  simp only [asSeqS, hf, ↓reduceIte]
  refine .seq fun v hv => ?_
  obtain ⟨a, _, rfl⟩ := List.mem_map.1 hv
  exact (pairS_good h1 h2).json f a hf
end maps

theorem hexVal_digit : ∀ n : Fin 16, hexVal (hexLower n) = some n.1 := by decide

theorem fromHexL_toHex : ∀ b : Bytes, fromHexL (b.flatMap fun x => [hexLower (x.toNat / 16), hexLower (x.toNat % 16)]) = some b
  | [] => rfl
  | x :: b => by
    have := x.toNat_lt
    have h1 := hexVal_digit ⟨x.toNat / 16, by omega⟩
    have h2 := hexVal_digit ⟨x.toNat % 16, by omega⟩
    simp only at h1 h2
    have h3 : UInt8.ofNat (x.toNat / 16 * 16 + x.toNat % 16) = x := by
      rw [show x.toNat / 16 * 16 + x.toNat % 16 = x.toNat by omega]; simp
    simp only [List.flatMap_cons, List.cons_append, List.nil_append, fromHexL, h1, h2, fromHexL_toHex b, h3, Option.bind_eq_bind, Option.bind_some]

theorem fromHex_toHex (b : Bytes) : fromHex (toHex b) = some b := by
  unfold fromHex toHex
  rw [String.toList_ofList]
  exact fromHexL_toHex b

theorem hexS_good : hexS.Good where
  rt f b := by
    simp only [hexS]
    cases hf : f.human with
    | true => simp [hf, fromHex_toHex]
    | false => simp [hf]; exact (vecS_good u8S_good).rt f b
  notNull f b hf := by simp [hexS, hf]
  json f b hf := by simp [hexS, hf]; exact .str _

theorem dleqS_good : dleqS.Good where
  rt f b := by
    simp only [dleqS]
    cases hf : f.human with
    | true => simp [hf, fromHex_toHex, b.2]
    | false => simp [hf, b.2]
  notNull f b hf := by simp [dleqS, hf]
  json f b hf := by simp [dleqS, hf]; exact .str _

section maps
variable [OrdKey K] [DecidableEq K]

theorem asSeqBytesS_good {ck : SCodec K} (h1 : ck.Good) (m : BMap K Bytes) : (asSeqBytesS ck).Rt f m := by
  have hm := mapS_good (f := f) h1 (vecS_good u8S_good) m
  simp only [SCodec.Rt, asSeqBytesS] at *
  cases hf : f.human with
  | false => simp only [hf, Bool.false_eq_true, ↓reduceIte]; exact hm
  | true =>
    simp only [hf, ↓reduceIte]
    rw [insertPairs_eq (fun kv _ => (pairS_good h1 hexS_good).rt f kv), foldl_insert_self]

theorem asSeqBytesS_json {ck : SCodec K} (h1 : ck.Good) (m : BMap K Bytes) (hf : f.human = true) :
    Jsonable ((asSeqBytesS ck).ser f m) := by
  simp only [asSeqBytesS, hf, ↓reduceIte]
  refine .seq fun v hv => ?_
  obtain ⟨a, _, rfl⟩ := List.mem_map.1 hv
  exact (pairS_good h1 hexS_good).json f a hf

/-- Maps with hexadecimal values are read back unless the format does not borrow strings; then only empty ones are. -/
theorem byteValuesS_rt {ck : SCodec K} (h1 : ck.Good) (m : BMap K Bytes) :
    (byteValuesS ck).Rt f m ↔ (f.human = true → f.borrows = false → m = .empty) := by
  have hm := mapS_good (f := f) h1 (vecS_good u8S_good) m
  simp only [SCodec.Rt, byteValuesS] at *
  cases hf : f.human with
  | false => simp only [hf, Bool.false_eq_true, ↓reduceIte, hm, true_iff]; exact fun h => absurd h (by simp)
  | true =>
    simp only [hf, ↓reduceIte]
    cases hb : f.borrows with
    | true =>
      simp only [hb, Bool.true_eq_false, false_implies, implies_true, iff_true]
      rw [insertAll_eq (b := fun v => .str (toHex v)) (fun kv _ => ⟨h1.rt f _, by simp [fromHex_toHex]⟩), foldl_insert_self]
    | false =>
      simp only [hb, true_implies]
      constructor
      · intro h
        cases hl : m.l with
        | nil => exact BMap.ext' hl
        | cons kv l =>
          rw [hl] at h
          simp [insertAll, h1.rt] at h
      · rintro rfl; rfl

theorem byteValuesS_json {ck : SCodec K} (h1 : ck.IsStr) (m : BMap K Bytes) (hf : f.human = true) :
    Jsonable ((byteValuesS ck).ser f m) := by
  simp only [byteValuesS, hf, ↓reduceIte]
  refine .map (fun kv hkv => ?_) (fun kv hkv => ?_)
  · obtain ⟨x, _, rfl⟩ := List.mem_map.1 hkv
    exact h1 f x.1 hf
  · obtain ⟨x, _, rfl⟩ := List.mem_map.1 hkv
    exact .str _
end maps

theorem knownFields_eq {names : List String} : ∀ {fs : List (String × SVal)}, (∀ nv ∈ fs, nv.1 ∈ names) →
    knownFields names (fs.map fun nv => (.str nv.1, nv.2)) = some fs
  | [], _ => rfl
  | nv :: fs, h => by
    simp only [List.map_cons, knownFields]
    rw [knownFields_eq fun x hx => h x (by simp [hx])]
    simp [h nv (by simp)]

theorem zip_names : ∀ {names : List String} {fs : List (String × SVal)}, fs.map (·.1) = names → names.zip (fs.map (·.2)) = fs
  | _, [], h => by simp
  | _, nv :: fs, h => by
    subst h
    simp only [List.map_cons, List.zip_cons_cons]
    rw [zip_names rfl]

theorem structDe_ser {names : List String} {fs : List (String × SVal)} (hn : names.Nodup) (h : fs.map (·.1) = names) :
    structDe names (structSer f fs) = some fs := by
  unfold structSer
  cases f.human with
  | true =>
    simp only [↓reduceIte, structDe]
    rw [knownFields_eq fun nv hnv => h ▸ List.mem_map_of_mem hnv]
    simp [h, hn]
  | false =>
    simp only [Bool.false_eq_true, ↓reduceIte, structDe]
    rw [if_pos (by rw [← h]; simp), zip_names h]

theorem structSer_json {fs : List (String × SVal)} (hf : f.human = true) (h : ∀ nv ∈ fs, Jsonable nv.2) : Jsonable (structSer f fs) := by
  simp only [structSer, hf, ↓reduceIte]
  refine .map (fun kv hkv => ?_) (fun kv hkv => ?_)
  · obtain ⟨x, _, rfl⟩ := List.mem_map.1 hkv
    exact ⟨_, rfl⟩
  · obtain ⟨x, hx, rfl⟩ := List.mem_map.1 hkv
    exact h x hx

theorem structSer_notNull (f : Fmt) (fs : List (String × SVal)) : structSer f fs ≠ .null := by
  unfold structSer; split <;> simp

theorem reqField_eq {c : SCodec α} {fs : List (String × SVal)} {n : String} {v : SVal} (h : fs.lookup n = some v) :
    reqField c f fs n = c.de f v := by simp [reqField, h]
theorem optField_eq {c : SCodec α} {fs : List (String × SVal)} {n : String} {v : SVal} (h : fs.lookup n = some v) :
    optField c f fs n = (optS c).de f v := by simp [optField, h]

theorem rawKeyS_good : rawKeyS.Good where
  rt f k := by
    have h1 := u8S_good.rt f k.ty
    have h2 := hexS_good.rt f k.key
    simp only [rawKeyS]
    rw [structDe_ser (by decide) (by rfl)]
    simp [reqField, List.lookup, h1, h2]
  notNull f k _ := structSer_notNull _ _
  json f k hf := structSer_json hf (by
    intro nv h
    simp only [List.mem_cons, List.not_mem_nil, or_false] at h
    rcases h with rfl | rfl
    · exact u8S_good.json f _ hf
    · exact hexS_good.json f _ hf)

theorem pairRawS_good : pairRawS.Good where
  rt f k := by
    have h1 := rawKeyS_good.rt f k.key
    have h2 := hexS_good.rt f k.value
    simp only [pairRawS]
    rw [structDe_ser (by decide) (by rfl)]
    simp [reqField, List.lookup, h1, h2]
  notNull f k _ := structSer_notNull _ _
  json f k hf := structSer_json hf (by
    intro nv h
    simp only [List.mem_cons, List.not_mem_nil, or_false] at h
    rcases h with rfl | rfl
    · exact rawKeyS_good.json f _ hf
    · exact hexS_good.json f _ hf)

theorem propKeyS_good : propKeyS.Good where
  rt f k := by
    have h1 := hexS_good.rt f k.pre
    have h2 := u8S_good.rt f k.subtype
    have h3 := hexS_good.rt f k.key
    simp only [propKeyS]
    rw [structDe_ser (by decide) (by rfl)]
    simp [reqField, List.lookup, h1, h2, h3]
  notNull f k _ := structSer_notNull _ _
  json f k hf := structSer_json hf (by
    intro nv h
    simp only [List.mem_cons, List.not_mem_nil, or_false] at h
    rcases h with rfl | rfl | rfl
    · exact hexS_good.json f _ hf
    · exact u8S_good.json f _ hf
    · exact hexS_good.json f _ hf)

variable {L : Lib} {S : SerdeLib L}

theorem SerdeLib.Good.sighashType (h : S.Good) : S.sighashType.Good where
  rt f t := by
    have h1 := h.u32.rt f t
    simp only [SerdeLib.sighashType]
    rw [structDe_ser (by decide) (by rfl)]
    simp [reqField, List.lookup, h1]
  notNull f k _ := structSer_notNull _ _
  json f k hf := structSer_json hf (by
    intro nv hnv
    simp only [List.mem_cons, List.not_mem_nil, or_false] at hnv
    subst hnv
    exact h.u32.json f _ hf)

theorem SerdeLib.Good.keySource (h : S.Good) : S.keySource.Good := pairS_good h.fingerprint h.path

end Psbt
