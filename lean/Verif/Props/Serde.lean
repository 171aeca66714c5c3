/- Properties of serialisation with serde: C74, C75, C76. -/
import Verif.Lemmas.SerdePsbt
import Verif.Model.V2.Serde
import Verif.Model.V0.Serde
import Verif.Props.V2Parse
import Verif.Props.V0Parse
import Verif.Props.V2LockTime
import Verif.Model.V2.Extract
namespace Psbt
variable {L : Lib}

theorem hexText_eq (b : Bytes) : Spec.hexText b = toHex b := by
  have h : ∀ n : Fin 16, Spec.hexDigits[n.1]?.toList = [hexLower n.1] := by decide +kernel
  unfold Spec.hexText toHex
  congr 2
  funext x
  have hx : x.toNat < 256 := x.toNat_lt
  rw [h ⟨x.toNat / 16, by omega⟩, h ⟨x.toNat % 16, by omega⟩]
  rfl

/-! ## C74 -/

theorem hexVal_some {c : Char} {n : Nat} : hexVal c = some n ↔ Spec.hexDigits[n]? = some c.toLower := by
  by_cases hc : c.toNat < 128
  · have key : ∀ m : Fin 128, hexVal (Char.ofNat m) = (Spec.hexDigits.idxOf? (Char.ofNat m).toLower) := by decide
    have h1 := key ⟨c.toNat, hc⟩
    simp only [Char.ofNat_toNat] at h1
    rw [h1]
    constructor
    · intro h
      rw [List.idxOf?, List.findIdx?_eq_some_iff_getElem] at h
      obtain ⟨h2, h3, -⟩ := h
      rw [List.getElem?_eq_getElem h2]
      simpa using h3
    · intro h
      obtain ⟨h2, h3⟩ := List.getElem?_eq_some_iff.1 h
      have hn : Spec.hexDigits.Nodup := by decide
      rw [List.idxOf?, List.findIdx?_eq_some_iff_getElem]
      refine ⟨h2, by simp [h3], fun j hj => ?_⟩
      intro e
      have e' : Spec.hexDigits[j] = c.toLower := by simpa using e
      have := (List.Nodup.getElem_inj_iff hn).1 (e'.trans h3.symm)
      omega
  · have h1 : hexVal c = none := by
      unfold hexVal
      rw [if_neg (by omega), if_neg (by omega), if_neg (by omega)]
    rw [h1]
    refine ⟨fun h => by simp at h, fun h => ?_⟩
    have h2 : c.toLower = c := by
      unfold Char.toLower
      rw [dif_neg]
      rintro ⟨-, h3⟩
      have : c.toNat ≤ 90 := h3
      omega
    rw [h2] at h
    have : ∀ d ∈ Spec.hexDigits, d.toNat < 128 := by decide
    exact absurd (this _ (List.mem_of_getElem? h)) hc

theorem fromHexL_iff : ∀ {l : List Char} {b : Bytes}, fromHexL l = some b ↔ Spec.Hex b (String.ofList l)
  | [], b => by
    simp only [fromHexL, Spec.Hex, String.toList_ofList]
    constructor
    · intro h; cases h; simp
    · rintro ⟨h, -⟩
      have : b = [] := List.length_eq_zero_iff.1 (by simp only [List.length_nil] at h; omega)
      rw [this]
  | [x], b => by
    simp only [fromHexL, Spec.Hex, String.toList_ofList]
    refine ⟨fun h => by simp at h, fun h => ?_⟩
    have := h.1
    simp only [List.length_singleton] at this
    omega
  | x :: y :: l, b => by
    have ih := fun b => fromHexL_iff (l := l) (b := b)
    simp only [fromHexL, Option.bind_eq_bind, Option.bind_eq_some_iff, Option.some.injEq]
    simp only [Spec.Hex, String.toList_ofList] at ih ⊢
    constructor
    · rintro ⟨h, h1, w, h2, r, h3, rfl⟩
      have h4 := (ih r).1 h3
      have h5 := hexVal_some.1 h1
      have h6 := hexVal_some.1 h2
      have l5 : h < 16 := (List.getElem?_eq_some_iff.1 h5).1
      have l6 : w < 16 := (List.getElem?_eq_some_iff.1 h6).1
      refine ⟨by simp [h4.1]; omega, fun n z hz => ?_⟩
      cases n with
      | zero =>
        simp only [List.getElem?_cons_zero, Option.some.injEq] at hz
        subst hz
        have e : (UInt8.ofNat (h * 16 + w)).toNat = h * 16 + w := by
          simp only [UInt8.toNat_ofNat']; omega
        rw [e, show (h * 16 + w) / 16 = h by omega, show (h * 16 + w) % 16 = w by omega]
        simp [h5, h6]
      | succ n =>
        simp only [List.getElem?_cons_succ] at hz
        have := h4.2 n z hz
        rw [show 2 * (n + 1) = 2 * n + 1 + 1 by omega]
        simpa using this
    · rintro ⟨h1, h2⟩
      cases b with
      | nil => simp at h1
      | cons z b =>
        have h3 := h2 0 z rfl
        simp only [Nat.mul_zero, List.getElem?_cons_zero, Option.map_some, Nat.zero_add, List.getElem?_cons_succ] at h3
        refine ⟨_, hexVal_some.2 h3.1.symm, _, hexVal_some.2 h3.2.symm, b, (ih b).2 ⟨by simp at h1; omega, fun n y hy => ?_⟩, ?_⟩
        · have := h2 (n + 1) y (by simpa using hy)
          rw [show 2 * (n + 1) = 2 * n + 1 + 1 by omega] at this
          simpa using this
        · have := z.toNat_lt
          rw [show z.toNat / 16 * 16 + z.toNat % 16 = z.toNat by omega]
          simp

/-- Byte strings in human-readable formats: exactly the hexadecimal forms are read, in either case, as the bytes they stand for. -/
theorem C74_hex_read (s : String) (b : Bytes) : fromHex s = some b ↔ Spec.Hex b s := by
  rw [fromHex, fromHexL_iff, String.ofList_toList]
example : fromHex "0aFf" = some [0x0a, 0xff] ∧ fromHex "0a f" = none ∧ fromHex "abc" = none := by decide

/-- What is written is the form with lower-case letters. -/
theorem C74_hex_written (b : Bytes) : Spec.Hex b (toHex b) ∧ ∀ c ∈ (toHex b).toList, c ∈ Spec.hexDigits := by
  refine ⟨(C74_hex_read _ _).1 (fromHex_toHex b), fun c hc => ?_⟩
  have key : ∀ n : Fin 16, hexLower n ∈ Spec.hexDigits := by decide
  simp only [toHex, String.toList_ofList, List.mem_flatMap, List.mem_cons, List.not_mem_nil, or_false] at hc
  obtain ⟨x, -, hx | hx⟩ := hc
  · have := x.toNat_lt
    exact hx ▸ key ⟨x.toNat / 16, by omega⟩
  · exact hx ▸ key ⟨x.toNat % 16, by omega⟩
example : toHex [0x0a, 0xff, 0x00] = "0aff00" := by decide

/-- A PSBT v2 written in any format is read back the same, except that a human-readable format must lend its strings if there are preimages of
hashes. -/
theorem C74_v2_roundtrip_iff (S : SerdeLib L) (h : S.Good) (f : Fmt) (p : V2.Psbt L) (ht : Spec.Typed p) :
    (V2.Psbt.serde S).de f ((V2.Psbt.serde S).ser f p) = some p ↔
      (f.human = true → f.borrows = false → ∀ i ∈ p.inputs, Spec.NoPreimages i) := V2.Psbt.serde_rt h p ht
theorem demo_typed : Spec.Typed V2.demo := by
  refine ⟨fun _ => ⟨rfl, rfl⟩, fun i hi _ => ?_, fun o ho _ => ?_⟩
  · simp only [V2.demo, List.mem_singleton] at hi; subst hi; exact ⟨rfl, rfl⟩
  · simp only [V2.demo, List.mem_singleton] at ho; subst ho; exact ⟨rfl, rfl⟩
example : ∃ S : SerdeLib (Demo.lib false), S.Good ∧ (V2.Psbt.serde S).de ⟨true, true⟩ ((V2.Psbt.serde S).ser ⟨true, true⟩ V2.demo) = some V2.demo :=
  ⟨_, someSerde_good _, (C74_v2_roundtrip_iff _ (someSerde_good _) _ _ demo_typed).2 (by simp)⟩

/-- The same for PSBT v0. -/
theorem C74_v0_roundtrip_iff (S : SerdeLib L) (h : S.Good) (f : Fmt) (p : V0.Psbt L) :
    (V0.Psbt.serde S).de f ((V0.Psbt.serde S).ser f p) = some p ↔
      (f.human = true → f.borrows = false → ∀ i ∈ p.inputs, Spec.V0.NoPreimages i) := V0.Psbt.serde_rt h p
example : ∃ S : SerdeLib (Demo.lib false), S.Good ∧ (V0.Psbt.serde S).de ⟨false, false⟩ ((V0.Psbt.serde S).ser ⟨false, false⟩ V0.demo) = some V0.demo :=
  ⟨_, someSerde_good _, (C74_v0_roundtrip_iff _ (someSerde_good _) _ _).2 (by simp)⟩

/-- JSON from a reader: a PSBT with a preimage is not read back, whatever the implementations of the fields are. -/
theorem C74_owned_counterexample (S : SerdeLib (Demo.lib false)) (h : S.Good) :
    (V2.Psbt.serde S).de ⟨true, false⟩ ((V2.Psbt.serde S).ser ⟨true, false⟩ V2.demo) ≠ some V2.demo := by
  rw [Ne, C74_v2_roundtrip_iff S h _ _ demo_typed]
  intro hh
  have h1 := (hh rfl rfl V2.demoInput (List.mem_singleton.2 rfl)).2.1
  have : V2.demoInput.sha256Preimages.l = [] := by rw [h1]; rfl
  exact absurd this (by decide)

/-- What is written in a human-readable format can be written as JSON: the keys of maps are strings. -/
theorem C74_json (S : SerdeLib L) (h : S.Good) (f : Fmt) (hf : f.human = true) (p : V2.Psbt L) (q : V0.Psbt L) :
    Jsonable ((V2.Psbt.serde S).ser f p) ∧ Jsonable ((V0.Psbt.serde S).ser f q) :=
  ⟨V2.Psbt.serde_json h p hf, V0.Psbt.serde_json h q hf⟩
/-- Maps with keys that are not strings would not be. -/
example : ¬ Jsonable (.map [(.num 1, .null)]) := by
  rintro (_ | _ | _ | _ | ⟨h, -⟩)
  obtain ⟨s, hs⟩ := h _ (List.mem_singleton.2 rfl)
  cases hs

/-- Raw keys and pairs and DLEQ proofs are read back the same. -/
theorem C74_parts (f : Fmt) (k : RawKey) (q : Pair) (r : PropKey) (d : FixedBytes 64) :
    rawKeyS.de f (rawKeyS.ser f k) = some k ∧ pairRawS.de f (pairRawS.ser f q) = some q ∧ propKeyS.de f (propKeyS.ser f r) = some r ∧
      dleqS.de f (dleqS.ser f d) = some d :=
  ⟨rawKeyS_good.rt f k, pairRawS_good.rt f q, propKeyS_good.rt f r, dleqS_good.rt f d⟩
example : rawKeyS.de ⟨true, true⟩ (.map [(.str "key", .str "0A"), (.str "x", .null), (.str "type_value", .num 5)]) = some ⟨5, [10]⟩ := by rfl

/-- A DLEQ proof is read from 64 bytes only. -/
theorem C74_dleq_length (f : Fmt) (v : SVal) (d : FixedBytes 64) :
    dleqS.de f v = some d ↔ if f.human = true then ∃ s, v = .str s ∧ Spec.Hex d.1 s else v = .bytes d.1 := by
  simp only [dleqS]
  cases hf : f.human with
  | true =>
    simp only [↓reduceIte]
    cases v with
    | str s =>
      simp only [Option.bind_eq_bind, Option.bind_eq_some_iff, SVal.str.injEq]
      constructor
      · rintro ⟨b, h1, h2⟩
        split at h2
        · cases h2; exact ⟨s, rfl, (C74_hex_read s b).1 h1⟩
        · cases h2
      · rintro ⟨_, rfl, h⟩
        exact ⟨d.1, (C74_hex_read _ _).2 h, by rw [dif_pos d.2]⟩
    | _ => simp
  | false =>
    simp only [Bool.false_eq_true, ↓reduceIte]
    cases v with
    | bytes b =>
      simp only [SVal.bytes.injEq]
      constructor
      · intro h
        split at h
        · cases h; rfl
        · cases h
      · rintro rfl
        rw [dif_pos d.2]
    | _ => simp
example : dleqS.de ⟨false, true⟩ (.bytes (List.replicate 63 1)) = none := by rfl

theorem u8S_de {f : Fmt} {v : SVal} {x : UInt8} : u8S.de f v = some x ↔ v = .num x.toNat := by
  simp only [u8S]
  cases v with
  | num n =>
    simp only [SVal.num.injEq]
    split
    · rename_i h
      simp only [Option.some.injEq]
      constructor
      · rintro rfl
        rw [UInt8.toNat_ofNat', Nat.mod_eq_of_lt (by omega)]
        omega
      · rintro rfl
        simp
    · rename_i h
      have := x.toNat_lt
      constructor
      · intro h'; cases h'
      · rintro rfl; omega
  | _ => simp

theorem hexS_de {f : Fmt} (hf : f.human = true) {v : SVal} {b : Bytes} : hexS.de f v = some b ↔ ∃ s, v = .str s ∧ Spec.Hex b s := by
  simp only [hexS, hf, ↓reduceIte]
  cases v with
  | str s => simp [C74_hex_read]
  | _ => simp

/-- In a human-readable format, raw and proprietary keys are read only from a number that is one byte, not taken modulo 256, and from
hexadecimal text. -/
theorem C74_keys_read (f : Fmt) (hf : f.human = true) (k : RawKey) (r : PropKey) (t x y : SVal) :
    (rawKeyS.de f (.map [(.str "type_value", t), (.str "key", x)]) = some k ↔ t = .num k.ty.toNat ∧ ∃ s, x = .str s ∧ Spec.Hex k.key s) ∧
    (propKeyS.de f (.map [(.str "prefix", y), (.str "subtype", t), (.str "key", x)]) = some r ↔
      (∃ s, y = .str s ∧ Spec.Hex r.pre s) ∧ t = .num r.subtype.toNat ∧ ∃ s, x = .str s ∧ Spec.Hex r.key s) := by
  have h1 : structDe ["type_value", "key"] (.map [(.str "type_value", t), (.str "key", x)]) = some [("type_value", t), ("key", x)] := rfl
  have h2 : structDe ["prefix", "subtype", "key"] (.map [(.str "prefix", y), (.str "subtype", t), (.str "key", x)]) =
    some [("prefix", y), ("subtype", t), ("key", x)] := rfl
  obtain ⟨a, b⟩ := k
  obtain ⟨c, d, e⟩ := r
  constructor
  · simp only [rawKeyS, h1, Option.bind_eq_bind, Option.bind_some, Option.bind_eq_some_iff, reqField]
    rw [show List.lookup "type_value" [("type_value", t), ("key", x)] = some t from rfl,
      show List.lookup "key" [("type_value", t), ("key", x)] = some x from rfl]
    simp only [u8S_de, hexS_de hf, Option.some.injEq, RawKey.mk.injEq]
    constructor
    · rintro ⟨_, g1, _, g2, rfl, rfl⟩; exact ⟨g1, g2⟩
    · rintro ⟨g1, g2⟩; exact ⟨_, g1, _, g2, rfl, rfl⟩
  · simp only [propKeyS, h2, Option.bind_eq_bind, Option.bind_some, Option.bind_eq_some_iff, reqField]
    rw [show List.lookup "prefix" [("prefix", y), ("subtype", t), ("key", x)] = some y from rfl,
      show List.lookup "subtype" [("prefix", y), ("subtype", t), ("key", x)] = some t from rfl,
      show List.lookup "key" [("prefix", y), ("subtype", t), ("key", x)] = some x from rfl]
    simp only [u8S_de, hexS_de hf, Option.some.injEq, PropKey.mk.injEq]
    constructor
    · rintro ⟨_, g0, _, g1, _, g2, rfl, rfl, rfl⟩; exact ⟨g0, g1, g2⟩
    · rintro ⟨g0, g1, g2⟩; exact ⟨_, g0, _, g1, _, g2, rfl, rfl, rfl⟩
example : rawKeyS.de ⟨true, true⟩ (.map [(.str "type_value", .num 261), (.str "key", .str "0a")]) = none := by
  cases h : rawKeyS.de ⟨true, true⟩ (.map [(.str "type_value", .num 261), (.str "key", .str "0a")]) with
  | none => rfl
  | some k =>
    have := ((C74_keys_read ⟨true, true⟩ rfl k ⟨[], 0, []⟩ _ _ .null).1.mp h).1
    have h2 := k.ty.toNat_lt
    simp only [SVal.num.injEq] at this
    omega

/-- The types with named fields: their names, and how they are written and read. -/
inductive IsStruct (S : SerdeLib L) : {α : Type} → List String → SCodec α → Prop
  | rawKey : IsStruct S ["type_value", "key"] rawKeyS
  | pair : IsStruct S ["key", "value"] pairRawS
  | propKey : IsStruct S ["prefix", "subtype", "key"] propKeyS
  | global : IsStruct S (Spec.globalFields L.sp) (V2.Global.serde S)
  | input : IsStruct S (Spec.inputFields L.sp) (V2.Input.serde S)
  | output : IsStruct S (Spec.outputFields L.sp) (V2.Output.serde S)
  | psbt : IsStruct S ["global", "inputs", "outputs"] (V2.Psbt.serde S)
  | input0 : IsStruct S Spec.V0.inputFields (V0.Input.serde S)
  | output0 : IsStruct S Spec.V0.outputFields (V0.Output.serde S)
  | psbt0 : IsStruct S ["unsigned_tx", "version", "xpub", "proprietary", "unknown", "inputs", "outputs"] (V0.Psbt.serde S)

theorem IsStruct.byName {S : SerdeLib L} {α : Type} {names : List String} {c : SCodec α} (h : IsStruct S names c) : ByName names c := by
  cases h
  · exact rawKeyS_byName
  · exact pairRawS_byName
  · exact propKeyS_byName
  · exact V2.Global.byName
  · exact V2.Input.byName
  · exact V2.Output.byName
  · exact V2.Psbt.byName
  · exact V0.Input.byName
  · exact V0.Output.byName
  · exact V0.Psbt.byName

/-- Human-readable: a map with the names of the fields, in their order. -/
theorem C74_fields (S : SerdeLib L) {α : Type} {names : List String} {c : SCodec α} (h : IsStruct S names c) (f : Fmt) (hf : f.human = true) (a : α) :
    ∃ l, c.ser f a = .map l ∧ l.map (·.1) = names.map .str := by
  cases h <;> simp only [rawKeyS, pairRawS, propKeyS, V2.Global.serde, V2.Input.serde, V2.Output.serde, V2.Psbt.serde, V0.Input.serde,
    V0.Output.serde, V0.Psbt.serde, structSer, hf, ↓reduceIte] <;> refine ⟨_, rfl, ?_⟩ <;>
    (try simp only [Spec.globalFields, Spec.inputFields, Spec.outputFields]) <;> first | rfl | (cases L.sp <;> rfl)
example : (rawKeyS.ser ⟨true, true⟩ ⟨7, [1, 2]⟩) = .map [(.str "type_value", .num 7), (.str "key", .str "0102")] := by rfl

/-- Raw bytes in PSBTs v2 are written as hexadecimal text. -/
theorem C74_bytes_v2 (S : SerdeLib L) (f : Fmt) (hf : f.human = true) (g : V2.Global L) (i : V2.Input L) (o : V2.Output L) :
    (∃ l, (V2.Global.serde S).ser f g = .map l ∧ (.str "unknowns", Spec.unknownsForm g.unknowns) ∈ l ∧
      (.str "proprietaries", Spec.proprietariesForm g.proprietaries) ∈ l) ∧
    (∃ l, (V2.Input.serde S).ser f i = .map l ∧ (.str "unknowns", Spec.unknownsForm i.unknowns) ∈ l ∧
      (.str "proprietaries", Spec.proprietariesForm i.proprietaries) ∈ l ∧
      (.str "ripemd160_preimages", Spec.preimagesForm S.ripemd160 f i.ripemd160Preimages) ∈ l ∧
      (.str "sha256_preimages", Spec.preimagesForm S.sha256 f i.sha256Preimages) ∈ l ∧
      (.str "hash160_preimages", Spec.preimagesForm S.hash160 f i.hash160Preimages) ∈ l ∧
      (.str "hash256_preimages", Spec.preimagesForm S.sha256d f i.hash256Preimages) ∈ l) ∧
    ∃ l, (V2.Output.serde S).ser f o = .map l ∧ (.str "unknowns", Spec.unknownsForm o.unknowns) ∈ l ∧
      (.str "proprietaries", Spec.proprietariesForm o.proprietaries) ∈ l := by
  refine ⟨⟨_, by simp only [V2.Global.serde, structSer, hf, ↓reduceIte]; rfl, ?_⟩, ⟨_, by simp only [V2.Input.serde, structSer, hf, ↓reduceIte]; rfl, ?_⟩,
    ⟨_, by simp only [V2.Output.serde, structSer, hf, ↓reduceIte]; rfl, ?_⟩⟩ <;>
  simp [hexText_eq, Spec.unknownsForm, Spec.proprietariesForm, Spec.preimagesForm, Spec.keyForm, asSeqBytesS, byteValuesS, pairS, hexS, rawKeyS, propKeyS, structSer,
    u8S, hf]

/-- The same for v0. -/
theorem C74_bytes_v0 (S : SerdeLib L) (f : Fmt) (hf : f.human = true) (p : V0.Psbt L) (i : V0.Input L) (o : V0.Output L) :
    (∃ l, (V0.Psbt.serde S).ser f p = .map l ∧ (.str "unknown", Spec.unknownsForm p.unknown) ∈ l ∧
      (.str "proprietary", Spec.proprietariesForm p.proprietary) ∈ l) ∧
    (∃ l, (V0.Input.serde S).ser f i = .map l ∧ (.str "unknown", Spec.unknownsForm i.unknown) ∈ l ∧
      (.str "proprietary", Spec.proprietariesForm i.proprietary) ∈ l ∧
      (.str "ripemd160_preimages", Spec.preimagesForm S.ripemd160 f i.ripemd160Preimages) ∈ l ∧
      (.str "sha256_preimages", Spec.preimagesForm S.sha256 f i.sha256Preimages) ∈ l ∧
      (.str "hash160_preimages", Spec.preimagesForm S.hash160 f i.hash160Preimages) ∈ l ∧
      (.str "hash256_preimages", Spec.preimagesForm S.sha256d f i.hash256Preimages) ∈ l) ∧
    ∃ l, (V0.Output.serde S).ser f o = .map l ∧ (.str "unknown", Spec.unknownsForm o.unknown) ∈ l ∧
      (.str "proprietary", Spec.proprietariesForm o.proprietary) ∈ l := by
  refine ⟨⟨_, by simp only [V0.Psbt.serde, structSer, hf, ↓reduceIte]; rfl, ?_⟩, ⟨_, by simp only [V0.Input.serde, structSer, hf, ↓reduceIte]; rfl, ?_⟩,
    ⟨_, by simp only [V0.Output.serde, structSer, hf, ↓reduceIte]; rfl, ?_⟩⟩ <;>
  simp [hexText_eq, Spec.unknownsForm, Spec.proprietariesForm, Spec.preimagesForm, Spec.keyForm, asSeqBytesS, byteValuesS, pairS, hexS, rawKeyS, propKeyS, structSer,
    u8S, hf]
example : Spec.unknownsForm (BMap.empty.insert ⟨5, [1, 0xab]⟩ [0xff]) =
    .seq [.seq [.map [(.str "type_value", .num 5), (.str "key", .str "01ab")], .str "ff"]] := by rfl

/-- The order of the fields in a map does not matter. -/
theorem C74_any_order (S : SerdeLib L) {α : Type} {names : List String} {c : SCodec α} (h : IsStruct S names c) (f : Fmt)
    {l l' : List (SVal × SVal)} (hp : l.Perm l') : c.de f (.map l) = c.de f (.map l') := h.byName.perm hp

/-- Names that are not those of fields are ignored. -/
theorem C74_other_names (S : SerdeLib L) {α : Type} {names : List String} {c : SCodec α} (h : IsStruct S names c) (f : Fmt)
    {n : String} (hn : n ∉ names) (v : SVal) (l : List (SVal × SVal)) : c.de f (.map ((.str n, v) :: l)) = c.de f (.map l) :=
  h.byName.unknown hn v l

/-- A field that occurs twice is an error. -/
theorem C74_twice (S : SerdeLib L) {α : Type} {names : List String} {c : SCodec α} (h : IsStruct S names c) (f : Fmt)
    {n : String} (hn : n ∈ names) {v w : SVal} {l : List (SVal × SVal)} (hd : [(.str n, v), (.str n, w)].Sublist l) :
    c.de f (.map l) = none := h.byName.duplicate hn hd
example : rawKeyS.de ⟨true, true⟩ (.map [(.str "key", .str "0A"), (.str "key", .str "0A"), (.str "type_value", .num 5)]) = none := by rfl

/-! ## C75 -/

/-- Roles are read back as they were. -/
theorem C75_roles_partial (S : SerdeLib L) (h : S.Good) (f : Fmt) (p : V2.Psbt L) (ht : Spec.Typed p)
    (hb : f.human = true → f.borrows = false → ∀ i ∈ p.inputs, Spec.NoPreimages i) :
    (V2.roleSerde S).de f ((V2.roleSerde S).ser f p) = some p ∧ (V2.constructorSerde S).de f ((V2.constructorSerde S).ser f p) = some p := by
  have := (C74_v2_roundtrip_iff S h f p ht).2 hb
  exact ⟨this, this⟩
example : ∃ S : SerdeLib (Demo.lib false), S.Good ∧ (V2.roleSerde S).de ⟨true, true⟩ ((V2.roleSerde S).ser ⟨true, true⟩ V2.demo) = some V2.demo :=
  ⟨_, someSerde_good _, (C75_roles_partial _ (someSerde_good _) _ _ demo_typed (by simp)).1⟩

/-- An input that wants a time and one that wants a height. -/
def clash : V2.Psbt (Demo.lib false) :=
  ⟨{ V2.Global.new (Demo.lib false) with inputCount := 2 },
   [V2.ltInput (some ⟨0x60000000, by decide⟩) none, V2.ltInput none (some ⟨5, by decide⟩)], []⟩
theorem clash_typed : Spec.Typed clash := by
  refine ⟨fun _ => ⟨rfl, rfl⟩, fun i hi _ => ?_, fun o ho _ => ?_⟩
  · simp only [clash, List.mem_cons, List.not_mem_nil, or_false] at hi
    rcases hi with rfl | rfl <;> exact ⟨rfl, rfl⟩
  · simp only [clash, List.not_mem_nil] at ho

/-- A deserialised updater, finalizer or extractor may hold a PSBT whose lock time cannot be determined, which the constructors refuse: then
`id` panics. -/
theorem C75_lock_time_counterexample (S : SerdeLib (Demo.lib false)) (h : S.Good) (f : Fmt) :
    (∃ v, (V2.roleSerde S).de f v = some clash) ∧ (∀ p, V2.Updater.new clash ≠ .ok p) ∧
      (∃ why, V2.Updater.id clash = .error (.panic why)) ∧ (∃ why, V2.Extractor.id clash = .error (.panic why)) := by
  refine ⟨⟨_, (C75_roles_partial S h f _ clash_typed ?_).1⟩, ?_, ⟨_, by rfl⟩, ⟨_, by rfl⟩⟩
  · intro _ _ i hi
    simp only [clash, List.mem_cons, List.not_mem_nil, or_false] at hi
    rcases hi with rfl | rfl <;> exact ⟨rfl, rfl, rfl, rfl⟩
  · intro p hp
    have : ∃ e, V2.Updater.new clash = .error (.err e) := ⟨_, by rfl⟩
    obtain ⟨e, he⟩ := this
    rw [he] at hp; cases hp

/-- A deserialised PSBT v2 may have any version and counts that are not those of its maps; its serialisation is then not a PSBT. -/
theorem C75_version_counterexample (S : SerdeLib (Demo.lib false)) (h : S.Good) (f : Fmt) :
    ∃ p q : V2.Psbt (Demo.lib false), (∃ v, (V2.Psbt.serde S).de f v = some p) ∧ (∃ v, (V2.Psbt.serde S).de f v = some q) ∧
      (∀ r, V2.Psbt.deserialize (Demo.lib false) p.serialize ≠ .ok r) ∧ (∀ r, V2.Psbt.deserialize (Demo.lib false) q.serialize ≠ .ok r) := by
  have ht : ∀ g : V2.Global (Demo.lib false), (g.spEcdhShares = .empty ∧ g.spDleqProofs = .empty) → Spec.Typed ⟨g, [], []⟩ :=
    fun g hg => ⟨fun _ => hg, by simp, by simp⟩
  refine ⟨⟨{ V2.Global.new (Demo.lib false) with version := 7 }, [], []⟩, ⟨{ V2.Global.new (Demo.lib false) with inputCount := 1 }, [], []⟩,
    ⟨_, (C74_v2_roundtrip_iff S h f _ (ht _ ⟨rfl, rfl⟩)).2 (by simp)⟩, ⟨_, (C74_v2_roundtrip_iff S h f _ (ht _ ⟨rfl, rfl⟩)).2 (by simp)⟩, ?_, ?_⟩
  · have : (match V2.Psbt.deserialize (Demo.lib false) (V2.Psbt.serialize ⟨{ V2.Global.new (Demo.lib false) with version := 7 }, [], []⟩) with
      | .ok _ => false | .error _ => true) = true := by decide +kernel
    intro r hr; rw [hr] at this; cases this
  · have : (match V2.Psbt.deserialize (Demo.lib false) (V2.Psbt.serialize ⟨{ V2.Global.new (Demo.lib false) with inputCount := 1 }, [], []⟩) with
      | .ok _ => false | .error _ => true) = true := by decide +kernel
    intro r hr; rw [hr] at this; cases this

/-! ## C76 -/

/-- No PSBT v2 written by a program built without silent payments is read by one built with them. -/
theorem C76_upgrade_counterexample {L L' : Lib} (h : L.sp = false) (h' : L'.sp = true) (S : SerdeLib L) (S' : SerdeLib L') (f : Fmt) (p : V2.Psbt L) :
    (V2.Psbt.serde S').de f ((V2.Psbt.serde S).ser f p) = none := by
  have hg : (V2.Global.serde S').de f ((V2.Global.serde S).ser f p.global) = none := by
    conv => lhs; unfold V2.Global.serde
    simp only [h, h', Bool.false_eq_true, ↓reduceIte, List.append_nil]
    unfold structSer
    cases hf : f.human with
    | false => simp [structDe, V2.Global.fieldNames, h']
    | true =>
      simp only [↓reduceIte]
      cases hd : structDe (V2.Global.fieldNames L') _ with
      | none => rfl
      | some fs =>
        have : fs.lookup "sp_ecdh_shares" = none := by
          simp only [structDe] at hd
          simp only [V2.Global.fieldNames, h', ↓reduceIte, List.map_append, List.map_cons, List.map_nil, List.cons_append, List.nil_append,
            knownFields, Option.bind_eq_bind, Option.bind_some] at hd
          simp only [Option.ite_none_right_eq_some, Option.some.injEq] at hd
          rw [← hd.2]
          rfl
        have hr : ∀ {α} (c : SCodec α), reqField c f fs "sp_ecdh_shares" = none := by intro α c; simp [reqField, this]
        simp only [Option.bind_eq_bind, Option.bind_some, hr, Option.bind_none, Option.bind_fun_none]
  conv => lhs; unfold V2.Psbt.serde
  simp only
  rw [structDe_ser (by decide) (by rfl)]
  simp only [Option.bind_eq_bind, Option.bind_some]
  rw [reqField_eq (by rfl), hg]
  rfl
example : (V2.Psbt.serde (someSerde (Demo.lib true))).de ⟨true, true⟩ ((V2.Psbt.serde (someSerde (Demo.lib false))).ser ⟨true, true⟩ V2.demo) = none :=
  C76_upgrade_counterexample rfl rfl _ _ _ _

/-- A program built without silent payments ignores their fields in a map. -/
theorem C76_ignored_partial (h : L.sp = false) (S : SerdeLib L) (f : Fmt) (v : SVal) (l : List (SVal × SVal)) :
    (∀ n ∈ ["sp_ecdh_shares", "sp_dleq_proofs"], (V2.Global.serde S).de f (.map ((.str n, v) :: l)) = (V2.Global.serde S).de f (.map l) ∧
      (V2.Input.serde S).de f (.map ((.str n, v) :: l)) = (V2.Input.serde S).de f (.map l)) ∧
    ∀ n ∈ ["sp_v0_info", "sp_v0_label"], (V2.Output.serde S).de f (.map ((.str n, v) :: l)) = (V2.Output.serde S).de f (.map l) := by
  refine ⟨fun n hn => ⟨C74_other_names S .global f ?_ v l, C74_other_names S .input f ?_ v l⟩, fun n hn => C74_other_names S .output f ?_ v l⟩ <;>
    simp only [List.mem_cons, List.not_mem_nil, or_false] at hn <;>
    rcases hn with rfl | rfl <;> simp only [Spec.globalFields, Spec.inputFields, Spec.outputFields, h] <;> decide

end Psbt
