/-
C06-C16, C54, C56: the binary form of PSBT v2.

Throughout, `L` stands for any behaviour of the dependencies (`Lib`): key, signature and hash formats and whether the
silent-payments feature is on. `Spec.mapBytes ps` is the concatenation of the pairs `ps` followed by a zero byte.
-/
import Verif.Props.Wire
import Verif.Lemmas.RawMap
import Verif.Lemmas.Folds
namespace Psbt.V2
open Psbt

/-! ### A concrete PSBT for the examples -/

/-- An input with a sequence number, a height lock, a signature, a preimage and unknown and proprietary entries. -/
def demoInput : Input (Demo.lib false) :=
  { Input.placeholder (Demo.lib false) with
    previousTxid := Demo.rep 32 0x11
    spentOutputIndex := 1
    sequence := some 0xfffffffd
    minHeight := some ⟨800000, by decide⟩
    witnessUtxo := some ⟨5000, [0x51]⟩
    partialSigs := BMap.empty.insert (Demo.val 33 (by decide) 2) ⟨Demo.val 8 (by decide) 9, ⟨1, by decide⟩⟩
    sha256Preimages := BMap.empty.insert (Demo.pad 32 [2, 7, 7]) [7, 7]
    proprietaries := BMap.empty.insert ⟨[0x61], 1, [5]⟩ [6]
    unknowns := BMap.empty.insert ⟨0x77, [1]⟩ [2] }

/-- An output. -/
def demoOutput : Output (Demo.lib false) :=
  { Output.placeholder (Demo.lib false) with amount := 4000, scriptPubkey := [0x51], redeemScript := some [0x52] }

/-- A global map for one input and one output. -/
def demoGlobal : Global (Demo.lib false) :=
  { Global.new (Demo.lib false) with
    inputCount := 1, outputCount := 1, fallbackLockTime := some 17, txModifiableFlags := 3
    unknowns := BMap.empty.insert ⟨0x50, []⟩ [1, 2, 3] }

/-- A PSBT with one input and one output. -/
def demo : Psbt (Demo.lib false) := ⟨demoGlobal, [demoInput], [demoOutput]⟩

theorem demo_roundtrip : Psbt.deserialize (Demo.lib false) demo.serialize = .ok demo := by decide +kernel

/-! ### C06, C07, C08 -/

/-- C06. A PSBT is read back unchanged from its own serialisation if and only if it is well-formed. -/
theorem C06_roundtrip_iff {L : Lib} (p : Psbt L) : Psbt.deserialize L p.serialize = .ok p ↔ Spec.WF p := by
  constructor
  · exact wf_of_deserialize
  · intro h
    have := deserialize_serialize_append h []
    simpa using this

example : Spec.WF demo := wf_of_deserialize demo_roundtrip

/-- C07. What was parsed, serialised and parsed again is the same PSBT. -/
theorem C07_parse_stable {L : Lib} {b : Bytes} {p : Psbt L} (h : Psbt.deserialize L b = .ok p) :
    Psbt.deserialize L p.serialize = .ok p :=
  (C06_roundtrip_iff p).mpr (wf_of_deserialize h)

/-- Bytes that parse although they are not in the form the library writes: trailing bytes are ignored. -/
example : ∃ b, Psbt.deserialize (Demo.lib false) b = .ok demo ∧ b ≠ demo.serialize :=
  ⟨demo.serialize ++ [1, 2, 3], by decide +kernel, by decide +kernel⟩

/-- C08. Only byte strings that start with "psbt" 0xff are parsed. -/
theorem C08_magic_and_separator {L : Lib} {b : Bytes} {p : Psbt L} (h : Psbt.deserialize L b = .ok p) :
    ∃ r, b = [0x70, 0x73, 0x62, 0x74, 0xff] ++ r := by
  rw [deserialize_ok] at h
  obtain ⟨d, _, _, _, h, _⟩ := h
  exact ⟨d, by rw [h]; rfl⟩

/-- C08. The magic error is given exactly to byte strings that do not start with "psbt". -/
theorem C08_invalid_magic_iff (L : Lib) (b : Bytes) :
    Psbt.deserialize L b = .error (.err .invalidMagic) ↔ ¬ ∃ r, b = [0x70, 0x73, 0x62, 0x74] ++ r := by
  have hm : b.take 4 = MAGIC ↔ ∃ r, b = [0x70, 0x73, 0x62, 0x74] ++ r := by
    constructor
    · intro h
      exact ⟨b.drop 4, by have := List.take_append_drop 4 b; rw [h] at this; exact this.symm⟩
    · rintro ⟨r, rfl⟩; rfl
  rw [← hm]
  unfold Psbt.deserialize
  constructor
  · intro h hn
    rw [if_neg (by simpa using hn)] at h
    split at h
    · cases h
    · revert h
      simp only [orFail]
      cases Global.decode L (List.drop 5 b) with
      | error e => intro h; cases h
      | ok x =>
        simp only [mapErr_of_ok, ok_bind]
        split
        · intro h; cases h
        · cases decodeN (Input.decode L) x.1.inputCount.toNat x.2 with
          | error e => intro h; cases h
          | ok y =>
            simp only [mapErr_of_ok, ok_bind]
            split
            · intro h; cases h
            · cases decodeN (Output.decode L) x.1.outputCount.toNat y.2 with
              | error e => intro h; cases h
              | ok z => intro h; cases h
  · intro h
    rw [if_pos (by simpa using h)]

/-- C08. The separator error is given exactly to byte strings that start with "psbt" but not with "psbt" 0xff. -/
theorem C08_invalid_separator_iff (L : Lib) (b : Bytes) :
    Psbt.deserialize L b = .error (.err .invalidSeparator) ↔
      (∃ r, b = [0x70, 0x73, 0x62, 0x74] ++ r) ∧ ¬ ∃ r, b = [0x70, 0x73, 0x62, 0x74, 0xff] ++ r := by
  have hm : b.take 4 = MAGIC ↔ ∃ r, b = [0x70, 0x73, 0x62, 0x74] ++ r := by
    constructor
    · intro h
      exact ⟨b.drop 4, by have := List.take_append_drop 4 b; rw [h] at this; exact this.symm⟩
    · rintro ⟨r, rfl⟩; rfl
  have hs : (b.take 4 = MAGIC ∧ b[4]? = some 0xff) ↔ ∃ r, b = [0x70, 0x73, 0x62, 0x74, 0xff] ++ r := by
    rw [hm]
    constructor
    · rintro ⟨⟨r, rfl⟩, h⟩
      cases r with
      | nil => simp at h
      | cons a r => simp at h; subst h; exact ⟨r, rfl⟩
    · rintro ⟨r, rfl⟩; exact ⟨⟨_, rfl⟩, rfl⟩
  rw [← hm, ← hs]
  unfold Psbt.deserialize
  constructor
  · intro h
    split at h
    · cases h
    · rename_i h1
      refine ⟨by simpa using h1, ?_⟩
      rintro ⟨-, h2⟩
      rw [if_neg (by simpa using h2)] at h
      revert h
      simp only [orFail]
      cases Global.decode L (List.drop 5 b) with
      | error e => intro h; cases h
      | ok x =>
        simp only [mapErr_of_ok, ok_bind]
        split
        · intro h; cases h
        · cases decodeN (Input.decode L) x.1.inputCount.toNat x.2 with
          | error e => intro h; cases h
          | ok y =>
            simp only [mapErr_of_ok, ok_bind]
            split
            · intro h; cases h
            · cases decodeN (Output.decode L) x.1.outputCount.toNat y.2 with
              | error e => intro h; cases h
              | ok z => intro h; cases h
  · rintro ⟨h1, h2⟩
    rw [if_neg (by simpa using h1), if_pos]
    intro h3
    exact h2 ⟨h1, h3⟩

example : Psbt.deserialize (Demo.lib false) [0x70, 0x73, 0x62, 0x74] = .error (.err .invalidSeparator) := by decide
example : Psbt.deserialize (Demo.lib false) [0x70, 0x73, 0x62] = .error (.err .invalidMagic) := by decide

/-! ### The maps inside a parsed PSBT -/

/-- A parsed byte string is the magic and separator, a global map, `inputs.length` input maps, `outputs.length` output
maps (and possibly more bytes), and the parts of the PSBT are what these maps parse to. With this the statements below
about single maps are statements about whole PSBTs. -/
theorem parsed_shape {L : Lib} {b : Bytes} {p : Psbt L} (h : Psbt.deserialize L b = .ok p) :
    ∃ (g : List Pair) (is os : List (List Pair)) (rest : Bytes),
      b = [0x70, 0x73, 0x62, 0x74, 0xff] ++ Spec.mapBytes g ++ is.flatMap Spec.mapBytes ++ os.flatMap Spec.mapBytes ++ rest ∧
      (∀ q ∈ g, Spec.PairOk q) ∧ (∀ ps ∈ is, ∀ q ∈ ps, Spec.PairOk q) ∧ (∀ ps ∈ os, ∀ q ∈ ps, Spec.PairOk q) ∧
      (∀ r, Global.decode L (Spec.mapBytes g ++ r) = .ok (p.global, r)) ∧
      is.length = p.inputs.length ∧
      (∀ j (h1 : j < is.length) (h2 : j < p.inputs.length), ∀ r,
        Input.decode L (Spec.mapBytes is[j] ++ r) = .ok (p.inputs[j], r)) ∧
      os.length = p.outputs.length ∧
      (∀ j (h1 : j < os.length) (h2 : j < p.outputs.length), ∀ r,
        Output.decode L (Spec.mapBytes os[j] ++ r) = .ok (p.outputs[j], r)) := by
  simp only [mapBytes_fun]
  rw [deserialize_ok] at h
  obtain ⟨d, r1, r2, r3, rfl, h1, _, h2, _, h3⟩ := h
  obtain ⟨g, e1, f1, g1⟩ := Global.decode_shape _ _ _ h1
  obtain ⟨is, e2, l2, f2, g2⟩ := decodeN_shape Input.decode_shape h2
  obtain ⟨os, e3, l3, f3, g3⟩ := decodeN_shape Output.decode_shape h3
  refine ⟨g, is, os, r3, ?_, fun q hq => (pairFits_iff q).mp (f1 q hq),
    fun ps hps q hq => (pairFits_iff q).mp (f2 ps hps q hq), fun ps hps q hq => (pairFits_iff q).mp (f3 ps hps q hq),
    g1, l2, g2, l3, g3⟩
  rw [e1, e2, e3]
  simp [MAGIC]

/-! ### C09, C10 -/

section
variable {L : Lib} {ps : List Pair} {r r' : Bytes}

theorem glSlot_inv : ∀ sp t, (glSlot sp t = .version ↔ t = 0xFB) ∧ (glSlot sp t = .txVersion ↔ t = 0x02) ∧
    (glSlot sp t = .counts ↔ t = 0x04 ∨ t = 0x05) ∧ (glSlot sp t = .unsignedTx ↔ t = 0x00) ∧
    (glSlot sp t = .proprietary ↔ t = 0xFC) :=
  fun sp => forall_u8 (by cases sp <;> decide +kernel)

theorem key_eta {p : Pair} {t : UInt8} (h1 : p.key.ty = t) (h2 : p.key.key = []) : p.key = ⟨t, []⟩ := by
  obtain ⟨⟨a, b⟩, v⟩ := p; simp_all

theorem insCounts_ok {c : Option UInt64 × Option UInt64} {p : Pair} {c' : Option UInt64 × Option UInt64} :
    insCounts c p = .ok c' ↔ p.key.key = [] ∧ c.2 = none ∧ ∃ n : UInt64, (∃ t, p.value = encVar n.toNat ++ t) ∧
      c' = if p.key.ty = 0x04 then (some n, none) else (c.1, some n) := by
  obtain ⟨c1, c2⟩ := c
  unfold insCounts
  split
  · rename_i hk
    cases c2 with
    | some x => simp
    | none =>
      simp only [bind_ok, mapErr_ok, hk, true_and]
      constructor
      · rintro ⟨⟨n, t⟩, h1, h2⟩
        obtain ⟨h3, h4⟩ := decVar_ok h1
        refine ⟨UInt64.ofNat n, ⟨t, ?_⟩, ?_⟩
        · rw [UInt64.toNat_ofNat_of_lt' h4]; exact h3
        · revert h2
          simp only [PSBT_GLOBAL_INPUT_COUNT]
          split <;> (intro h; cases h; rfl)
      · rintro ⟨n, ⟨t, ht⟩, rfl⟩
        refine ⟨(n.toNat, t), by rw [ht]; exact decVar_enc n.toNat_lt t, ?_⟩
        simp only [PSBT_GLOBAL_INPUT_COUNT, UInt64.ofNat_toNat]
        split <;> rfl
  · rename_i hk; simp [hk]

theorem insCounts_fold {ps : List Pair} {c c' : Option UInt64 × Option UInt64}
    (e : ps.foldlM insCounts c = .ok c') (hs : ∀ p ∈ ps, p.key.ty = 0x04 ∨ p.key.ty = 0x05) :
    (∀ n, c'.1 = some n → c.1 = some n ∨ ∃ p ∈ ps, p.key = ⟨0x04, []⟩ ∧ ∃ t, p.value = encVar n.toNat ++ t) ∧
    (∀ n, c'.2 = some n → c.2 = some n ∨ ∃ p ∈ ps, p.key = ⟨0x05, []⟩ ∧ ∃ t, p.value = encVar n.toNat ++ t) := by
  induction ps generalizing c with
  | nil => cases e; exact ⟨fun n h => .inl h, fun n h => .inl h⟩
  | cons p ps ih =>
    simp only [List.foldlM_cons, bind_ok] at e
    obtain ⟨c1, h1, h2⟩ := e
    obtain ⟨i1, i2⟩ := ih h2 (fun q hq => hs q (by simp [hq]))
    rw [insCounts_ok] at h1
    obtain ⟨hk, hc, m, hv, rfl⟩ := h1
    constructor
    · intro n hn
      rcases i1 n hn with h | ⟨q, hq, h⟩
      · split at h
        · rename_i ht
          cases h
          exact .inr ⟨p, by simp, key_eta ht hk, hv⟩
        · exact .inl h
      · exact .inr ⟨q, by simp [hq], h⟩
    · intro n hn
      rcases i2 n hn with h | ⟨q, hq, h⟩
      · split at h
        · cases h
        · rename_i ht
          cases h
          exact .inr ⟨p, by simp, key_eta ((hs p (by simp)).resolve_left ht) hk, hv⟩
      · exact .inr ⟨q, by simp [hq], h⟩

/-- C09. A global map that is accepted contains the PSBT version with the value 2, the transaction version, the input
count and the output count, the result carries exactly these values, and no unsigned transaction is present. -/
theorem C09_global_required {g : Global L} (hp : ∀ p ∈ ps, Spec.PairOk p)
    (h : Global.decode L (Spec.mapBytes ps ++ r) = .ok (g, r')) :
    (∃ p ∈ ps, p.key = ⟨0xFB, []⟩ ∧ p.value = [2, 0, 0, 0]) ∧ g.version = 2 ∧
    (∃ p ∈ ps, p.key = ⟨0x02, []⟩ ∧ Spec.IsLE32 g.txVersion p.value) ∧
    (∃ p ∈ ps, p.key = ⟨0x04, []⟩ ∧ ∃ c t, p.value = c ++ t ∧ Spec.IsCompactSize g.inputCount.toNat c) ∧
    (∃ p ∈ ps, p.key = ⟨0x05, []⟩ ∧ ∃ c t, p.value = c ++ t ∧ Spec.IsCompactSize g.outputCount.toNat c) ∧
    (∀ p ∈ ps, p.key.ty ≠ 0x00) := by
  simp only [mapBytes_fun] at *
  have hp' : ∀ p ∈ ps, PairFits p := fun p hq => (pairFits_iff p).mpr (hp p hq)
  obtain ⟨rfl, a, h1, h2⟩ := Global.decode_pairs hp' h
  have hw := Global.wf_of_decode h
  rw [gl_ins, (glSys L).foldlM_iff] at h1
  rw [GlobalAcc.finish_ok] at h2
  have hv := (isOpt_version (fun p => (glSys L).slotOf p = .version)).fold ((glSys L).slot_ofSlot .version ps)
    (h1 .version)
  have ht := (isOpt_fixed 4 decU32 (fun p => (glSys L).slotOf p = .txVersion)).fold
    ((glSys L).slot_ofSlot .txVersion ps) (h1 .txVersion)
  have hc := insCounts_fold (h1 .counts) (fun p hp => (glSlot_inv L.sp _).2.2.1.mp ((glSys L).slot_ofSlot .counts ps p hp))
  have ev : glGet L .version a = some g.version := by rcases h2.1 with rfl | ⟨rfl, -⟩ <;> rfl
  have et : glGet L .txVersion a = some g.txVersion := by rcases h2.1 with rfl | ⟨rfl, -⟩ <;> rfl
  have e1 : (glGet L .counts a).1 = some g.inputCount := by rcases h2.1 with rfl | ⟨rfl, -⟩ <;> rfl
  have e2 : (glGet L .counts a).2 = some g.outputCount := by rcases h2.1 with rfl | ⟨rfl, -⟩ <;> rfl
  have cs : ∀ n : UInt64, Spec.IsCompactSize n.toNat (encVar n.toNat) := fun n => isCompactSize_encVar n.toNat_lt
  refine ⟨?_, hw.version, ?_, ?_, ?_, ?_⟩
  · rcases hv with ⟨_, h3⟩ | ⟨p, v, h3, h4, _⟩
    · exact absurd (h3.symm.trans ev) (by simp)
    · have hm := (glSys L).mem_ofSlot.mp (show p ∈ (glSys L).ofSlot .version ps by rw [h3]; simp)
      rw [parseVersion_some] at h4
      obtain ⟨⟨h5, h6, t, h7⟩, _⟩ := h4
      refine ⟨p, hm.1, key_eta ((glSlot_inv L.sp _).1.mp hm.2) h5, ?_⟩
      have := decU32_ok h7
      rw [this] at h6 ⊢
      simp only [List.length_append, encU32_length] at h6
      have : t = [] := List.eq_nil_of_length_eq_zero (by omega)
      subst this
      decide
  · rcases ht with ⟨_, h3⟩ | ⟨p, v, h3, h4, h5⟩
    · exact absurd (h3.symm.trans et) (by simp)
    · have hm := (glSys L).mem_ofSlot.mp (show p ∈ (glSys L).ofSlot .txVersion ps by rw [h3]; simp)
      rw [parseFixed_some] at h4
      obtain ⟨h6, h7, t, h8⟩ := h4
      have hv : v = g.txVersion := by
        have := h5.symm.trans et
        simpa using this
      subst hv
      refine ⟨p, hm.1, key_eta ((glSlot_inv L.sp _).2.1.mp hm.2) h6, ?_⟩
      have := decU32_ok h8
      rw [this] at h7 ⊢
      simp only [List.length_append, encU32_length] at h7
      have : t = [] := List.eq_nil_of_length_eq_zero (by omega)
      subst this
      rw [List.append_nil]
      exact isLE32_encU32 _
  · rcases hc.1 _ e1 with h3 | ⟨p, hm, hk, t, h3⟩
    · cases h3
    · exact ⟨p, ((glSys L).mem_ofSlot.mp hm).1, hk, _, t, h3, cs _⟩
  · rcases hc.2 _ e2 with h3 | ⟨p, hm, hk, t, h3⟩
    · cases h3
    · exact ⟨p, ((glSys L).mem_ofSlot.mp hm).1, hk, _, t, h3, cs _⟩
  · intro p hpm h0
    have hm : p ∈ (glSys L).ofSlot .unsignedTx ps :=
      (glSys L).mem_ofSlot.mpr ⟨hpm, (glSlot_inv L.sp _).2.2.2.1.mpr h0⟩
    have h3 := h1 .unsignedTx
    generalize (glSys L).ofSlot .unsignedTx ps = l at hm h3
    cases l with
    | nil => cases hm
    | cons q l =>
      simp only [List.foldlM_cons, bind_ok] at h3
      obtain ⟨x, hx, _⟩ := h3
      cases hx

/-- C09. A global map that lacks one of the four fields, states another version or contains an unsigned transaction is
refused with an error (at the level of the whole PSBT; whatever follows the map). -/
theorem C09_global_rejected (hp : ∀ p ∈ ps, Spec.PairOk p)
    (h : (∀ p ∈ ps, p.key.ty ≠ 0xFB) ∨ (∃ p ∈ ps, p.key.ty = 0xFB ∧ p.value ≠ [2, 0, 0, 0]) ∨
      (∀ p ∈ ps, p.key.ty ≠ 0x02) ∨ (∀ p ∈ ps, p.key.ty ≠ 0x04) ∨ (∀ p ∈ ps, p.key.ty ≠ 0x05) ∨
      (∃ p ∈ ps, p.key.ty = 0x00)) (r : Bytes) :
    ∃ e, Psbt.deserialize L ([0x70, 0x73, 0x62, 0x74, 0xff] ++ Spec.mapBytes ps ++ r) = .error (.err (.decodeGlobal e)) := by
  have hp' : ∀ p ∈ ps, PairFits p := fun p hq => (pairFits_iff p).mpr (hp p hq)
  have hd : ∃ e, Global.decode L (Spec.mapBytes ps ++ r) = .error e := by
    cases hd : Global.decode L (Spec.mapBytes ps ++ r) with
    | error e => exact ⟨e, rfl⟩
    | ok x =>
      exfalso
      obtain ⟨g, r'⟩ := x
      obtain ⟨⟨p1, m1, k1, v1⟩, _, ⟨p2, m2, k2, _⟩, ⟨p3, m3, k3, _⟩, ⟨p4, m4, k4, _⟩, h5⟩ :=
        C09_global_required hp hd
      rcases h with h | ⟨p, m, k, v⟩ | h | h | h | ⟨p, m, k⟩
      · exact h p1 m1 (by rw [k1])
      · -- the version pair is unique
        obtain ⟨rfl, a, f1, _⟩ := Global.decode_pairs hp' (mapBytes_fun ▸ hd)
        rw [gl_ins, (glSys L).foldlM_iff] at f1
        have hv := (isOpt_version (fun p => (glSys L).slotOf p = .version)).fold ((glSys L).slot_ofSlot .version ps)
          (f1 .version)
        have mm : p ∈ (glSys L).ofSlot .version ps := (glSys L).mem_ofSlot.mpr ⟨m, (glSlot_inv L.sp _).1.mpr k⟩
        have mm1 : p1 ∈ (glSys L).ofSlot .version ps :=
          (glSys L).mem_ofSlot.mpr ⟨m1, (glSlot_inv L.sp _).1.mpr (by rw [k1])⟩
        rcases hv with ⟨h3, _⟩ | ⟨q, w, h3, _, _⟩
        · rw [h3] at mm; cases mm
        · rw [h3] at mm mm1
          simp only [List.mem_singleton] at mm mm1
          rw [mm, ← mm1] at v
          exact v v1
      · exact h p2 m2 (by rw [k2])
      · exact h p3 m3 (by rw [k3])
      · exact h p4 m4 (by rw [k4])
      · exact h5 p m k
  obtain ⟨e, he⟩ := hd
  refine ⟨e, ?_⟩
  unfold Psbt.deserialize
  have : ([0x70, 0x73, 0x62, 0x74, 0xff] ++ Spec.mapBytes ps ++ r).drop 5 = Spec.mapBytes ps ++ r := by simp
  rw [if_neg (by simp [MAGIC]), if_neg (by simp), this, he]
  rfl

example : ∃ g r', Global.decode (Demo.lib false) (serializeMap demoGlobal.getPairs ++ [7]) = .ok (g, r') :=
  ⟨demoGlobal, [7], by decide +kernel⟩
example : ∀ p ∈ demoGlobal.getPairs, Spec.PairOk p := by decide

theorem inSlot_inv : ∀ sp t, (inSlot sp t = .previousTxid ↔ t = 0x0e) ∧ (inSlot sp t = .outputIndex ↔ t = 0x0f) ∧
    (inSlot sp t = .proprietary ↔ t = 0xFC) :=
  fun sp => forall_u8 (by cases sp <;> decide +kernel)

theorem outSlot_inv : ∀ sp t, (outSlot sp t = .amount ↔ t = 0x03) ∧ (outSlot sp t = .script ↔ t = 0x04) ∧
    (outSlot sp t = .proprietary ↔ t = 0xFC) :=
  fun sp => forall_u8 (by cases sp <;> decide +kernel)

/-- C10. An accepted input map contains the previous txid and the output index the result carries, and they are not the
all-zero txid and not 0xffffffff. -/
theorem C10_input_required {i : Input L} (hp : ∀ p ∈ ps, Spec.PairOk p)
    (h : Input.decode L (Spec.mapBytes ps ++ r) = .ok (i, r')) :
    (∃ p ∈ ps, p.key.ty = 0x0e ∧ p.value = i.previousTxid.1) ∧ i.previousTxid.1 ≠ List.replicate 32 0 ∧
    (∃ p ∈ ps, p.key.ty = 0x0f ∧ Spec.IsLE32 i.spentOutputIndex p.value) ∧ i.spentOutputIndex ≠ 0xffffffff := by
  simp only [mapBytes_fun] at *
  have hp' : ∀ p ∈ ps, PairFits p := fun p hq => (pairFits_iff p).mpr (hp p hq)
  obtain ⟨rfl, h1⟩ := Input.decode_pairs hp' h
  have hw := Input.wf_of_decode h
  rw [in_ins, (inSys L).foldlM_iff] at h1
  refine ⟨?_, hw.txid, ?_, hw.vout⟩
  · rcases (isSentinel_txid (fun p => (inSys L).slotOf p = .previousTxid)).fold
      ((inSys L).slot_ofSlot .previousTxid ps) (h1 .previousTxid) with ⟨_, h2⟩ | ⟨qs, p, h2, h3, _⟩
    · exfalso
      apply hw.txid
      have : i.previousTxid = zeroTxid := h2
      rw [this]; rfl
    · have hm := (inSys L).mem_ofSlot.mp (show p ∈ (inSys L).ofSlot .previousTxid ps by rw [h2]; simp)
      replace h3 := parseVal_some.mp (show parseVal (hashCodec 32) p = some i.previousTxid from h3)
      rw [hashCodec_deser_ok] at h3
      exact ⟨p, hm.1, (inSlot_inv L.sp _).1.mp hm.2, h3⟩
  · rcases (isSentinel_vout (fun p => (inSys L).slotOf p = .outputIndex)).fold
      ((inSys L).slot_ofSlot .outputIndex ps) (h1 .outputIndex) with ⟨_, h2⟩ | ⟨qs, p, h2, h3, _⟩
    · exact absurd (show i.spentOutputIndex = U32_MAX from h2) hw.vout
    · have hm := (inSys L).mem_ofSlot.mp (show p ∈ (inSys L).ofSlot .outputIndex ps by rw [h2]; simp)
      replace h3 := parseVal_some.mp (show parseVal u32Codec p = some i.spentOutputIndex from h3)
      refine ⟨p, hm.1, (inSlot_inv L.sp _).2.1.mp hm.2, ?_⟩
      rw [u32Codec_exact h3]
      exact isLE32_encU32 _

/-- C10. An input map without a previous txid or without an output index is refused. -/
theorem C10_input_rejected (hp : ∀ p ∈ ps, Spec.PairOk p)
    (h : (∀ p ∈ ps, p.key.ty ≠ 0x0e) ∨ (∀ p ∈ ps, p.key.ty ≠ 0x0f)) (r : Bytes) :
    ∃ e, Input.decode L (Spec.mapBytes ps ++ r) = .error e := by
  cases hd : Input.decode L (Spec.mapBytes ps ++ r) with
  | error e => exact ⟨e, rfl⟩
  | ok x =>
    exfalso
    obtain ⟨i, r'⟩ := x
    obtain ⟨⟨p1, m1, k1, _⟩, _, ⟨p2, m2, k2, _⟩, _⟩ := C10_input_required hp hd
    rcases h with h | h
    · exact h p1 m1 k1
    · exact h p2 m2 k2

/-- C10. An accepted output map contains the amount the result carries and it is not zero; without silent payments it
also contains the script and it is not empty. -/
theorem C10_output_required {o : Output L} (hp : ∀ p ∈ ps, Spec.PairOk p)
    (h : Output.decode L (Spec.mapBytes ps ++ r) = .ok (o, r')) :
    (∃ p ∈ ps, p.key.ty = 0x03 ∧ Spec.IsLE64 o.amount p.value) ∧ o.amount ≠ 0 ∧
    (L.sp = false → (∃ p ∈ ps, p.key.ty = 0x04 ∧ p.value = o.scriptPubkey) ∧ o.scriptPubkey ≠ []) := by
  simp only [mapBytes_fun] at *
  have hp' : ∀ p ∈ ps, PairFits p := fun p hq => (pairFits_iff p).mpr (hp p hq)
  obtain ⟨rfl, h1⟩ := Output.decode_pairs hp' h
  have hw := Output.wf_of_decode h
  rw [out_ins, (outSys L).foldlM_iff] at h1
  refine ⟨?_, hw.amount, fun hsp => ⟨?_, hw.script hsp⟩⟩
  · rcases (isSentinel_amount (fun p => (outSys L).slotOf p = .amount)).fold
      ((outSys L).slot_ofSlot .amount ps) (h1 .amount) with ⟨_, h2⟩ | ⟨qs, p, h2, h3, _⟩
    · exact absurd (show o.amount = 0 from h2) hw.amount
    · have hm := (outSys L).mem_ofSlot.mp (show p ∈ (outSys L).ofSlot .amount ps by rw [h2]; simp)
      replace h3 := parseVal_some.mp (show parseVal amountCodec p = some o.amount from h3)
      refine ⟨p, hm.1, (outSlot_inv L.sp _).1.mp hm.2, ?_⟩
      rw [amountCodec_exact h3]
      exact isLE64_encU64 _
  · rcases (isSentinel_spk (fun p => (outSys L).slotOf p = .script)).fold
      ((outSys L).slot_ofSlot .script ps) (h1 .script) with ⟨_, h2⟩ | ⟨qs, p, h2, h3, _⟩
    · exact absurd (show o.scriptPubkey = [] from h2) (hw.script hsp)
    · have hm := (outSys L).mem_ofSlot.mp (show p ∈ (outSys L).ofSlot .script ps by rw [h2]; simp)
      replace h3 := parseVal_some.mp (show parseVal rawCodec p = some o.scriptPubkey from h3)
      refine ⟨p, hm.1, (outSlot_inv L.sp _).2.1.mp hm.2, ?_⟩
      simp only [rawCodec, Except.ok.injEq] at h3; exact h3

/-- C10. An output map without an amount is refused; without silent payments so is one without a script. -/
theorem C10_output_rejected (hp : ∀ p ∈ ps, Spec.PairOk p)
    (h : (∀ p ∈ ps, p.key.ty ≠ 0x03) ∨ (L.sp = false ∧ ∀ p ∈ ps, p.key.ty ≠ 0x04)) (r : Bytes) :
    ∃ e, Output.decode L (Spec.mapBytes ps ++ r) = .error e := by
  cases hd : Output.decode L (Spec.mapBytes ps ++ r) with
  | error e => exact ⟨e, rfl⟩
  | ok x =>
    exfalso
    obtain ⟨i, r'⟩ := x
    obtain ⟨⟨p1, m1, k1, _⟩, _, h2⟩ := C10_output_required hp hd
    rcases h with h | ⟨hsp, h⟩
    · exact h p1 m1 k1
    · obtain ⟨⟨p2, m2, k2, _⟩, _⟩ := h2 hsp
      exact h p2 m2 k2

/-- With silent payments an output with neither script nor silent payment info is accepted. -/
theorem C10_output_script_optional_with_silent_payments :
    ∃ o, Output.decode (Demo.lib true) (Spec.mapBytes [⟨⟨0x03, []⟩, [1, 0, 0, 0, 0, 0, 0, 0]⟩]) = .ok (o, []) ∧
      o.scriptPubkey = [] ∧ o.spV0Info = none :=
  ⟨{ Output.placeholder (Demo.lib true) with amount := 1 }, by decide +kernel, rfl, rfl⟩

example : Input.decode (Demo.lib false) (serializeMap demoInput.getPairs ++ [7]) = .ok (demoInput, [7]) := by
  decide +kernel
example : ∀ p ∈ demoInput.getPairs, Spec.PairOk p := by decide
example : Output.decode (Demo.lib false) (serializeMap demoOutput.getPairs ++ [7]) = .ok (demoOutput, [7]) := by
  decide +kernel

end

end Psbt.V2
