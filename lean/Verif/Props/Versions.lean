/- C94: the two versions are told apart. -/
import Verif.Props.V0Parse
import Verif.Props.V2Parse
import Verif.Props.Text
namespace Psbt
variable {L : Lib}

/-- C94. No bytes are accepted both as a PSBT v0 and as a PSBT v2. -/
theorem C94_one_version (b : Bytes) (p : V0.Psbt L) (q : V2.Psbt L) :
    ¬ (V0.Psbt.deserialize L b = .ok p ∧ V2.Psbt.deserialize L b = .ok q) := by
  rintro ⟨h0, h2⟩
  obtain ⟨d, r1, _, _, rfl, hg, -⟩ := V0.deserialize_ok.mp h0
  obtain ⟨d', r1', _, _, hb, hg', -⟩ := V2.deserialize_ok.mp h2
  obtain rfl : d = d' := by simpa using hb
  obtain ⟨ps, a, tx, hd, hf, -, h1, htx, -⟩ := V0.decodeGlobal_ok.mp hg
  have hp : ∀ q ∈ ps, Spec.PairOk q := fun q hq => (pairFits_iff q).mp (hf q hq)
  rw [← serializeMap_append, ← mapBytes_fun] at hd
  subst hd
  have h47 := (V0.C47_global_required hp hg).1
  obtain ⟨-, -, -, -, -, h9⟩ := V2.C09_global_required hp hg'
  have : (⟨⟨0x00, []⟩, Spec.unsignedTxBytes ({ p with inputs := [], outputs := [] } : V0.Psbt L).unsignedTx⟩ : Pair) ∈
      ps.filter fun q => decide (q.key.ty = 0x00) := by rw [h47]; exact List.mem_singleton.mpr rfl
  exact h9 _ (List.mem_filter.mp this).1 rfl

/-- C94. The same for texts. -/
theorem C94_one_version_text (s : Bytes) (p : V0.Psbt L) (q : V2.Psbt L) :
    ¬ (V0.Psbt.ofText L s = .ok p ∧ V2.Psbt.ofText L s = .ok q) := by
  rintro ⟨h0, h2⟩
  obtain ⟨b, hb, h0⟩ := (V0.C73_v0_parses_iff s p).mp h0
  obtain ⟨c, hc, h2⟩ := (V2.C73_v2_parses_iff s q).mp h2
  obtain rfl := Spec.base64_data_unique hb hc
  exact C94_one_version b p q ⟨h0, h2⟩

theorem decodeMap_first {M ε : Type} {ins : M → Pair → Except ε M} {w : SerErr → ε} {m : M} {p : Pair} (hp : PairFits p) {e : ε}
    (h : ins m p = .error e) (r : Bytes) : decodeMap ins w m (encPair p ++ r) = .error e := by
  simp only [decodeMap, decodeLoop]
  rw [decPair_enc hp]
  simp only [h]
  rfl

/-- C94. What is written as a PSBT v0 is refused as a PSBT v2 for its unsigned transaction, whatever follows it. -/
theorem C94_v0_refused {p : V0.Psbt L} (h : Spec.V0.WF p) (r : Bytes) :
    V2.Psbt.deserialize L (p.serialize ++ r) = .error (.err (.decodeGlobal (.insertPair (.excludedKey 0x00)))) := by
  have hs : ∃ r', p.serialize ++ r = V2.MAGIC ++ 0xff :: (encPair (bare PSBT_GLOBAL_UNSIGNED_TX (encTxLegacy p.unsignedTx)) ++ r') :=
    ⟨_, by simp [V0.Psbt.serialize, serializeMap, V0.Psbt.getPairs, List.flatMap_append]; rfl⟩
  obtain ⟨r', hs⟩ := hs
  have hf := (pairFits_iff _).mpr (h.sizes (bare PSBT_GLOBAL_UNSIGNED_TX (encTxLegacy p.unsignedTx)) (by simp [V0.Psbt.getPairs]))
  have hi : mapErr DecErr.insertPair ((V2.GlobalAcc.start L).insertPair
      (bare PSBT_GLOBAL_UNSIGNED_TX (encTxLegacy p.unsignedTx))) = .error (.insertPair (.excludedKey 0x00)) := by
    have hs : V2.glSlot L.sp 0 = .unsignedTx := by generalize L.sp = b; cases b <;> rfl
    unfold V2.GlobalAcc.insertPair
    simp only [bare, hs]
    rfl
  rw [hs]
  unfold V2.Psbt.deserialize
  rw [if_neg (by simp [V2.MAGIC]), if_neg (by simp [V2.MAGIC])]
  have : V2.Global.decode L ((V2.MAGIC ++ 0xff :: (encPair (bare PSBT_GLOBAL_UNSIGNED_TX (encTxLegacy p.unsignedTx)) ++ r')).drop 5) =
      .error (.insertPair (.excludedKey 0x00)) := by
    show V2.Global.decode L (encPair (bare PSBT_GLOBAL_UNSIGNED_TX (encTxLegacy p.unsignedTx)) ++ r') = _
    unfold V2.Global.decode
    rw [decodeMap_first hf (e := .insertPair (.excludedKey 0x00)) hi]
    rfl
  rw [this]
  rfl

/-- C94. What is written as a PSBT v2 is refused as a PSBT v0 for its version number, whatever follows it. -/
theorem C94_v2_refused {p : V2.Psbt L} (h : p.global.version = 2) (r : Bytes) :
    V0.Psbt.deserialize L (p.serialize ++ r) = .error (.err .version) := by
  have hs : ∃ r', p.serialize ++ r = V2.MAGIC ++ 0xff :: (encPair (bare PSBT_GLOBAL_VERSION [2, 0, 0, 0]) ++ r') := by
    have e : versionCodec.ser p.global.version = [2, 0, 0, 0] := by rw [h]; rfl
    exact ⟨_, by simp [V2.Psbt.serialize, serializeMap, V2.Global.getPairs, List.flatMap_append, e]; rfl⟩
  obtain ⟨r', hs⟩ := hs
  rw [hs]
  unfold V0.Psbt.deserialize
  rw [if_neg (by simp [V2.MAGIC]), if_neg (by simp [V2.MAGIC])]
  have : V0.decodeGlobal L ((V2.MAGIC ++ 0xff :: (encPair (bare PSBT_GLOBAL_VERSION [2, 0, 0, 0]) ++ r')).drop 5) = .error .version := by
    show V0.decodeGlobal L (encPair (bare PSBT_GLOBAL_VERSION [2, 0, 0, 0]) ++ r') = _
    have ht : ∃ r'', (encPair (bare PSBT_GLOBAL_VERSION [2, 0, 0, 0]) ++ r').take MAX_VEC_SIZE =
        encPair (bare PSBT_GLOBAL_VERSION [2, 0, 0, 0]) ++ r'' := by
      refine ⟨r'.take (MAX_VEC_SIZE - (encPair (bare PSBT_GLOBAL_VERSION [2, 0, 0, 0])).length), ?_⟩
      rw [List.take_append, List.take_of_length_le (by decide)]
    obtain ⟨r'', ht⟩ := ht
    unfold V0.decodeGlobal
    rw [ht, decodeMap_first (e := .version) (by unfold PairFits; decide) (by rfl)]
    rfl
  rw [this]
  rfl

/-- There are PSBTs of both versions. -/
example : (∃ p, V0.Psbt.deserialize (Demo.lib false) V0.demo.serialize = .ok p) ∧ Spec.V0.WF V0.demo :=
  ⟨⟨_, V0.demo_roundtrip⟩, V0.wf_of_deserialize V0.demo_roundtrip⟩
example : V2.demo.global.version = 2 := rfl

example := C94_v0_refused (V0.wf_of_deserialize V0.demo_roundtrip) [1, 2, 3]


end Psbt
