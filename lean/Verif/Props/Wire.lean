/-
C01-C05, C53: compact sizes, raw pairs, proprietary keys, value codecs, lock time fields, version numbers.
-/
import Verif.Lemmas.Limits
import Verif.Lemmas.Kinds
import Verif.Spec.Wire
import Verif.Spec.Demo
namespace Psbt

theorem leValue_eq : ∀ b, Spec.leValue b = leDec b
  | [] => rfl
  | _ :: r => by simp only [Spec.leValue, leDec, leValue_eq r]

theorem isCompactSize_encVar {n : Nat} (h : n < 2 ^ 64) : Spec.IsCompactSize n (encVar n) := by
  unfold encVar Spec.IsCompactSize
  simp only [leValue_eq]
  split
  · left
    exact ⟨by omega, _, by rw [UInt8.toNat_ofNat']; omega, rfl⟩
  · split
    · right; left
      exact ⟨by omega, by omega, _, rfl, by simp, leDec_leEnc_of_lt (by omega)⟩
    · split
      · right; right; left
        exact ⟨by omega, by omega, _, rfl, by simp, leDec_leEnc_of_lt (by omega)⟩
      · right; right; right
        exact ⟨by omega, by omega, _, rfl, by simp, leDec_leEnc_of_lt (by omega)⟩

theorem encVar_of_isCompactSize {n : Nat} {p : Bytes} (h : Spec.IsCompactSize n p) : p = encVar n ∧ n < 2 ^ 64 := by
  unfold encVar
  simp only [Spec.IsCompactSize, leValue_eq] at h
  rcases h with ⟨h1, b, h2, rfl⟩ | ⟨h1, h2, x, rfl, h3, h4⟩ | ⟨h1, h2, x, rfl, h3, h4⟩ | ⟨h1, h2, x, rfl, h3, h4⟩
  · refine ⟨?_, by omega⟩
    rw [if_pos (by omega), ← h2]; simp
  · refine ⟨?_, by omega⟩
    rw [if_neg (by omega), if_pos (by omega), ← h4, leEnc_leDec' h3]
  · refine ⟨?_, by omega⟩
    rw [if_neg (by omega), if_neg (by omega), if_pos (by omega), ← h4, leEnc_leDec' h3]
  · refine ⟨?_, by omega⟩
    rw [if_neg (by omega), if_neg (by omega), if_neg (by omega), ← h4, leEnc_leDec' h3]

/-! ### C01 -/

/-- C01. What is written for a number below 2^64 is its compact-size encoding. -/
theorem C01_writes_compact_size {n : Nat} (h : n < 2 ^ 64) : Spec.IsCompactSize n (encVar n) :=
  isCompactSize_encVar h

/-- C01. A number is read from exactly its compact-size encoding - one, three, five or nine bytes, the shortest form
only - and nothing beyond it is consumed. -/
theorem C01_reads_exactly_compact_size (b : Bytes) (n : Nat) (r : Bytes) :
    decVar b = .ok (n, r) ↔ ∃ p, b = p ++ r ∧ Spec.IsCompactSize n p := by
  constructor
  · intro h
    obtain ⟨h1, h2⟩ := decVar_ok h
    exact ⟨_, h1, isCompactSize_encVar h2⟩
  · rintro ⟨p, rfl, h⟩
    obtain ⟨rfl, h2⟩ := encVar_of_isCompactSize h
    exact decVar_enc h2 r

example : decVar [0xFD, 0xFD, 0x00, 7] = .ok (253, [7]) := by decide
example : decVar [0xFD, 0xFC, 0x00, 7] = .error .nonMinimalVarInt := by decide

/-! ### C02 -/

/-- C02. The bytes written for a pair: compact size of the key (type byte included), type byte, key data, compact
size of the value, value. -/
theorem C02_pair_format (p : Pair) (h : Spec.PairOk p) :
    ∃ a c, encPair p = a ++ [p.key.ty] ++ p.key.key ++ c ++ p.value ∧
      Spec.IsCompactSize (p.key.key.length + 1) a ∧ Spec.IsCompactSize p.value.length c := by
  have h1 := h.1; have h2 := h.2
  simp only [Spec.MAX_KEY, Spec.MAX_VALUE] at h1 h2
  exact ⟨_, _, by simp [encPair, encKey, encVec], isCompactSize_encVar (by omega), isCompactSize_encVar (by omega)⟩

/-- C02. A pair is read exactly from the bytes written for it, consuming those and nothing else, and exactly pairs
within the size limits are read. -/
theorem C02_pair_read_iff (b : Bytes) (p : Pair) (r : Bytes) :
    decPair b = .ok (p, r) ↔ b = encPair p ++ r ∧ Spec.PairOk p := by
  rw [← pairFits_iff]
  exact ⟨decPair_ok, fun h => by rw [h.1]; exact decPair_enc h.2 r⟩

/-- C02. The end of a map is exactly a zero byte. -/
theorem C02_end_of_map_iff (b : Bytes) : decPair b = .error .noMorePairs ↔ ∃ r, b = 0 :: r :=
  ⟨decPair_noMore, fun ⟨r, h⟩ => by rw [h]; exact decPair_zero r⟩

theorem encVar_head (n : Nat) (t : Bytes) : (encVar n ++ t).head? = some 0xFF ↔ 2 ^ 32 ≤ n := by
  unfold encVar
  split
  · rename_i h
    simp only [List.cons_append, List.head?_cons, Option.some.injEq]
    constructor
    · intro e
      have := congrArg UInt8.toNat e
      rw [UInt8.toNat_ofNat'] at this
      simp at this; omega
    · omega
  · split
    · simp; omega
    · split
      · simp; omega
      · simp; omega

/-- C02. A pair whose key data or value is too long is written but not read back. -/
theorem C02_oversized_rejected (p : Pair) (h : ¬ Spec.PairOk p) (r : Bytes) :
    ∃ e, decPair (encPair p ++ r) = .error e := by
  cases hd : decPair (encPair p ++ r) with
  | error e => exact ⟨e, rfl⟩
  | ok x =>
    obtain ⟨q, r'⟩ := x
    exfalso
    obtain ⟨h1, h2⟩ := decPair_ok hd
    have h2' := (pairFits_iff q).mp h2
    have hq1 := h2'.1
    simp only [Spec.MAX_KEY] at hq1
    simp only [decPair, encPair, List.append_assoc] at hd
    by_cases hk : p.key.key.length ≤ MAX_VEC_SIZE
    · rw [decKey_enc hk] at hd
      simp only [ok_bind] at hd
      simp only [bind_ok, mapErr_ok] at hd
      obtain ⟨⟨v, r2⟩, h3, h4⟩ := hd
      obtain ⟨h5, h6⟩ := decVec_ok h3
      have h9 := (vecFits_iff v).mp h6
      simp only [encVec, List.append_assoc] at h5
      have hv : p.value.length < 2 ^ 64 := by
        by_cases hh : 2 ^ 32 ≤ p.value.length
        · have := (encVar_head p.value.length (p.value ++ r)).mpr hh
          rw [h5, encVar_head] at this
          simp only [Spec.MAX_VALUE] at h9
          omega
        · omega
      have h7 := decVar_enc hv (p.value ++ r)
      have h8 := decVar_enc (n := v.length) (by simp only [Spec.MAX_VALUE] at h9; omega) (v ++ r2)
      rw [h5, h8] at h7
      simp only [Except.ok.injEq, Prod.mk.injEq] at h7
      exact h ⟨hk, by omega⟩
    · have h64 : p.key.key.length + 1 < 2 ^ 64 := by
        by_cases hh : 2 ^ 32 ≤ p.key.key.length + 1
        · have := (encVar_head (p.key.key.length + 1) (p.key.ty :: p.key.key ++ encVec p.value ++ r)).mpr hh
          have e : encVar (p.key.key.length + 1) ++ (p.key.ty :: p.key.key ++ encVec p.value ++ r) =
            encVar (q.key.key.length + 1) ++ (q.key.ty :: q.key.key ++ encVec q.value ++ r') := by
            simpa [encPair, encKey] using h1
          rw [e, encVar_head] at this
          omega
        · omega
      simp only [decKey, encKey, List.append_assoc] at hd
      rw [decVar_enc h64] at hd
      simp only [mapErr_of_ok, ok_bind] at hd
      rw [if_neg (by omega), if_pos (by omega)] at hd
      cases hd

example : Spec.PairOk ⟨⟨0x02, [1, 2, 3]⟩, [9, 9]⟩ := by decide
example : decPair ([4, 0x02, 1, 2, 3, 2, 9, 9] ++ [5]) = .ok (⟨⟨0x02, [1, 2, 3]⟩, [9, 9]⟩, [5]) := by decide

/-! ### C03 -/

/-- C03. The raw key of a proprietary key: type 0xFC; compact size of the prefix, prefix, subtype byte, key data. -/
theorem C03_format (k : PropKey) (h : Spec.PropOk k) :
    ∃ a, k.toKey = ⟨0xFC, a ++ k.pre ++ [k.subtype] ++ k.key⟩ ∧ Spec.IsCompactSize k.pre.length a := by
  have h1 := h.1
  simp only [Spec.MAX_VALUE] at h1
  exact ⟨_, by simp [PropKey.toKey, encProp, encVec], isCompactSize_encVar (by omega)⟩

/-- C03. A raw key is read as a proprietary key exactly if it is one that is written for a proprietary key within the
limits; in particular its type is 0xFC and nothing is left over or missing. -/
theorem C03_read_iff (r : RawKey) (k : PropKey) : PropKey.ofKey r = .ok k ↔ r = k.toKey ∧ Spec.PropOk k := by
  rw [← propFits_iff]
  constructor
  · intro h
    exact PropKey.ofKey_ok h
  · rintro ⟨rfl, h⟩
    exact PropKey.ofKey_toKey h

/-- C03. Within the limits, converting to a raw key and back gives the same key. -/
theorem C03_roundtrip (k : PropKey) (h : Spec.PropOk k) : PropKey.ofKey k.toKey = .ok k :=
  (C03_read_iff _ _).mpr ⟨rfl, h⟩

/-- C03. Keys of another type are refused with the dedicated error. -/
theorem C03_wrong_type (r : RawKey) (h : r.ty ≠ 0xFC) : PropKey.ofKey r = .error .invalidProprietaryKey := by
  simp [PropKey.ofKey, h]

/-- C03. Key data beyond 1024 bytes is written but cannot be read back. -/
theorem C03_long_key_data_unreadable (k : PropKey) (h1 : k.pre.length ≤ Spec.MAX_VALUE) (h2 : 1024 < k.key.length) :
    PropKey.ofKey k.toKey = .error (.consensus .parseFailed) := by
  simp only [PropKey.ofKey, PropKey.toKey, ne_eq, not_true_eq_false, if_false, consensusDeser, decProp, encProp]
  rw [decVec_enc ((vecFits_iff _).mpr h1)]
  simp only [ok_bind, decU8_cons]
  cases hd : k.key.drop PROP_KEY_LIMIT with
  | nil =>
    have := congrArg List.length hd
    simp only [List.length_drop, PROP_KEY_LIMIT, List.length_nil] at this
    omega
  | cons a t => simp [mapErr]

example : Spec.PropOk ⟨[0x61, 0x62], 7, [1, 2]⟩ := by decide
example : PropKey.ofKey ⟨0xFC, [2, 0x61, 0x62, 7, 1, 2]⟩ = .ok ⟨[0x61, 0x62], 7, [1, 2]⟩ := by decide

/-! ### C04 -/

/-- The codec reads every value of up to 4,000,000 bytes back from the bytes written for it; and what is read from any
bytes is written in no more bytes and read back. -/
def Spec.RoundTrips {α : Type} (ser : α → Bytes) (deser : Bytes → Except SerErr α) : Prop :=
  (∀ a, (ser a).length ≤ 4000000 → deser (ser a) = .ok a) ∧
  (∀ b a, deser b = .ok a → (ser a).length ≤ b.length) ∧
  (∀ b a, b.length ≤ 4000000 → deser b = .ok a → deser (ser a) = .ok a)

/-- The codec reads exactly the bytes it writes: no other bytes denote a value. -/
def Spec.Exact {α : Type} (ser : α → Bytes) (deser : Bytes → Except SerErr α) : Prop :=
  ∀ b a, deser b = .ok a → b = ser a

theorem LawfulCodec.roundTrips {α : Type} {c : Codec α} (h : LawfulCodec c) : Spec.RoundTrips c.ser c.deser :=
  ⟨h.rt, h.shrink, fun _ _ hb hd => h.stable hd hb⟩

/-- C04. Every value type of PSBT fields round-trips. -/
theorem C04_roundtrip (L : Lib) :
    Spec.RoundTrips keySourceCodec.ser keySourceCodec.deser ∧
    Spec.RoundTrips u32Codec.ser u32Codec.deser ∧
    Spec.RoundTrips heightCodec.ser heightCodec.deser ∧
    Spec.RoundTrips timeCodec.ser timeCodec.deser ∧
    Spec.RoundTrips amountCodec.ser amountCodec.deser ∧
    Spec.RoundTrips (ecdsaSigCodec L).ser (ecdsaSigCodec L).deser ∧
    Spec.RoundTrips tapSigCodec.ser tapSigCodec.deser ∧
    Spec.RoundTrips (pubkeyCodec L).ser (pubkeyCodec L).deser ∧
    Spec.RoundTrips (secpPkCodec L).ser (secpPkCodec L).deser ∧
    Spec.RoundTrips (xonlyCodec L).ser (xonlyCodec L).deser ∧
    Spec.RoundTrips (ctrlCodec L).ser (ctrlCodec L).deser ∧
    Spec.RoundTrips (xonlyLeafCodec L).ser (xonlyLeafCodec L).deser ∧
    Spec.RoundTrips leafScriptCodec.ser leafScriptCodec.deser ∧
    Spec.RoundTrips tapOriginCodec.ser tapOriginCodec.deser ∧
    Spec.RoundTrips (tapTreeCodec L).ser (tapTreeCodec L).deser ∧
    Spec.RoundTrips witnessCodec.ser witnessCodec.deser ∧
    Spec.RoundTrips txCodec.ser txCodec.deser ∧
    Spec.RoundTrips txOutCodec.ser txOutCodec.deser ∧
    Spec.RoundTrips dleqCodec.ser dleqCodec.deser ∧
    (∀ n, Spec.RoundTrips (hashCodec n).ser (hashCodec n).deser) :=
  ⟨lawful_keySource.roundTrips, lawful_u32.roundTrips, lawful_height.roundTrips, lawful_time.roundTrips,
   lawful_amount.roundTrips, (lawful_ecdsaSig L).roundTrips, lawful_tapSig.roundTrips,
   (lawful_foreign _ _).roundTrips, (lawful_foreign _ _).roundTrips, (lawful_foreign _ _).roundTrips,
   (lawful_foreign _ _).roundTrips,
   (lawful_xonlyLeaf L).roundTrips, lawful_leafScript.roundTrips, lawful_tapOrigin.roundTrips,
   (lawful_tapTree L).roundTrips, lawful_witness.roundTrips, lawful_tx.roundTrips, lawful_txOut.roundTrips,
   lawful_dleq.roundTrips, fun n => (lawful_hash n).roundTrips⟩

/-- C04. These codecs accept no other bytes than the ones they write (nothing left over, nothing missing). The
taproot signature codec is not among them: 64 bytes followed by a zero byte also denote the default sighash type. -/
theorem C04_exact :
    Spec.Exact u32Codec.ser u32Codec.deser ∧
    Spec.Exact amountCodec.ser amountCodec.deser ∧
    Spec.Exact witnessCodec.ser witnessCodec.deser ∧
    Spec.Exact txCodec.ser txCodec.deser ∧
    Spec.Exact txOutCodec.ser txOutCodec.deser ∧
    Spec.Exact keySourceCodec.ser keySourceCodec.deser ∧
    Spec.Exact leafScriptCodec.ser leafScriptCodec.deser ∧
    Spec.Exact tapOriginCodec.ser tapOriginCodec.deser ∧
    Spec.Exact dleqCodec.ser dleqCodec.deser := by
  refine ⟨fun _ _ h => consensusCodec_exact (fun _ _ _ h => decU32_ok h) h,
    fun _ _ h => consensusCodec_exact (fun _ _ _ h => decU64_ok h) h,
    fun _ _ h => consensusCodec_exact (fun _ _ _ h => (decWitness_ok h).1) h,
    fun _ _ h => consensusCodec_exact (fun _ _ _ h => (decTx_ok h).1) h,
    fun _ _ h => consensusCodec_exact (fun _ _ _ h => (decTxOut_ok h).1) h,
    fun _ _ h => keySource_exact h, ?_, ?_, ?_⟩
  · intro b a h
    exact leafScript_exact h
  · intro b a h
    exact tapOrigin_exact h
  · intro b a h
    simp only [dleqCodec] at h
    split at h
    · cases h; rfl
    · cases h

theorem isLE32_encU32 (n : UInt32) : Spec.IsLE32 n (encU32 n) := by
  refine ⟨by simp, ?_⟩
  rw [leValue_eq, encU32, leDec_leEnc_of_lt]
  have := n.toNat_lt
  omega

theorem isLE64_encU64 (n : UInt64) : Spec.IsLE64 n (encU64 n) := by
  refine ⟨by simp, ?_⟩
  rw [leValue_eq, encU64, leDec_leEnc_of_lt]
  have := n.toNat_lt
  omega

theorem encU32_of_isLE32 {n : UInt32} {x : Bytes} (h : Spec.IsLE32 n x) : x = encU32 n := by
  obtain ⟨h1, h2⟩ := h
  rw [leValue_eq] at h2
  rw [encU32, ← h2, leEnc_leDec' h1]

/-- C04. The written form of the values: numbers in little endian (4 bytes; amounts 8), a key origin is the fingerprint
followed by 4 bytes per child number, an ECDSA signature is the DER signature followed by its type byte, a taproot
signature is the 64 bytes followed by its type byte unless that is the default, a leaf script is the script followed by
the leaf version, a taproot leaf key is the x-only key followed by the leaf hash, a taproot key origin is the compact
size of the number of leaf hashes, the hashes and the key origin. -/
theorem C04_format (L : Lib) :
    (∀ n, Spec.IsLE32 n (u32Codec.ser n)) ∧
    (∀ n, Spec.IsLE64 n (amountCodec.ser n)) ∧
    (∀ k : KeySource, ∃ cs : List Bytes, keySourceCodec.ser k = k.1.1 ++ cs.flatten ∧ cs.length = k.2.length ∧
      ∀ j (h1 : j < cs.length) (h2 : j < k.2.length), Spec.IsLE32 k.2[j] cs[j]) ∧
    (∀ s : EcdsaSig L, (ecdsaSigCodec L).ser s = s.der.bytes ++ [s.ty.1]) ∧
    (∀ s : TapSig, tapSigCodec.ser s = s.sig.1 ++ (if s.ty.1 = 0 then [] else [s.ty.1])) ∧
    (∀ p : Bytes × LeafVersion, leafScriptCodec.ser p = p.1 ++ [p.2.1]) ∧
    (∀ p : L.xonly.T × Hash32, (xonlyLeafCodec L).ser p = p.1.bytes ++ p.2.1) ∧
    (∀ p : List Hash32 × KeySource, p.1.length < 2 ^ 64 → ∃ a, Spec.IsCompactSize p.1.length a ∧
      tapOriginCodec.ser p = a ++ (p.1.map (·.1)).flatten ++ keySourceCodec.ser p.2) := by
  refine ⟨isLE32_encU32, isLE64_encU64, ?_, fun _ => rfl, ?_, fun _ => rfl, fun _ => rfl, ?_⟩
  · intro k
    refine ⟨k.2.map encU32, by simp [keySourceCodec, List.flatMap], by simp, ?_⟩
    intro j h1 h2
    rw [List.getElem_map]
    exact isLE32_encU32 _
  · intro s
    simp only [tapSigCodec]
    split <;> simp
  · intro p h
    exact ⟨_, isCompactSize_encVar h, by simp [tapOriginCodec, encList, List.flatMap]⟩

/-- C04. Taproot signatures: exactly 64 bytes, or 64 bytes and a type byte. -/
theorem C04_tap_signature_iff (b : Bytes) (s : TapSig) :
    tapSigCodec.deser b = .ok s ↔ (b = s.sig.1 ∧ s.ty.1 = 0) ∨ b = s.sig.1 ++ [s.ty.1] := by
  obtain ⟨⟨g, hg⟩, ⟨t, ht⟩⟩ := s
  simp only [tapSigCodec]
  constructor
  · intro h
    split at h
    · cases h; simp
    · split at h
      · split at h
        · cases h
        · rename_i t' ht'
          split at h
          · cases h
            right
            obtain ⟨l, rfl⟩ := List.getLast?_eq_some_iff.mp ht'
            simp
          · cases h
      · cases h
  · rintro (⟨rfl, rfl⟩ | rfl)
    · simp [hg]
    · simp [hg, ht]

example : keySourceCodec.deser [1, 2, 3, 4, 5, 0, 0, 0x80] = .ok (⟨[1, 2, 3, 4], rfl⟩, [0x80000005]) := by decide
example : keySourceCodec.deser [1, 2, 3, 4, 5, 0, 0] = .error (.consensus .eof) := by decide

/-! ### C05 -/

theorem heightCodec_deser (b : Bytes) (h : Height) :
    heightCodec.deser b = .ok h ↔ b = encU32 h.1 := by
  simp only [heightCodec, bind_ok, mapErr_ok]
  constructor
  · rintro ⟨n, h1, h2⟩
    split at h2
    · cases h2; exact consensusDeser_u32_ok h1
    · cases h2
  · rintro rfl
    exact ⟨h.1, consensusDeser_u32 _, by simp [h.2]⟩

theorem timeCodec_deser (b : Bytes) (h : Time) :
    timeCodec.deser b = .ok h ↔ b = encU32 h.1 := by
  simp only [timeCodec, bind_ok, mapErr_ok]
  constructor
  · rintro ⟨n, h1, h2⟩
    split at h2
    · cases h2; exact consensusDeser_u32_ok h1
    · cases h2
  · rintro rfl
    exact ⟨h.1, consensusDeser_u32 _, by simp [h.2]⟩

/-- C05. A required height is accepted exactly from four bytes whose little-endian value is below 500,000,000, and it is
that value. -/
theorem C05_height_iff (b : Bytes) (n : Nat) :
    (∃ h, heightCodec.deser b = .ok h ∧ h.1.toNat = n) ↔ b.length = 4 ∧ Spec.leValue b = n ∧ n < 500000000 := by
  constructor
  · rintro ⟨h, h1, rfl⟩
    rw [heightCodec_deser] at h1
    subst h1
    have := isLE32_encU32 h.1
    refine ⟨this.1, this.2, ?_⟩
    have := h.2
    rw [UInt32.lt_iff_toNat_lt] at this
    exact this
  · rintro ⟨h1, h2, h3⟩
    have h4 : (UInt32.ofNat n).toNat = n := UInt32.toNat_ofNat_of_lt' (by simp [UInt32.size]; omega)
    refine ⟨⟨UInt32.ofNat n, ?_⟩, ?_, h4⟩
    · rw [UInt32.lt_iff_toNat_lt, h4]; exact h3
    · rw [heightCodec_deser]
      exact encU32_of_isLE32 ⟨h1, by rw [h2, h4]⟩

/-- C05. A required time is accepted exactly from four bytes whose little-endian value is at least 500,000,000. -/
theorem C05_time_iff (b : Bytes) (n : Nat) :
    (∃ t, timeCodec.deser b = .ok t ∧ t.1.toNat = n) ↔ b.length = 4 ∧ Spec.leValue b = n ∧ 500000000 ≤ n := by
  constructor
  · rintro ⟨h, h1, rfl⟩
    rw [timeCodec_deser] at h1
    subst h1
    have := isLE32_encU32 h.1
    refine ⟨this.1, this.2, ?_⟩
    have := h.2
    rw [UInt32.le_iff_toNat_le] at this
    exact this
  · rintro ⟨h1, h2, h3⟩
    have hb : n < 2 ^ 32 := by
      have := leDec_lt b
      rw [← leValue_eq, h1, h2] at this
      omega
    have h4 : (UInt32.ofNat n).toNat = n := UInt32.toNat_ofNat_of_lt' (by simp [UInt32.size]; omega)
    refine ⟨⟨UInt32.ofNat n, ?_⟩, ?_, h4⟩
    · rw [UInt32.le_iff_toNat_le, h4]; exact h3
    · rw [timeCodec_deser]
      exact encU32_of_isLE32 ⟨h1, by rw [h2, h4]⟩

example : heightCodec.deser [0xff, 0x64, 0xcd, 0x1d] = .ok ⟨499999999, by decide⟩ := by decide
example : heightCodec.deser [0x00, 0x65, 0xcd, 0x1d] = .error (.lockTime 500000000) := by decide
example : timeCodec.deser [0x00, 0x65, 0xcd, 0x1d] = .ok ⟨500000000, by decide⟩ := by decide

/-! ### C53 -/

/-- C53. The version field is accepted exactly from four bytes whose little-endian value is 0 or 2. -/
theorem C53_version_iff (b : Bytes) (n : Nat) :
    (∃ v, versionCodec.deser b = .ok v ∧ v.toNat = n) ↔ b.length = 4 ∧ Spec.leValue b = n ∧ (n = 0 ∨ n = 2) := by
  have key : ∀ v, versionCodec.deser b = .ok v ↔ b = encU32 v ∧ (v = 0 ∨ v = 2) := by
    intro v
    simp only [versionCodec, bind_ok, mapErr_ok]
    constructor
    · rintro ⟨n, h1, h2⟩
      split at h2
      · rename_i hv
        cases h2; exact ⟨consensusDeser_u32_ok h1, hv⟩
      · cases h2
    · rintro ⟨rfl, hv⟩
      exact ⟨v, consensusDeser_u32 _, by simp [hv]⟩
  constructor
  · rintro ⟨v, h1, rfl⟩
    rw [key] at h1
    obtain ⟨rfl, hv⟩ := h1
    have := isLE32_encU32 v
    refine ⟨this.1, this.2, ?_⟩
    rcases hv with rfl | rfl <;> decide
  · rintro ⟨h1, h2, rfl | rfl⟩
    · exact ⟨0, (key _).mpr ⟨encU32_of_isLE32 ⟨h1, h2⟩, .inl rfl⟩, rfl⟩
    · exact ⟨2, (key _).mpr ⟨encU32_of_isLE32 ⟨h1, h2⟩, .inr rfl⟩, rfl⟩

/-- C53. What is written for a version is read back as that version. -/
theorem C53_version_roundtrip (v : UInt32) (h : v = 0 ∨ v = 2) : versionCodec.deser (versionCodec.ser v) = .ok v := by
  simp [versionCodec, consensusDeser_u32, h, Bind.bind, Except.bind]

/-- C53. Any other number is refused, naming the number. -/
theorem C53_other_versions_rejected {b : Bytes} {n : UInt32} (h : Spec.IsLE32 n b) (h0 : n ≠ 0) (h2 : n ≠ 2) :
    versionCodec.deser b = .error (.unsupportedVersion n) := by
  rw [encU32_of_isLE32 h]
  simp [versionCodec, consensusDeser_u32, h0, h2, Bind.bind, Except.bind]

example : versionCodec.deser [1, 0, 0, 0] = .error (.unsupportedVersion 1) := by decide

end Psbt
