/- C115: what the parsers complain about is so. -/
import Verif.Lemmas.RefusedPsbt
namespace Psbt
open Spec

/-- C115, proofs of equality of discrete logarithms: the only complaint is about the length, and it gives both the length found
and the one wanted. -/
theorem C115_dleq (b : Bytes) (e : SerErr) : dleqCodec.deser b = .error e ↔ notDleq b e := by
  unfold notDleq dleqCodec
  simp only
  split
  · rename_i h; simp [h]
  · rename_i h; simp [h, eq_comm]

example : dleqCodec.deser [1, 2, 3] = .error (.invalidDleqProof 3 64) := by decide

/-- C115, version numbers: the complaint says whether there are too few or too many bytes, or which number is no version. -/
theorem C115_version {b : Bytes} {e : SerErr} (h : versionCodec.deser b = .error e) : notVersion b e := version_told h

example : versionCodec.deser [1, 0, 0, 0] = .error (.unsupportedVersion 1) := by decide

namespace V2

/-- C115, v2. When parsing ends with an error, then what the error says is so: the bytes are split into maps and pairs up to
the place complained about, and there the pair, or the bytes that should be one, or the map as a whole has the fault the error
names (`Fault2`). The full claim is `Fault2 L b e`. It is false of the code: the second alternative lists the complaints that
are not true, and the theorems below show that each of them is made. -/
theorem C115_told_partial {L : Lib} {b : Bytes} {e : DeserErr} (h : Psbt.deserialize L b = .error (.err e)) :
    Fault2 L b e ∨ Misled2 L b e := psbt_explained h

/-- A global map with the counts in order; `xs` are further pairs. -/
def rGlobal (xs : List Pair) : List Pair :=
  [⟨⟨0xFB, []⟩, [2, 0, 0, 0]⟩, ⟨⟨0x02, []⟩, [2, 0, 0, 0]⟩, ⟨⟨0x04, []⟩, [1]⟩, ⟨⟨0x05, []⟩, [1]⟩] ++ xs
/-- An input map in order; `xs` are further pairs. -/
def rInput (xs : List Pair) : List Pair :=
  [⟨⟨0x0e, []⟩, List.replicate 32 7⟩, ⟨⟨0x0f, []⟩, [1, 0, 0, 0]⟩] ++ xs
/-- The PSBT made of these maps. -/
def rPsbt (ms : List (List Pair)) : Bytes := HEAD ++ ms.flatMap mapBytes
/-- The keys of these pairs. -/
def rKeys (ps : List Pair) : List RawKey := ps.map Pair.key

-- Each place and each kind of complaint occurs.
example : Psbt.deserialize (Demo.lib true) (rPsbt [rGlobal [⟨⟨0x03, []⟩, [1, 2]⟩]]) =
    .error (.err (.decodeGlobal (.insertPair (.valueWrongLength 2 4)))) := by decide +kernel
example : Psbt.deserialize (Demo.lib true) (rPsbt [rGlobal [], rInput [⟨⟨0x02, [1]⟩, [1, 2]⟩]]) =
    .error (.err (.decodeInput (.insertPair (.deser .invalidPublicKey)))) := by decide +kernel
example : Psbt.deserialize (Demo.lib true) (rPsbt [rGlobal [], rInput [], [⟨⟨0x00, []⟩, []⟩, ⟨⟨0x00, []⟩, []⟩]]) =
    .error (.err (.decodeOutput (.insertPair (.duplicateKey ⟨0x00, []⟩)))) := by decide +kernel
example : Psbt.deserialize (Demo.lib true) (rPsbt [rGlobal [], rInput []] ++ [0x05, 0x00]) =
    .error (.err (.decodeOutput (.deserPair (.consensus .eof)))) := by decide +kernel
example : Psbt.deserialize (Demo.lib true) (rPsbt [rGlobal [], rInput [], []]) =
    .error (.err (.decodeOutput .missingValue)) := by decide +kernel

/-- C115, untrue: no key occurs twice, but the number of inputs is called a duplicate, because it comes after the number of
outputs. -/
theorem C115_count_called_duplicate :
    ∃ (L : Lib) (ps : List Pair), (rKeys ps).Nodup ∧
      Psbt.deserialize L (rPsbt [ps]) = .error (.err (.decodeGlobal (.insertPair (.duplicateKey ⟨0x04, []⟩)))) :=
  ⟨Demo.lib true, [⟨⟨0x05, []⟩, [1]⟩, ⟨⟨0x04, []⟩, [1]⟩], by decide, by decide +kernel⟩

/-- C115, untrue: the key of an extended public key must have key data, and this one has none that is wrong; what is wrong is the
empty value, but the complaint is about key data. -/
theorem C115_xpub_called_key_data :
    ∃ (L : Lib) (k : RawKey), L.xpub.parse k.key ≠ none ∧
      Psbt.deserialize L (rPsbt [[⟨k, []⟩]]) = .error (.err (.decodeGlobal (.insertPair (.invalidKeyDataNotEmpty k)))) :=
  ⟨Demo.lib true, ⟨0x01, List.replicate 78 1⟩, by decide +kernel, by decide +kernel⟩

/-- A library that takes some of the strings of 33 bytes as public keys. -/
def rKey : Foreign where
  dec b := if b.length = 33 ∧ b.head? = some 2 then some b else none
  ord := inferInstance
  canon b c h := by
    split at h
    · cases h; rename_i h; simp [h]
    · cases h
  shrink b c h := by
    split at h
    · cases h; exact Nat.le_refl _
    · cases h
  nonempty b c h := by
    split at h
    · cases h; rename_i h; intro e; rw [e] at h; simp at h
    · cases h

/-- C115, untrue: a scan key has the length it should have, but is said not to have it. -/
theorem C115_scan_key_called_short :
    ∃ (L : Lib) (p : Pair), p.key.key.length = 33 ∧
      Psbt.deserialize L (rPsbt [[p]]) = .error (.err (.decodeGlobal (.insertPair (.keyWrongLength 33 33)))) :=
  ⟨{ Demo.lib true with compressed := rKey }, ⟨⟨0x07, List.replicate 33 1⟩, List.replicate 33 2⟩, by decide, by decide +kernel⟩

/-- C115, untrue: so is an ECDH share. -/
theorem C115_share_called_short :
    ∃ (L : Lib) (p : Pair), p.value.length = 33 ∧
      Psbt.deserialize L (rPsbt [[p]]) = .error (.err (.decodeGlobal (.insertPair (.valueWrongLength 33 33)))) :=
  ⟨{ Demo.lib true with compressed := rKey }, ⟨⟨0x07, List.replicate 33 2⟩, List.replicate 33 1⟩, by decide, by decide +kernel⟩

/-- C115, untrue: the input names a transaction, but is said not to. -/
theorem C115_txid_called_missing :
    ∃ (L : Lib) (ps : List Pair), Has 0x0e ps ∧
      Psbt.deserialize L (rPsbt [rGlobal [], ps]) = .error (.err (.decodeInput .missingPreviousTxid)) :=
  ⟨Demo.lib true, [⟨⟨0x0e, []⟩, List.replicate 32 0⟩, ⟨⟨0x0f, []⟩, [1, 0, 0, 0]⟩], ⟨_, List.mem_cons_self, rfl⟩, by decide +kernel⟩

/-- C115, untrue: the input names an output, but is said not to. -/
theorem C115_index_called_missing :
    ∃ (L : Lib) (ps : List Pair), Has 0x0f ps ∧
      Psbt.deserialize L (rPsbt [rGlobal [], ps]) = .error (.err (.decodeInput .missingSpentOutputIndex)) :=
  ⟨Demo.lib true, [⟨⟨0x0f, []⟩, [0xff, 0xff, 0xff, 0xff]⟩, ⟨⟨0x0e, []⟩, List.replicate 32 7⟩], ⟨_, List.mem_cons_self, rfl⟩,
    by decide +kernel⟩

/-- C115, untrue: the output has an amount, but is said to have none. -/
theorem C115_amount_called_missing :
    ∃ (L : Lib) (ps : List Pair), Has 0x03 ps ∧
      Psbt.deserialize L (rPsbt [rGlobal [], rInput [], ps]) = .error (.err (.decodeOutput .missingValue)) :=
  ⟨Demo.lib true, [⟨⟨0x03, []⟩, List.replicate 8 0⟩, ⟨⟨0x04, []⟩, [0x6a]⟩], ⟨_, List.mem_cons_self, rfl⟩, by decide +kernel⟩

/-- C115, untrue: the output has a script, but is said to have none. -/
theorem C115_script_called_missing :
    ∃ (L : Lib) (ps : List Pair), Has 0x04 ps ∧
      Psbt.deserialize L (rPsbt [rGlobal [], rInput [], ps]) = .error (.err (.decodeOutput .missingScriptPubkey)) :=
  ⟨Demo.lib false, [⟨⟨0x04, []⟩, []⟩, ⟨⟨0x03, []⟩, List.replicate 8 1⟩], ⟨_, List.mem_cons_self, rfl⟩, by decide +kernel⟩

/-- C115, untrue: no key occurs twice, but one is called a duplicate, because its type occurred before: for the id and the index
of the output spent. -/
theorem C115_input_key_called_duplicate (k : RawKey) (hk : k = ⟨0x0e, [1]⟩ ∨ k = ⟨0x0f, [1]⟩) :
    ∃ (L : Lib) (ps : List Pair), (rKeys ps).Nodup ∧
      Psbt.deserialize L (rPsbt [rGlobal [], ps]) = .error (.err (.decodeInput (.insertPair (.duplicateKey k)))) := by
  rcases hk with rfl | rfl
  · exact ⟨Demo.lib true, rInput [⟨⟨0x0e, [1]⟩, List.replicate 32 7⟩], by decide, by decide +kernel⟩
  · exact ⟨Demo.lib true, rInput [⟨⟨0x0f, [1]⟩, [1, 0, 0, 0]⟩], by decide, by decide +kernel⟩

/-- C115, untrue: the same for the amount and the script of an output and for its silent payment fields. -/
theorem C115_output_key_called_duplicate (k : RawKey) (hk : k = ⟨0x03, [1]⟩ ∨ k = ⟨0x04, [1]⟩ ∨ k = ⟨0x09, [1]⟩ ∨ k = ⟨0x0a, [1]⟩) :
    ∃ (L : Lib) (ps : List Pair), (rKeys ps).Nodup ∧
      Psbt.deserialize L (rPsbt [rGlobal [], rInput [], ps]) = .error (.err (.decodeOutput (.insertPair (.duplicateKey k)))) := by
  rcases hk with rfl | rfl | rfl | rfl
  · exact ⟨Demo.lib true, [⟨⟨0x03, []⟩, List.replicate 8 1⟩, ⟨⟨0x03, [1]⟩, List.replicate 8 1⟩], by decide, by decide +kernel⟩
  · exact ⟨Demo.lib true, [⟨⟨0x04, []⟩, [1]⟩, ⟨⟨0x04, [1]⟩, [1]⟩], by decide, by decide +kernel⟩
  · exact ⟨Demo.lib true, [⟨⟨0x09, []⟩, List.replicate 66 2⟩, ⟨⟨0x09, [1]⟩, List.replicate 66 2⟩], by decide, by decide +kernel⟩
  · exact ⟨Demo.lib true, [⟨⟨0x0a, []⟩, List.replicate 4 1⟩, ⟨⟨0x0a, [1]⟩, List.replicate 4 1⟩], by decide, by decide +kernel⟩

end V2

namespace V0

/-- C115, v0. When parsing ends with an error, then what the error says is so: the bytes are split into maps and pairs up to
the place complained about, and there the pair, or the bytes that should be one, or the map as a whole has the fault the error
names (`Fault0`). -/
theorem C115_told {L : Lib} {b : Bytes} {e : Err} (h : Psbt.deserialize L b = .error (.err e)) : Fault0 L b e := psbt_explained h

/-- A transaction with one input, with this script sig, and one output. -/
def rTx (s : Bytes) : Tx := ⟨2, 0, [⟨⟨Demo.rep 32 7, 0⟩, s, 0, []⟩], [⟨1, [0x51]⟩]⟩
/-- A global map with it; `xs` are further pairs. -/
def rGlobal (s : Bytes) (xs : List Pair) : List Pair := ⟨⟨0x00, []⟩, unsignedTxBytes (rTx s)⟩ :: xs

-- Each place and each kind of complaint occurs.
example : Psbt.deserialize (Demo.lib true) (V2.rPsbt [rGlobal [] [⟨⟨0x05, []⟩, [1]⟩]]) = .error (.err (.excludedKey 0x05)) := by
  decide +kernel
example : Psbt.deserialize (Demo.lib true) (V2.rPsbt [rGlobal [] [], [⟨⟨0x02, [1]⟩, [1, 2]⟩]]) =
    .error (.err (.ser .invalidPublicKey)) := by decide +kernel
example : Psbt.deserialize (Demo.lib true) (V2.rPsbt [rGlobal [] [], [], [⟨⟨0x00, []⟩, []⟩, ⟨⟨0x00, []⟩, []⟩]]) =
    .error (.err (.duplicateKey ⟨0x00, []⟩)) := by decide +kernel
example : Psbt.deserialize (Demo.lib true) (V2.rPsbt [rGlobal [] [], []] ++ [0x05, 0x00]) =
    .error (.err (.ser (.consensus .eof))) := by decide +kernel
example : Psbt.deserialize (Demo.lib true) (V2.rPsbt [[]]) = .error (.err .mustHaveUnsignedTx) := by decide +kernel
example : Psbt.deserialize (Demo.lib true) (V2.rPsbt [rGlobal [0x51] []]) = .error (.err .unsignedTxHasScriptSigs) := by
  decide +kernel

/-! ### C08 -/

/-- The field never complains about the first five bytes. -/
private def Inside (f : Spec.Field Err) : Prop :=
  ∀ ps p x, f.Fault ps p x → x ≠ .invalidMagic ∧ x ≠ .invalidSeparator

private theorem inside_single (w : Spec.Why) : Inside (Spec.single Spec.v0Words w) := by
  rintro ps p x (⟨-, rfl⟩ | ⟨q, -, -, rfl⟩ | ⟨s, -, rfl⟩) <;> exact ⟨nofun, nofun⟩

private theorem inside_keyed (wk : Spec.Why) (same : Bytes → Bytes → Prop) (wv : Spec.Why) :
    Inside (Spec.keyed Spec.v0Words wk same wv) := by
  rintro ps p x ((⟨-, rfl⟩ | ⟨s, -, rfl⟩) | ⟨q, -, -, -, rfl⟩ | ⟨s, -, rfl⟩) <;> exact ⟨nofun, nofun⟩

private theorem inside_preimages (n : Nat) (hash : Bytes → FixedBytes n) (ty : HashTy) :
    Inside (Spec.preimages Spec.v0Words n hash ty) := by
  rintro ps p x ((⟨-, rfl⟩ | ⟨s, -, rfl⟩) | ⟨q, -, -, rfl⟩ | ⟨-, rfl⟩) <;> exact ⟨nofun, nofun⟩

private theorem inside_proprietary : Inside (Spec.proprietary Spec.v0Words) := by
  rintro ps p x (⟨-, c, rfl⟩ | ⟨q, -, -, rfl⟩ | h)
  · exact ⟨nofun, nofun⟩
  · exact ⟨nofun, nofun⟩
  · exact h.elim

private theorem inside_other : Inside (Spec.other Spec.v0Words) := by
  rintro ps p x (h | ⟨q, -, -, rfl⟩ | h)
  · exact h.elim
  · exact ⟨nofun, nofun⟩
  · exact h.elim

private theorem inside_excluded : Inside (Spec.excluded Spec.v0Words) := by
  rintro ps p x (rfl | ⟨q, -, h⟩ | h)
  · exact ⟨nofun, nofun⟩
  · exact h.elim
  · exact h.elim

private theorem inside_ite {c : Prop} [Decidable c] {f g : Spec.Field Err} (hf : Inside f) (hg : Inside g) :
    Inside (if c then f else g) := by
  split
  · exact hf
  · exact hg

private theorem inside_global (L : Lib) (t : UInt8) : Inside (Spec.global0 L t) := by
  refine inside_ite ?_ (inside_ite ?_ (inside_ite inside_excluded (inside_ite ?_
    (inside_ite inside_proprietary inside_other))))
  · rintro ps p x (⟨-, rfl⟩ | ⟨q, -, -, rfl⟩ | ⟨-, c, rfl⟩ | ⟨-, rfl⟩) <;> exact ⟨nofun, nofun⟩
  · rintro ps p x (⟨-, rfl⟩ | ⟨q, -, -, -, rfl⟩ | ⟨-, rfl⟩) <;> exact ⟨nofun, nofun⟩
  · rintro ps p x (⟨-, rfl⟩ | ⟨q, -, -, rfl⟩ | ⟨-, rfl⟩) <;> exact ⟨nofun, nofun⟩

private theorem inside_input (L : Lib) (t : UInt8) : Inside (Spec.input0 L t) := by
  unfold Spec.input0 Spec.input
  repeat' apply inside_ite
  all_goals first
    | exact inside_single _ | exact inside_keyed _ _ _ | exact inside_preimages _ _ _ | exact inside_proprietary
    | exact inside_excluded | exact inside_other

private theorem inside_output (L : Lib) (t : UInt8) : Inside (Spec.output0 L t) := by
  unfold Spec.output0 Spec.output
  repeat' apply inside_ite
  all_goals first
    | exact inside_single _ | exact inside_keyed _ _ _ | exact inside_proprietary
    | exact inside_excluded | exact inside_other

private theorem inside_map {field : UInt8 → Spec.Field Err} (hf : ∀ t, Inside (field t)) {ended : List Pair → Err → Prop}
    (he : ∀ ps e, ended ps e → e = .mustHaveUnsignedTx) {b : Bytes} {e : Err} (h : Spec.MapFault field id .ser ended b e) :
    e ≠ .invalidMagic ∧ e ≠ .invalidSeparator := by
  rcases h with ⟨ps, p, r, x, -, -, -, h, rfl⟩ | ⟨ps, r, c, -, -, -, rfl⟩ | ⟨ps, r, -, -, h⟩
  · exact hf _ _ _ _ h
  · exact ⟨nofun, nofun⟩
  · rw [he _ _ h]; exact ⟨nofun, nofun⟩

/-- Complaints about the first five bytes are about the first five bytes. -/
private theorem front {L : Lib} {b : Bytes} {e : Err} (h : Spec.Fault0 L b e) :
    (e = .invalidMagic → b.take 4 ≠ [0x70, 0x73, 0x62, 0x74]) ∧
    (e = .invalidSeparator → b.take 4 = [0x70, 0x73, 0x62, 0x74] ∧ b[4]? ≠ some 0xff) := by
  cases h with
  | magic h => exact ⟨fun _ => h, nofun⟩
  | separator h h' => exact ⟨nofun, fun _ => ⟨h, h'⟩⟩
  | placed h =>
    suffices hn : e ≠ .invalidMagic ∧ e ≠ .invalidSeparator from ⟨fun h => absurd h hn.1, fun h => absurd h hn.2⟩
    cases h with
    | global h => exact inside_map (inside_global L) (fun _ _ h => h.2) h
    | input _ _ _ h => exact inside_map (inside_input L) (fun _ _ h => h.elim) h
    | output _ _ _ _ h => exact inside_map (inside_output L) (fun _ _ h => h.elim) h
  | scriptSig => exact ⟨nofun, nofun⟩

private theorem starts_magic {b : Bytes} :
    b.take 4 = [0x70, 0x73, 0x62, 0x74] ↔ ∃ r, b = [0x70, 0x73, 0x62, 0x74] ++ r := by
  constructor
  · intro h
    exact ⟨b.drop 4, by have := List.take_append_drop 4 b; rw [h] at this; exact this.symm⟩
  · rintro ⟨r, rfl⟩; rfl

private theorem starts_head {b : Bytes} :
    (b.take 4 = [0x70, 0x73, 0x62, 0x74] ∧ b[4]? = some 0xff) ↔ ∃ r, b = [0x70, 0x73, 0x62, 0x74, 0xff] ++ r := by
  rw [starts_magic]
  constructor
  · rintro ⟨⟨r, rfl⟩, h⟩
    cases r with
    | nil => simp at h
    | cons a r => simp at h; subst h; exact ⟨r, rfl⟩
  · rintro ⟨r, rfl⟩; exact ⟨⟨_, rfl⟩, rfl⟩

/-- C08 for PSBT v0. Only byte strings that start with "psbt" 0xff are parsed. -/
theorem C08_v0_magic_and_separator {L : Lib} {b : Bytes} {p : Psbt L} (h : Psbt.deserialize L b = .ok p) :
    ∃ r, b = [0x70, 0x73, 0x62, 0x74, 0xff] ++ r := by
  rw [deserialize_ok] at h
  obtain ⟨d, _, _, _, h, _⟩ := h
  exact ⟨d, by rw [h]; rfl⟩

/-- C08 for PSBT v0. The magic error is given exactly to byte strings that do not start with "psbt". -/
theorem C08_v0_invalid_magic_iff (L : Lib) (b : Bytes) :
    Psbt.deserialize L b = .error (.err .invalidMagic) ↔ ¬ ∃ r, b = [0x70, 0x73, 0x62, 0x74] ++ r := by
  rw [← starts_magic]
  constructor
  · intro h; exact (front (C115_told h)).1 rfl
  · intro h
    unfold Psbt.deserialize
    rw [if_pos (by exact h)]

/-- C08 for PSBT v0. The separator error is given exactly to byte strings that start with "psbt" but not with "psbt"
0xff. -/
theorem C08_v0_invalid_separator_iff (L : Lib) (b : Bytes) :
    Psbt.deserialize L b = .error (.err .invalidSeparator) ↔
      (∃ r, b = [0x70, 0x73, 0x62, 0x74] ++ r) ∧ ¬ ∃ r, b = [0x70, 0x73, 0x62, 0x74, 0xff] ++ r := by
  rw [← starts_magic, ← starts_head]
  constructor
  · intro h
    obtain ⟨h1, h2⟩ := (front (C115_told h)).2 rfl
    exact ⟨h1, fun h => h2 h.2⟩
  · rintro ⟨h1, h2⟩
    unfold Psbt.deserialize
    have hm : ¬ b.take 4 ≠ V2.MAGIC := fun h => h h1
    rw [if_neg hm, if_pos (fun h => h2 ⟨h1, h⟩)]

example : Psbt.deserialize (Demo.lib false) [0x70, 0x73, 0x62, 0x74] = .error (.err .invalidSeparator) := by decide
example : Psbt.deserialize (Demo.lib false) [0x70, 0x73, 0x62] = .error (.err .invalidMagic) := by decide

end V0
end Psbt
