/- C73: the string form of a PSBT. -/
import Verif.Lemmas.Base64
import Verif.Props.V2Parse
import Verif.Props.V0Parse
namespace Psbt

/-- A string of the tests. -/
def ascii (s : String) : Bytes := s.toList.map fun c => c.toNat.toUInt8

/-! The examples of RFC 4648, and strings that are the base64 form of nothing: wrong length, missing padding, bits that are left over, a
character outside of the alphabet, padding inside. -/
example : Spec.Base64 (ascii "foobar") (ascii "Zm9vYmFy") := Spec.encode_iff.1 (by decide +kernel)
example : Spec.Base64 (ascii "fooba") (ascii "Zm9vYmE=") := Spec.encode_iff.1 (by decide +kernel)
example : Spec.Base64 (ascii "foob") (ascii "Zm9vYg==") := Spec.encode_iff.1 (by decide +kernel)
example : Spec.Base64 (ascii "\x00\x10\x83\xff\xfb") (ascii "ABCD//s=") := Spec.encode_iff.1 (by decide +kernel)
example : ∀ s ∈ ["Zm9vYg=", "Zm9vYg", "Zm9vYh==", "Zm9vYmF=", "Zm9v Yg=", "Zm==Yg==", "Zm9vY===", "Zm9vYg==\n", "Zm9-", "===="],
    ∀ b, ¬ Spec.Base64 b (ascii s) := by
  have : ∀ s ∈ ["Zm9vYg=", "Zm9vYg", "Zm9vYh==", "Zm9vYmF=", "Zm9v Yg=", "Zm==Yg==", "Zm9vY===", "Zm9vYg==\n", "Zm9-", "===="],
    b64Decode (ascii s) = none := by decide +kernel
  exact fun s hs => Spec.decode_none.1 (this s hs)

/-- C73. Every byte string has one base64 form, and no two have the same. -/
theorem C73_base64_bijective :
    (∀ b, ∃ s, Spec.Base64 b s) ∧ (∀ {b s t}, Spec.Base64 b s → Spec.Base64 b t → s = t) ∧
      (∀ {b c s}, Spec.Base64 b s → Spec.Base64 c s → b = c) :=
  ⟨fun b => ⟨_, Spec.base64_encode b⟩, Spec.base64_unique, Spec.base64_data_unique⟩

namespace V2
variable {L : Lib}

/-- C73. A PSBT v2 displays as the base64 form of its serialisation. -/
theorem C73_v2_display (p : Psbt L) : Spec.Base64 p.serialize p.toText := Spec.base64_encode _

/-- C73. A string parses to a PSBT v2 exactly if it is the base64 form of bytes that deserialise to that PSBT. -/
theorem C73_v2_parses_iff (s : Bytes) (p : Psbt L) :
    Psbt.ofText L s = .ok p ↔ ∃ b, Spec.Base64 b s ∧ Psbt.deserialize L b = .ok p := by
  unfold Psbt.ofText
  cases hd : b64Decode s with
  | none => simp [Spec.decode_none.1 hd]
  | some b =>
    have hb := Spec.decode_iff.1 hd
    have : (∃ c, Spec.Base64 c s ∧ Psbt.deserialize L c = .ok p) ↔ Psbt.deserialize L b = .ok p :=
      ⟨fun ⟨c, h1, h2⟩ => Spec.base64_data_unique h1 hb ▸ h2, fun h => ⟨b, hb, h⟩⟩
    rw [this]
    simp only
    split <;> rename_i h <;> simp [h]

/-- C73. The base64 error is given exactly to the strings that are the base64 form of nothing; any other string that does not parse gives
the error (or the panic) of deserialising the bytes it stands for. -/
theorem C73_v2_error_iff (s : Bytes) :
    (Psbt.ofText L s = .error (.err .base64Encoding) ↔ ∀ b, ¬ Spec.Base64 b s) ∧
    (∀ e, Psbt.ofText L s = .error (.err (.psbtEncoding e)) ↔ ∃ b, Spec.Base64 b s ∧ Psbt.deserialize L b = .error (.err e)) ∧
    (∀ w, Psbt.ofText L s = .error (.panic w) ↔ ∃ b, Spec.Base64 b s ∧ Psbt.deserialize L b = .error (.panic w)) := by
  unfold Psbt.ofText
  cases hd : b64Decode s with
  | none => simp [Spec.decode_none.1 hd]
  | some b =>
    have hb := Spec.decode_iff.1 hd
    have hu : ∀ x, (∃ c, Spec.Base64 c s ∧ Psbt.deserialize L c = x) ↔ Psbt.deserialize L b = x :=
      fun x => ⟨fun ⟨c, h1, h2⟩ => Spec.base64_data_unique h1 hb ▸ h2, fun h => ⟨b, hb, h⟩⟩
    have hn : ¬ ∀ c, ¬ Spec.Base64 c s := fun h => h b hb
    simp only [hu, hn, iff_false]
    split <;> rename_i h <;> simp [h]

/-- C73. A PSBT v2 parses back from its string exactly if it parses back from its bytes (C06 says when); and a PSBT v2 that came from
a string parses back from the string it displays as. -/
theorem C73_v2_roundtrip (p : Psbt L) :
    (Psbt.ofText L p.toText = .ok p ↔ Spec.WF p) ∧ (∀ s, Psbt.ofText L s = .ok p → Psbt.ofText L p.toText = .ok p) := by
  have h1 : Psbt.ofText L p.toText = .ok p ↔ Spec.WF p := by
    rw [C73_v2_parses_iff, ← C06_roundtrip_iff]
    exact ⟨fun ⟨b, h1, h2⟩ => Psbt.Spec.base64_data_unique h1 (C73_v2_display p) ▸ h2, fun h => ⟨_, C73_v2_display p, h⟩⟩
  refine ⟨h1, fun s hs => h1.2 ?_⟩
  obtain ⟨b, _, hb⟩ := (C73_v2_parses_iff s p).1 hs
  exact wf_of_deserialize hb

example : Psbt.ofText (Demo.lib false) demo.toText = .ok demo := by decide +kernel
example : demo.toText.take 8 = ascii "cHNidP8B" := by decide +kernel
example : (match Psbt.ofText (Demo.lib false) (ascii "cHNidP8=") with | .error (.err (.psbtEncoding _)) => true | _ => false) = true := by
  decide +kernel
end V2

namespace V0
variable {L : Lib}

/-- C73. A PSBT v0 displays as the base64 form of its serialisation. -/
theorem C73_v0_display (p : Psbt L) : Spec.Base64 p.serialize p.toText := Spec.base64_encode _

/-- C73. A string parses to a PSBT v0 exactly if it is the base64 form of bytes that deserialise to that PSBT. -/
theorem C73_v0_parses_iff (s : Bytes) (p : Psbt L) :
    Psbt.ofText L s = .ok p ↔ ∃ b, Spec.Base64 b s ∧ Psbt.deserialize L b = .ok p := by
  unfold Psbt.ofText
  cases hd : b64Decode s with
  | none => simp [Spec.decode_none.1 hd]
  | some b =>
    have hb := Spec.decode_iff.1 hd
    have : (∃ c, Spec.Base64 c s ∧ Psbt.deserialize L c = .ok p) ↔ Psbt.deserialize L b = .ok p :=
      ⟨fun ⟨c, h1, h2⟩ => Spec.base64_data_unique h1 hb ▸ h2, fun h => ⟨b, hb, h⟩⟩
    rw [this]
    simp only
    split <;> rename_i h <;> simp [h]

/-- C73. The base64 error is given exactly to the strings that are the base64 form of nothing; any other string that does not parse gives
the error (or the panic) of deserialising the bytes it stands for. -/
theorem C73_v0_error_iff (s : Bytes) :
    (Psbt.ofText L s = .error (.err .base64Encoding) ↔ ∀ b, ¬ Spec.Base64 b s) ∧
    (∀ e, Psbt.ofText L s = .error (.err (.psbtEncoding e)) ↔ ∃ b, Spec.Base64 b s ∧ Psbt.deserialize L b = .error (.err e)) ∧
    (∀ w, Psbt.ofText L s = .error (.panic w) ↔ ∃ b, Spec.Base64 b s ∧ Psbt.deserialize L b = .error (.panic w)) := by
  unfold Psbt.ofText
  cases hd : b64Decode s with
  | none => simp [Spec.decode_none.1 hd]
  | some b =>
    have hb := Spec.decode_iff.1 hd
    have hu : ∀ x, (∃ c, Spec.Base64 c s ∧ Psbt.deserialize L c = x) ↔ Psbt.deserialize L b = x :=
      fun x => ⟨fun ⟨c, h1, h2⟩ => Spec.base64_data_unique h1 hb ▸ h2, fun h => ⟨b, hb, h⟩⟩
    have hn : ¬ ∀ c, ¬ Spec.Base64 c s := fun h => h b hb
    simp only [hu, hn, iff_false]
    split <;> rename_i h <;> simp [h]

/-- C73. A PSBT v0 parses back from its string exactly if it parses back from its bytes (C45 says when); and a PSBT v0 that came from
a string parses back from the string it displays as. -/
theorem C73_v0_roundtrip (p : Psbt L) :
    (Psbt.ofText L p.toText = .ok p ↔ Psbt.Spec.V0.WF p) ∧ (∀ s, Psbt.ofText L s = .ok p → Psbt.ofText L p.toText = .ok p) := by
  have h1 : Psbt.ofText L p.toText = .ok p ↔ Psbt.Spec.V0.WF p := by
    rw [C73_v0_parses_iff, ← C45_roundtrip_iff]
    exact ⟨fun ⟨b, h1, h2⟩ => Spec.base64_data_unique h1 (C73_v0_display p) ▸ h2, fun h => ⟨_, C73_v0_display p, h⟩⟩
  refine ⟨h1, fun s hs => h1.2 ?_⟩
  obtain ⟨b, _, hb⟩ := (C73_v0_parses_iff s p).1 hs
  exact wf_of_deserialize hb

example : Psbt.ofText (Demo.lib false) demo.toText = .ok demo := by decide +kernel
end V0

end Psbt
