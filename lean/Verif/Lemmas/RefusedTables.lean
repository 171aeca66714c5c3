/-
The tables of key types: which complaints the insertion of each map can give rise to.
-/
import Verif.Lemmas.RefusedMaps
namespace Psbt
open Spec

theorem expl_tx : Explained txCodec (notWritten txBytes) := by
  have h := expl_written lawful_tx
  rw [txBytes_fun]; exact h

theorem expl_txOut : Explained txOutCodec (notWritten txOutBytes) := by
  have h := expl_written lawful_txOut
  rw [txOutBytes_fun]; exact h

theorem expl_witness : Explained witnessCodec (notWritten witnessBytes) := by
  have h := expl_written lawful_witness
  rw [witnessBytes_fun]; exact h

theorem foreign_alike (F : Foreign) (x : SerErr) (a b : Bytes) (k : F.T) (h1 : (F.codec x).deser a = .ok k)
    (h2 : (F.codec x).deser b = .ok k) : alike F a b := by
  have key : ∀ {c : Bytes}, (F.codec x).deser c = .ok k → F.parse c = some k := by
    intro c h
    simp only [Foreign.codec] at h
    cases hp : F.parse c with
    | none => rw [hp] at h; cases h
    | some y => rw [hp] at h; cases h; rfl
  exact ⟨k, key h1, key h2⟩

theorem keyAndLeaf_alike (L : Lib) (a b : Bytes) (k : L.xonly.T × Hash32) (h1 : (xonlyLeafCodec L).deser a = .ok k)
    (h2 : (xonlyLeafCodec L).deser b = .ok k) : alikeKeyAndLeaf L a b := by
  have key : ∀ {c : Bytes}, (xonlyLeafCodec L).deser c = .ok k → L.xonly.parse (c.take 32) = some k.1 ∧ c.drop 32 = k.2.1 := by
    intro c h
    simp only [xonlyLeafCodec] at h
    split at h
    · cases h
    · simp only [bind_ok] at h
      obtain ⟨x, g1, y, g2, g3⟩ := h
      cases g3
      refine ⟨?_, hashCodec_deser_ok.mp g2⟩
      cases hp : L.xonly.parse (c.take 32) with
      | none => simp [xonlyCodec, Foreign.codec, hp, okOr] at g1
      | some z => simpa [xonlyCodec, Foreign.codec, hp, okOr] using g1
  exact ⟨⟨k.1, (key h1).1, (key h2).1⟩, (key h1).2.trans (key h2).2.symm⟩

namespace V2

/-- Justified, or known to be untrue. -/
def Either (field mis : UInt8 → Field InsErr) (qs : List Pair) (p : Pair) (e : InsErr) : Prop :=
  (field p.key.ty).Fault qs p e ∨ (mis p.key.ty).Fault qs p e

/-- The type of the pairs of a field; 0xff where this is not all there is to say. -/
def glTy : GlSlot → UInt8
  | .version => 0xFB
  | .txVersion => 0x02
  | .fallback => 0x03
  | .txModifiable => 0x06
  | .xpub => 0x01
  | .proprietary => 0xFC
  | .unsignedTx => 0x00
  | _ => 0xff

theorem glTy_inv : ∀ sp x, glTy (glSlot sp x) = 0xff ∨ x = glTy (glSlot sp x) := by
  intro sp; cases sp <;> exact forall_u8 (by decide +kernel)

set_option maxHeartbeats 800000 in
theorem gl_explains (L : Lib) (s : GlSlot) :
    Explains (fun q => (glSys L).slotOf q = s) ((glSys L).step s) ((glSys L).get s (GlobalAcc.start L))
      (Either (global2 L) (globalMisled L)) := by
  have hh : ∀ (s : GlSlot) (t : UInt8), glTy s = t → t ≠ 0xff → ∀ q, (glSys L).slotOf q = s → q.key.ty = t := by
    intro s t h1 h2 q hq
    have hq : glSlot L.sp q.key.ty = s := hq
    have := glTy_inv L.sp q.key.ty
    rw [hq, h1] at this
    exact this.resolve_left h2
  cases s with
  | version =>
    have ht := hh .version 0xFB rfl (by decide)
    refine (explains_version ht).imp fun qs p e hp h => .inl ?_
    rw [ht p hp]; exact h
  | txVersion =>
    have ht := hh .txVersion 0x02 rfl (by decide)
    refine (explains_fixed ht decU32_never).imp fun qs p e hp h => .inl ?_
    rw [ht p hp]; exact h
  | fallback =>
    have ht := hh .fallback 0x03 rfl (by decide)
    refine (explains_fixed ht decU32_never).imp fun qs p e hp h => .inl ?_
    rw [ht p hp]; exact h
  | counts =>
    have h' : ∀ sp x, glSlot sp x = .counts → x = 0x04 ∨ x = 0x05 := by
      intro sp; cases sp <;> exact forall_u8 (by decide +kernel)
    have ht : ∀ q, (glSys L).slotOf q = .counts → q.key.ty = 0x04 ∨ q.key.ty = 0x05 := fun q hq => h' _ _ hq
    refine (explains_counts ht).imp fun qs p e hp h => ?_
    rcases h with h | ⟨hy, h⟩
    · left
      rcases ht p hp with hy | hy
      · rw [hy]; exact h
      · rw [hy]; exact h
    · right; rw [hy]; exact h
  | txModifiable =>
    have ht := hh .txModifiable 0x06 rfl (by decide)
    refine (explains_fixed ht decU8_never).imp fun qs p e hp h => .inl ?_
    rw [ht p hp]; exact h
  | xpub =>
    have ht := hh .xpub 0x01 rfl (by decide)
    refine (explains_xpub ht).imp fun qs p e hp h => ?_
    unfold Either
    rw [ht p hp]; exact h
  | spEcdh =>
    have h' : ∀ sp x, glSlot sp x = .spEcdh → x = 0x07 ∧ sp = true := by
      intro sp; cases sp <;> exact forall_u8 (by decide +kernel)
    refine (explains_sp (share := True) (fun q hq => (h' _ _ hq).1) compressed_none).imp fun qs p e hp h => ?_
    have := h' _ _ hp
    unfold Either
    simpa [global2, globalMisled, this.1, this.2] using h
  | spDleq =>
    have h' : ∀ sp x, glSlot sp x = .spDleq → x = 0x08 ∧ sp = true := by
      intro sp; cases sp <;> exact forall_u8 (by decide +kernel)
    refine (explains_sp (share := False) (fun q hq => (h' _ _ hq).1) dleq_none).imp fun qs p e hp h => ?_
    have := h' _ _ hp
    unfold Either
    simpa [global2, globalMisled, this.1, this.2] using h
  | proprietary =>
    have ht := hh .proprietary 0xFC rfl (by decide)
    refine (explains_glProp ht).imp fun qs p e hp h => .inl ?_
    rw [ht p hp]; exact h
  | unsignedTx =>
    have ht := hh .unsignedTx 0x00 rfl (by decide)
    intro qs f p e _ hp _ _ h
    left
    rw [ht p hp]
    cases h
    left
    rfl
  | unknown =>
    have h' : ∀ sp x, glSlot sp x = .unknown → x ≠ 0x00 ∧ x ≠ 0x01 ∧ x ≠ 0x02 ∧ x ≠ 0x03 ∧ x ≠ 0x04 ∧ x ≠ 0x05 ∧ x ≠ 0x06 ∧
        ¬ (x = 0x07 ∧ sp = true) ∧ ¬ (x = 0x08 ∧ sp = true) ∧ x ≠ 0xFB ∧ x ≠ 0xFC := by
      intro sp; cases sp <;> exact forall_u8 (by decide +kernel)
    refine (explains_unknown named2).imp fun qs p e hp h => .inl ?_
    have ⟨h0, h1, h2, h3, h4, h5, h6, h7, h8, h9, h10⟩ := h' _ _ hp
    have : global2 L p.key.ty = other v2Words := by
      simp only [global2, h0, h1, h2, h3, h4, h5, h6, h7, h8, h9, h10, if_false]
    rw [this]; exact h

/-- The type of the pairs of a field; 0xff where this is not all there is to say. -/
def inTy : InSlot → UInt8
  | .previousTxid => 0x0e
  | .outputIndex => 0x0f
  | .sequence => 0x10
  | .minTime => 0x11
  | .minHeight => 0x12
  | .nonWitnessUtxo => 0x00
  | .witnessUtxo => 0x01
  | .partialSigs => 0x02
  | .sighashType => 0x03
  | .redeemScript => 0x04
  | .witnessScript => 0x05
  | .bip32 => 0x06
  | .finalScriptSig => 0x07
  | .finalScriptWitness => 0x08
  | .ripemd160 => 0x0a
  | .sha256 => 0x0b
  | .hash160 => 0x0c
  | .hash256 => 0x0d
  | .tapKeySig => 0x13
  | .tapScriptSigs => 0x14
  | .tapScripts => 0x15
  | .tapKeyOrigins => 0x16
  | .tapInternalKey => 0x17
  | .tapMerkleRoot => 0x18
  | .proprietary => 0xFC
  | _ => 0xff

theorem inTy_inv : ∀ sp x, inTy (inSlot sp x) = 0xff ∨ x = inTy (inSlot sp x) := by
  intro sp; cases sp <;> exact forall_u8 (by decide +kernel)

set_option maxHeartbeats 800000 in
theorem in_explains (L : Lib) (s : InSlot) :
    Explains (fun q => (inSys L).slotOf q = s) ((inSys L).step s) ((inSys L).get s (Input.placeholder L))
      (Either (input2 L) (inputMisled L)) := by
  have hh : ∀ (s : InSlot) (t : UInt8), inTy s = t → t ≠ 0xff → ∀ q, (inSys L).slotOf q = s → q.key.ty = t := by
    intro s t h1 h2 q hq
    have hq : inSlot L.sp q.key.ty = s := hq
    have := inTy_inv L.sp q.key.ty
    rw [hq, h1] at this
    exact this.resolve_left h2
  cases s with
  | previousTxid =>
    have ht := hh .previousTxid 0x0e rfl (by decide)
    refine (explains_sentinel (c := hashCodec 32) rfl (isSentinel_txid _) ht (expl_hash 32)).imp fun qs p e hp h => ?_
    unfold Either
    rw [ht p hp]; exact h
  | outputIndex =>
    have ht := hh .outputIndex 0x0f rfl (by decide)
    refine (explains_sentinel (c := u32Codec) rfl (isSentinel_vout _) ht expl_u32).imp fun qs p e hp h => ?_
    unfold Either
    rw [ht p hp]; exact h
  | sequence =>
    have ht := hh .sequence 0x10 rfl (by decide)
    refine (explains_opt named2 ht expl_u32).imp fun qs p e hp h => .inl ?_
    rw [ht p hp]; exact h
  | minTime =>
    have ht := hh .minTime 0x11 rfl (by decide)
    refine (explains_opt named2 ht expl_time).imp fun qs p e hp h => .inl ?_
    rw [ht p hp]; exact h
  | minHeight =>
    have ht := hh .minHeight 0x12 rfl (by decide)
    refine (explains_opt named2 ht expl_height).imp fun qs p e hp h => .inl ?_
    rw [ht p hp]; exact h
  | nonWitnessUtxo =>
    have ht := hh .nonWitnessUtxo 0x00 rfl (by decide)
    refine (explains_opt named2 ht expl_tx).imp fun qs p e hp h => .inl ?_
    rw [ht p hp]; exact h
  | witnessUtxo =>
    have ht := hh .witnessUtxo 0x01 rfl (by decide)
    refine (explains_opt named2 ht expl_txOut).imp fun qs p e hp h => .inl ?_
    rw [ht p hp]; exact h
  | partialSigs =>
    have ht := hh .partialSigs 0x02 rfl (by decide)
    refine (explains_map named2 ht (expl_foreign _ _) (expl_ecdsaSig L) (foreign_alike _ _)).imp fun qs p e hp h => .inl ?_
    rw [ht p hp]; exact h
  | sighashType =>
    have ht := hh .sighashType 0x03 rfl (by decide)
    refine (explains_opt named2 ht expl_u32).imp fun qs p e hp h => .inl ?_
    rw [ht p hp]; exact h
  | redeemScript =>
    have ht := hh .redeemScript 0x04 rfl (by decide)
    refine (explains_opt named2 ht expl_raw).imp fun qs p e hp h => .inl ?_
    rw [ht p hp]; exact h
  | witnessScript =>
    have ht := hh .witnessScript 0x05 rfl (by decide)
    refine (explains_opt named2 ht expl_raw).imp fun qs p e hp h => .inl ?_
    rw [ht p hp]; exact h
  | bip32 =>
    have ht := hh .bip32 0x06 rfl (by decide)
    refine (explains_map named2 ht (expl_foreign _ _) expl_keySource (foreign_alike _ _)).imp fun qs p e hp h => .inl ?_
    rw [ht p hp]; exact h
  | finalScriptSig =>
    have ht := hh .finalScriptSig 0x07 rfl (by decide)
    refine (explains_opt named2 ht expl_raw).imp fun qs p e hp h => .inl ?_
    rw [ht p hp]; exact h
  | finalScriptWitness =>
    have ht := hh .finalScriptWitness 0x08 rfl (by decide)
    refine (explains_opt named2 ht expl_witness).imp fun qs p e hp h => .inl ?_
    rw [ht p hp]; exact h
  | ripemd160 =>
    have ht := hh .ripemd160 0x0a rfl (by decide)
    refine (explains_hash named2 ht).imp fun qs p e hp h => .inl ?_
    rw [ht p hp]; exact h
  | sha256 =>
    have ht := hh .sha256 0x0b rfl (by decide)
    refine (explains_hash named2 ht).imp fun qs p e hp h => .inl ?_
    rw [ht p hp]; exact h
  | hash160 =>
    have ht := hh .hash160 0x0c rfl (by decide)
    refine (explains_hash named2 ht).imp fun qs p e hp h => .inl ?_
    rw [ht p hp]; exact h
  | hash256 =>
    have ht := hh .hash256 0x0d rfl (by decide)
    refine (explains_hash named2 ht).imp fun qs p e hp h => .inl ?_
    rw [ht p hp]; exact h
  | tapKeySig =>
    have ht := hh .tapKeySig 0x13 rfl (by decide)
    refine (explains_opt named2 ht expl_tapSig).imp fun qs p e hp h => .inl ?_
    rw [ht p hp]; exact h
  | tapScriptSigs =>
    have ht := hh .tapScriptSigs 0x14 rfl (by decide)
    refine (explains_map named2 ht (expl_keyAndLeaf L) expl_tapSig (keyAndLeaf_alike L)).imp fun qs p e hp h => .inl ?_
    rw [ht p hp]; exact h
  | tapScripts =>
    have ht := hh .tapScripts 0x15 rfl (by decide)
    refine (explains_map named2 ht (expl_foreign _ _) expl_leafScript (foreign_alike _ _)).imp fun qs p e hp h => .inl ?_
    rw [ht p hp]; exact h
  | tapKeyOrigins =>
    have ht := hh .tapKeyOrigins 0x16 rfl (by decide)
    refine (explains_map named2 ht (expl_foreign _ _) expl_tapOrigin (foreign_alike _ _)).imp fun qs p e hp h => .inl ?_
    rw [ht p hp]; exact h
  | tapInternalKey =>
    have ht := hh .tapInternalKey 0x17 rfl (by decide)
    refine (explains_opt named2 ht (expl_foreign _ _)).imp fun qs p e hp h => .inl ?_
    rw [ht p hp]; exact h
  | tapMerkleRoot =>
    have ht := hh .tapMerkleRoot 0x18 rfl (by decide)
    refine (explains_opt named2 ht (expl_hash 32)).imp fun qs p e hp h => .inl ?_
    rw [ht p hp]; exact h
  | spEcdh =>
    have h' : ∀ sp x, inSlot sp x = .spEcdh → x = 0x1d ∧ sp = true := by
      intro sp; cases sp <;> exact forall_u8 (by decide +kernel)
    refine (explains_sp (share := True) (fun q hq => (h' _ _ hq).1) compressed_none).imp fun qs p e hp h => ?_
    have := h' _ _ hp
    unfold Either
    simpa [input2, input, inputMisled, this.1, this.2] using h
  | spDleq =>
    have h' : ∀ sp x, inSlot sp x = .spDleq → x = 0x1e ∧ sp = true := by
      intro sp; cases sp <;> exact forall_u8 (by decide +kernel)
    refine (explains_sp (share := False) (fun q hq => (h' _ _ hq).1) dleq_none).imp fun qs p e hp h => ?_
    have := h' _ _ hp
    unfold Either
    simpa [input2, input, inputMisled, this.1, this.2] using h
  | proprietary =>
    have ht := hh .proprietary 0xFC rfl (by decide)
    refine (explains_prop named2 ht).imp fun qs p e hp h => .inl ?_
    rw [ht p hp]; exact h
  | unknown =>
    have h' : ∀ sp x, inSlot sp x = .unknown →
        x ∉ [0x00, 0x01, 0x02, 0x03, 0x04, 0x05, 0x06, 0x07, 0x08, 0x0a, 0x0b, 0x0c, 0x0d, 0x0e, 0x0f, 0x10, 0x11, 0x12, 0x13,
          0x14, 0x15, 0x16, 0x17, 0x18, 0xFC] ∧ ¬ (x = 0x1d ∧ sp = true) ∧ ¬ (x = 0x1e ∧ sp = true) := by
      intro sp; cases sp <;> exact forall_u8 (by decide +kernel)
    refine (explains_unknown named2).imp fun qs p e hp h => .inl ?_
    have ⟨h0, h1, h2⟩ := h' _ _ hp
    simp only [List.mem_cons, List.not_mem_nil, not_or, or_false] at h0
    have : input2 L p.key.ty = other v2Words := by
      simp only [input2, input, h0, h1, h2, if_false]
    rw [this]; exact h

/-- The type of the pairs of a field; 0xff where this is not all there is to say. -/
def outTy : OutSlot → UInt8
  | .amount => 0x03
  | .script => 0x04
  | .redeemScript => 0x00
  | .witnessScript => 0x01
  | .bip32 => 0x02
  | .tapInternalKey => 0x05
  | .tapTree => 0x06
  | .tapKeyOrigins => 0x07
  | .proprietary => 0xFC
  | _ => 0xff

theorem outTy_inv : ∀ sp x, outTy (outSlot sp x) = 0xff ∨ x = outTy (outSlot sp x) := by
  intro sp; cases sp <;> exact forall_u8 (by decide +kernel)

set_option maxHeartbeats 800000 in
theorem out_explains (L : Lib) (s : OutSlot) :
    Explains (fun q => (outSys L).slotOf q = s) ((outSys L).step s) ((outSys L).get s (Output.placeholder L))
      (Either (output2 L) (outputMisled L)) := by
  have hh : ∀ (s : OutSlot) (t : UInt8), outTy s = t → t ≠ 0xff → ∀ q, (outSys L).slotOf q = s → q.key.ty = t := by
    intro s t h1 h2 q hq
    have hq : outSlot L.sp q.key.ty = s := hq
    have := outTy_inv L.sp q.key.ty
    rw [hq, h1] at this
    exact this.resolve_left h2
  cases s with
  | amount =>
    have ht := hh .amount 0x03 rfl (by decide)
    refine (explains_sentinel (c := amountCodec) rfl (isSentinel_amount _) ht expl_amount).imp fun qs p e hp h => ?_
    unfold Either
    rw [ht p hp]; exact h
  | script =>
    have ht := hh .script 0x04 rfl (by decide)
    refine (explains_sentinel (c := rawCodec) rfl (isSentinel_spk _) ht expl_raw).imp fun qs p e hp h => ?_
    unfold Either
    rw [ht p hp]; exact h
  | redeemScript =>
    have ht := hh .redeemScript 0x00 rfl (by decide)
    refine (explains_opt named2 ht expl_raw).imp fun qs p e hp h => .inl ?_
    rw [ht p hp]; exact h
  | witnessScript =>
    have ht := hh .witnessScript 0x01 rfl (by decide)
    refine (explains_opt named2 ht expl_raw).imp fun qs p e hp h => .inl ?_
    rw [ht p hp]; exact h
  | bip32 =>
    have ht := hh .bip32 0x02 rfl (by decide)
    refine (explains_map named2 ht (expl_foreign _ _) expl_keySource (foreign_alike _ _)).imp fun qs p e hp h => .inl ?_
    rw [ht p hp]; exact h
  | tapInternalKey =>
    have ht := hh .tapInternalKey 0x05 rfl (by decide)
    refine (explains_opt named2 ht (expl_foreign _ _)).imp fun qs p e hp h => .inl ?_
    rw [ht p hp]; exact h
  | tapTree =>
    have ht := hh .tapTree 0x06 rfl (by decide)
    refine (explains_opt named2 ht (expl_tapTree L)).imp fun qs p e hp h => .inl ?_
    rw [ht p hp]; exact h
  | tapKeyOrigins =>
    have ht := hh .tapKeyOrigins 0x07 rfl (by decide)
    refine (explains_map named2 ht (expl_foreign _ _) expl_tapOrigin (foreign_alike _ _)).imp fun qs p e hp h => .inl ?_
    rw [ht p hp]; exact h
  | spInfo =>
    have h' : ∀ sp x, outSlot sp x = .spInfo → x = 0x09 ∧ sp = true := by
      intro sp; cases sp <;> exact forall_u8 (by decide +kernel)
    refine (explains_info (fun q hq => (h' _ _ hq).1)).imp fun qs p e hp h => ?_
    have := h' _ _ hp
    unfold Either
    simpa [output2, output, outputMisled, this.1, this.2] using h
  | spLabel =>
    have h' : ∀ sp x, outSlot sp x = .spLabel → x = 0x0a ∧ sp = true := by
      intro sp; cases sp <;> exact forall_u8 (by decide +kernel)
    refine (explains_label (fun q hq => (h' _ _ hq).1)).imp fun qs p e hp h => ?_
    have := h' _ _ hp
    unfold Either
    simpa [output2, output, outputMisled, this.1, this.2] using h
  | proprietary =>
    have ht := hh .proprietary 0xFC rfl (by decide)
    refine (explains_prop named2 ht).imp fun qs p e hp h => .inl ?_
    rw [ht p hp]; exact h
  | unknown =>
    have h' : ∀ sp x, outSlot sp x = .unknown →
        x ∉ [0x00, 0x01, 0x02, 0x03, 0x04, 0x05, 0x06, 0x07, 0xFC] ∧ ¬ (x = 0x09 ∧ sp = true) ∧ ¬ (x = 0x0a ∧ sp = true) := by
      intro sp; cases sp <;> exact forall_u8 (by decide +kernel)
    refine (explains_unknown named2).imp fun qs p e hp h => .inl ?_
    have ⟨h0, h1, h2⟩ := h' _ _ hp
    simp only [List.mem_cons, List.not_mem_nil, not_or, or_false] at h0
    have : output2 L p.key.ty = other v2Words := by
      simp only [output2, output, h0, h1, h2, if_false]
    rw [this]; exact h

end V2
end Psbt
