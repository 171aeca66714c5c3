/-
The tables of key types of PSBT v0: which complaints the insertion of each map can give rise to.
-/
import Verif.Lemmas.RefusedTables
namespace Psbt.V0
open Spec

/-- Justified. -/
def Right (field : UInt8 → Field Err) (qs : List Pair) (p : Pair) (e : Err) : Prop := (field p.key.ty).Fault qs p e

/-- The type of the pairs of a field; 0xff where this is not all there is to say. -/
def glTy : GlSlot → UInt8
  | .tx => 0x00
  | .xpub => 0x01
  | .version => 0xFB
  | .proprietary => 0xFC
  | _ => 0xff

theorem glTy_inv : ∀ x, glTy (glSlot x) = 0xff ∨ x = glTy (glSlot x) :=
  forall_u8 (by decide +kernel)

set_option maxHeartbeats 800000 in
theorem gl_explains (L : Lib) (s : GlSlot) :
    Explains (fun q => (glSys L).slotOf q = s) ((glSys L).step s) ((glSys L).get s (GlobalAcc.start L))
      (Right (global0 L)) := by
  have hh : ∀ (s : GlSlot) (t : UInt8), glTy s = t → t ≠ 0xff → ∀ q, (glSys L).slotOf q = s → q.key.ty = t := by
    intro s t h1 h2 q hq
    have hq : glSlot q.key.ty = s := hq
    have := glTy_inv q.key.ty
    rw [hq, h1] at this
    exact this.resolve_left h2
  have hu : ∀ (s : GlSlot) (P : UInt8 → Prop), (∀ x, glSlot x = s → P x) → ∀ q, (glSys L).slotOf q = s → P q.key.ty :=
    fun s P h q hq => h _ hq
  cases s with
  | tx =>
    have ht := hh .tx 0x00 rfl (by decide)
    refine (explains_tx ht).imp fun qs p e hp h => ?_
    unfold Right
    rw [ht p hp]; exact h
  | xpub =>
    have ht := hh .xpub 0x01 rfl (by decide)
    refine (explains_xpub ht).imp fun qs p e hp h => ?_
    unfold Right
    rw [ht p hp]; exact h
  | version =>
    have ht := hh .version 0xFB rfl (by decide)
    refine (explains_version ht).imp fun qs p e hp h => ?_
    unfold Right
    rw [ht p hp]; exact h
  | proprietary =>
    have ht := hh .proprietary 0xFC rfl (by decide)
    refine (explains_prop named0 ht).imp fun qs p e hp h => ?_
    unfold Right
    rw [ht p hp]; exact h
  | excluded =>
    have h' : ∀ x, glSlot x = .excluded → x = 0x02 ∨ x = 0x03 ∨ x = 0x04 ∨ x = 0x05 ∨ x = 0x06 := forall_u8 (by decide +kernel)
    intro qs f p e _ hp _ _ h
    cases h
    have h0 := hu .excluded _ h' p hp
    have hx : global0 L p.key.ty = excluded v0Words := by
      rcases h0 with h0 | h0 | h0 | h0 | h0 <;> (rw [h0]; rfl)
    unfold Right
    rw [hx]
    exact .inl rfl
  | unknown =>
    have h' : ∀ x, glSlot x = .unknown → x ∉ [0x00, 0x01, 0x02, 0x03, 0x04, 0x05, 0x06, 0xFB, 0xFC] := forall_u8 (by decide +kernel)
    refine (explains_unknown named0).imp fun qs p e hp h => ?_
    have h0 := hu .unknown _ h' p hp
    simp only [List.mem_cons, List.not_mem_nil, not_or, or_false] at h0
    have : global0 L p.key.ty = other v0Words := by
      simp only [global0, h0, or_self, if_false]
    unfold Right
    rw [this]; exact h

/-- The type of the pairs of a field; 0xff where this is not all there is to say. -/
def inTy : InSlot → UInt8
  | .nonWitnessUtxo => 0x00
  | .witnessUtxo => 0x01
  | .partialSigs => 0x02
  | .sighashType => 0x03
  | .redeemScript => 0x04
  | .witnessScript => 0x05
  | .bip32 => 0x06
  | .finalScriptSig => 0x07
  | .finalScriptWitness => 0x08
  | .ripemd160 => 0x0a
  | .sha256 => 0x0b
  | .hash160 => 0x0c
  | .hash256 => 0x0d
  | .tapKeySig => 0x13
  | .tapScriptSigs => 0x14
  | .tapScripts => 0x15
  | .tapKeyOrigins => 0x16
  | .tapInternalKey => 0x17
  | .tapMerkleRoot => 0x18
  | .proprietary => 0xFC
  | _ => 0xff

theorem inTy_inv : ∀ x, inTy (inSlot x) = 0xff ∨ x = inTy (inSlot x) :=
  forall_u8 (by decide +kernel)

set_option maxHeartbeats 800000 in
theorem in_explains (L : Lib) (s : InSlot) :
    Explains (fun q => (inSys L).slotOf q = s) ((inSys L).step s) ((inSys L).get s (Input.default L))
      (Right (input0 L)) := by
  have hh : ∀ (s : InSlot) (t : UInt8), inTy s = t → t ≠ 0xff → ∀ q, (inSys L).slotOf q = s → q.key.ty = t := by
    intro s t h1 h2 q hq
    have hq : inSlot q.key.ty = s := hq
    have := inTy_inv q.key.ty
    rw [hq, h1] at this
    exact this.resolve_left h2
  have hu : ∀ (s : InSlot) (P : UInt8 → Prop), (∀ x, inSlot x = s → P x) → ∀ q, (inSys L).slotOf q = s → P q.key.ty :=
    fun s P h q hq => h _ hq
  cases s with
  | nonWitnessUtxo =>
    have ht := hh .nonWitnessUtxo 0x00 rfl (by decide)
    refine (explains_opt named0 ht expl_tx).imp fun qs p e hp h => ?_
    unfold Right
    rw [ht p hp]; exact h
  | witnessUtxo =>
    have ht := hh .witnessUtxo 0x01 rfl (by decide)
    refine (explains_opt named0 ht expl_txOut).imp fun qs p e hp h => ?_
    unfold Right
    rw [ht p hp]; exact h
  | partialSigs =>
    have ht := hh .partialSigs 0x02 rfl (by decide)
    refine (explains_map named0 ht (expl_foreign _ _) (expl_ecdsaSig L) (foreign_alike _ _)).imp fun qs p e hp h => ?_
    unfold Right
    rw [ht p hp]; exact h
  | sighashType =>
    have ht := hh .sighashType 0x03 rfl (by decide)
    refine (explains_opt named0 ht expl_u32).imp fun qs p e hp h => ?_
    unfold Right
    rw [ht p hp]; exact h
  | redeemScript =>
    have ht := hh .redeemScript 0x04 rfl (by decide)
    refine (explains_opt named0 ht expl_raw).imp fun qs p e hp h => ?_
    unfold Right
    rw [ht p hp]; exact h
  | witnessScript =>
    have ht := hh .witnessScript 0x05 rfl (by decide)
    refine (explains_opt named0 ht expl_raw).imp fun qs p e hp h => ?_
    unfold Right
    rw [ht p hp]; exact h
  | bip32 =>
    have ht := hh .bip32 0x06 rfl (by decide)
    refine (explains_map named0 ht (expl_foreign _ _) expl_keySource (foreign_alike _ _)).imp fun qs p e hp h => ?_
    unfold Right
    rw [ht p hp]; exact h
  | finalScriptSig =>
    have ht := hh .finalScriptSig 0x07 rfl (by decide)
    refine (explains_opt named0 ht expl_raw).imp fun qs p e hp h => ?_
    unfold Right
    rw [ht p hp]; exact h
  | finalScriptWitness =>
    have ht := hh .finalScriptWitness 0x08 rfl (by decide)
    refine (explains_opt named0 ht expl_witness).imp fun qs p e hp h => ?_
    unfold Right
    rw [ht p hp]; exact h
  | ripemd160 =>
    have ht := hh .ripemd160 0x0a rfl (by decide)
    refine (explains_hash named0 ht).imp fun qs p e hp h => ?_
    unfold Right
    rw [ht p hp]; exact h
  | sha256 =>
    have ht := hh .sha256 0x0b rfl (by decide)
    refine (explains_hash named0 ht).imp fun qs p e hp h => ?_
    unfold Right
    rw [ht p hp]; exact h
  | hash160 =>
    have ht := hh .hash160 0x0c rfl (by decide)
    refine (explains_hash named0 ht).imp fun qs p e hp h => ?_
    unfold Right
    rw [ht p hp]; exact h
  | hash256 =>
    have ht := hh .hash256 0x0d rfl (by decide)
    refine (explains_hash named0 ht).imp fun qs p e hp h => ?_
    unfold Right
    rw [ht p hp]; exact h
  | tapKeySig =>
    have ht := hh .tapKeySig 0x13 rfl (by decide)
    refine (explains_opt named0 ht expl_tapSig).imp fun qs p e hp h => ?_
    unfold Right
    rw [ht p hp]; exact h
  | tapScriptSigs =>
    have ht := hh .tapScriptSigs 0x14 rfl (by decide)
    refine (explains_map named0 ht (expl_keyAndLeaf L) expl_tapSig (keyAndLeaf_alike L)).imp fun qs p e hp h => ?_
    unfold Right
    rw [ht p hp]; exact h
  | tapScripts =>
    have ht := hh .tapScripts 0x15 rfl (by decide)
    refine (explains_map named0 ht (expl_foreign _ _) expl_leafScript (foreign_alike _ _)).imp fun qs p e hp h => ?_
    unfold Right
    rw [ht p hp]; exact h
  | tapKeyOrigins =>
    have ht := hh .tapKeyOrigins 0x16 rfl (by decide)
    refine (explains_map named0 ht (expl_foreign _ _) expl_tapOrigin (foreign_alike _ _)).imp fun qs p e hp h => ?_
    unfold Right
    rw [ht p hp]; exact h
  | tapInternalKey =>
    have ht := hh .tapInternalKey 0x17 rfl (by decide)
    refine (explains_opt named0 ht (expl_foreign _ _)).imp fun qs p e hp h => ?_
    unfold Right
    rw [ht p hp]; exact h
  | tapMerkleRoot =>
    have ht := hh .tapMerkleRoot 0x18 rfl (by decide)
    refine (explains_opt named0 ht (expl_hash 32)).imp fun qs p e hp h => ?_
    unfold Right
    rw [ht p hp]; exact h
  | proprietary =>
    have ht := hh .proprietary 0xFC rfl (by decide)
    refine (explains_prop named0 ht).imp fun qs p e hp h => ?_
    unfold Right
    rw [ht p hp]; exact h
  | excluded =>
    have h' : ∀ x, inSlot x = .excluded → x = 0x0e ∨ x = 0x0f ∨ x = 0x10 ∨ x = 0x11 ∨ x = 0x12 := forall_u8 (by decide +kernel)
    intro qs f p e _ hp _ _ h
    cases h
    have h0 := hu .excluded _ h' p hp
    have hx : input0 L p.key.ty = excluded v0Words := by
      rcases h0 with h0 | h0 | h0 | h0 | h0 <;> (rw [h0]; rfl)
    unfold Right
    rw [hx]
    exact .inl rfl
  | unknown =>
    have h' : ∀ x, inSlot x = .unknown → x ∉ [0x00, 0x01, 0x02, 0x03, 0x04, 0x05, 0x06, 0x07, 0x08, 0x0a, 0x0b, 0x0c, 0x0d, 0x0e, 0x0f, 0x10, 0x11, 0x12, 0x13,
        0x14, 0x15, 0x16, 0x17, 0x18, 0xFC] := forall_u8 (by decide +kernel)
    refine (explains_unknown named0).imp fun qs p e hp h => ?_
    have h0 := hu .unknown _ h' p hp
    simp only [List.mem_cons, List.not_mem_nil, not_or, or_false] at h0
    have : input0 L p.key.ty = other v0Words := by
      simp only [input0, input, h0, or_self, if_false]
    unfold Right
    rw [this]; exact h

/-- The type of the pairs of a field; 0xff where this is not all there is to say. -/
def outTy : OutSlot → UInt8
  | .redeemScript => 0x00
  | .witnessScript => 0x01
  | .bip32 => 0x02
  | .tapInternalKey => 0x05
  | .tapTree => 0x06
  | .tapKeyOrigins => 0x07
  | .proprietary => 0xFC
  | _ => 0xff

theorem outTy_inv : ∀ x, outTy (outSlot x) = 0xff ∨ x = outTy (outSlot x) :=
  forall_u8 (by decide +kernel)

set_option maxHeartbeats 800000 in
theorem out_explains (L : Lib) (s : OutSlot) :
    Explains (fun q => (outSys L).slotOf q = s) ((outSys L).step s) ((outSys L).get s (Output.default L))
      (Right (output0 L)) := by
  have hh : ∀ (s : OutSlot) (t : UInt8), outTy s = t → t ≠ 0xff → ∀ q, (outSys L).slotOf q = s → q.key.ty = t := by
    intro s t h1 h2 q hq
    have hq : outSlot q.key.ty = s := hq
    have := outTy_inv q.key.ty
    rw [hq, h1] at this
    exact this.resolve_left h2
  have hu : ∀ (s : OutSlot) (P : UInt8 → Prop), (∀ x, outSlot x = s → P x) → ∀ q, (outSys L).slotOf q = s → P q.key.ty :=
    fun s P h q hq => h _ hq
  cases s with
  | redeemScript =>
    have ht := hh .redeemScript 0x00 rfl (by decide)
    refine (explains_opt named0 ht expl_raw).imp fun qs p e hp h => ?_
    unfold Right
    rw [ht p hp]; exact h
  | witnessScript =>
    have ht := hh .witnessScript 0x01 rfl (by decide)
    refine (explains_opt named0 ht expl_raw).imp fun qs p e hp h => ?_
    unfold Right
    rw [ht p hp]; exact h
  | bip32 =>
    have ht := hh .bip32 0x02 rfl (by decide)
    refine (explains_map named0 ht (expl_foreign _ _) expl_keySource (foreign_alike _ _)).imp fun qs p e hp h => ?_
    unfold Right
    rw [ht p hp]; exact h
  | tapInternalKey =>
    have ht := hh .tapInternalKey 0x05 rfl (by decide)
    refine (explains_opt named0 ht (expl_foreign _ _)).imp fun qs p e hp h => ?_
    unfold Right
    rw [ht p hp]; exact h
  | tapTree =>
    have ht := hh .tapTree 0x06 rfl (by decide)
    refine (explains_opt named0 ht (expl_tapTree L)).imp fun qs p e hp h => ?_
    unfold Right
    rw [ht p hp]; exact h
  | tapKeyOrigins =>
    have ht := hh .tapKeyOrigins 0x07 rfl (by decide)
    refine (explains_map named0 ht (expl_foreign _ _) expl_tapOrigin (foreign_alike _ _)).imp fun qs p e hp h => ?_
    unfold Right
    rw [ht p hp]; exact h
  | proprietary =>
    have ht := hh .proprietary 0xFC rfl (by decide)
    refine (explains_prop named0 ht).imp fun qs p e hp h => ?_
    unfold Right
    rw [ht p hp]; exact h
  | excluded =>
    have h' : ∀ x, outSlot x = .excluded → x = 0x03 ∨ x = 0x04 := forall_u8 (by decide +kernel)
    intro qs f p e _ hp _ _ h
    cases h
    have h0 := hu .excluded _ h' p hp
    have hx : output0 L p.key.ty = excluded v0Words := by
      rcases h0 with h0 | h0 <;> (rw [h0]; rfl)
    unfold Right
    rw [hx]
    exact .inl rfl
  | unknown =>
    have h' : ∀ x, outSlot x = .unknown → x ∉ [0x00, 0x01, 0x02, 0x03, 0x04, 0x05, 0x06, 0x07, 0xFC] := forall_u8 (by decide +kernel)
    refine (explains_unknown named0).imp fun qs p e hp h => ?_
    have h0 := hu .unknown _ h' p hp
    simp only [List.mem_cons, List.not_mem_nil, not_or, or_false] at h0
    have : output0 L p.key.ty = other v0Words := by
      simp only [output0, output, h0, or_self, if_false]
    unfold Right
    rw [this]; exact h

end Psbt.V0
