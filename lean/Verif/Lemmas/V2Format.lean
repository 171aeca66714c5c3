/- Membership in the emitted pair lists, and the codecs in the terms of the format. -/
import Verif.Spec.V2Format
import Verif.Lemmas.BMap
import Verif.Lemmas.RawMap
namespace Psbt.V2
open Psbt

variable {L : Lib}

section
variable {α K V : Type} [DecidableEq K] [OrdKey K] {p : Pair}

theorem mem_emitOpt {t : UInt8} {c : Codec α} {o : Option α} : p ∈ emitOpt t c o ↔ ∃ v, o = some v ∧ p = bare t (c.ser v) := by
  unfold emitOpt
  cases o <;> simp

theorem mem_emitMap {t : UInt8} {ck : Codec K} {cv : Codec V} {m : BMap K V} :
    p ∈ emitMap t ck cv m ↔ ∃ k v, m.get k = some v ∧ p = ⟨⟨t, ck.ser k⟩, cv.ser v⟩ := by
  unfold emitMap
  rw [List.mem_map]
  constructor
  · rintro ⟨⟨k, v⟩, h, rfl⟩; exact ⟨k, v, BMap.mem_iff_get.mp h, rfl⟩
  · rintro ⟨k, v, h, rfl⟩; exact ⟨(k, v), BMap.mem_iff_get.mpr h, rfl⟩

theorem mem_mapl {f : K × V → Pair} {m : BMap K V} : p ∈ m.l.map f ↔ ∃ k v, m.get k = some v ∧ p = f (k, v) := by
  rw [List.mem_map]
  constructor
  · rintro ⟨⟨k, v⟩, h, rfl⟩; exact ⟨k, v, BMap.mem_iff_get.mp h, rfl⟩
  · rintro ⟨k, v, h, rfl⟩; exact ⟨(k, v), BMap.mem_iff_get.mpr h, rfl⟩

theorem mem_emitSp {t : UInt8} {ser : V → Bytes} {m : BMap L.compressed.T V} :
    p ∈ emitSp L t ser m ↔ L.sp = true ∧ ∃ k v, m.get k = some v ∧ p = ⟨⟨t, k.bytes⟩, ser v⟩ := by
  unfold emitSp
  split
  · rename_i h; simp only [mem_mapl, h, true_and]
  · rename_i h; simp [h]

theorem mem_emitProp {m : BMap PropKey Bytes} : p ∈ emitProp m ↔ ∃ k v, m.get k = some v ∧ p = ⟨k.toKey, v⟩ := mem_mapl

theorem mem_emitUnknown {m : BMap RawKey Bytes} : p ∈ emitUnknown m ↔ ∃ k v, m.get k = some v ∧ p = ⟨⟨k.ty, k.key⟩, v⟩ := mem_mapl

theorem mem_emitXpub {m : BMap L.xpub.T KeySource} :
    p ∈ m.l.map (fun kv => (⟨⟨PSBT_GLOBAL_XPUB, kv.1.bytes⟩, keySourceCodec.ser kv.2⟩ : Pair)) ↔
      ∃ k v, m.get k = some v ∧ p = ⟨⟨PSBT_GLOBAL_XPUB, k.bytes⟩, keySourceCodec.ser v⟩ := mem_mapl

theorem mem_emitSpInfo {o : Option Bytes} :
    p ∈ emitSpInfo L o ↔ L.sp = true ∧ ∃ v, o = some v ∧ p = bare PSBT_OUT_SP_V0_INFO (rawCodec.ser v) := by
  unfold emitSpInfo
  split
  · rename_i h; simp only [mem_emitOpt, h, true_and]
  · rename_i h; simp [h]

theorem mem_emitSpLabel {o : Option UInt32} :
    p ∈ emitSpLabel L o ↔ L.sp = true ∧ ∃ v, o = some v ∧ p = bare PSBT_OUT_SP_V0_LABEL (u32Codec.ser v) := by
  unfold emitSpLabel
  split
  · rename_i h; simp only [mem_emitOpt, h, true_and]
  · rename_i h; simp [h]

end

section
theorem ser_u32 (n : UInt32) : u32Codec.ser n = Spec.le32 n := (le32_eq n).symm
theorem ser_time (n : Time) : timeCodec.ser n = Spec.le32 n.1 := (le32_eq n.1).symm
theorem ser_height (n : Height) : heightCodec.ser n = Spec.le32 n.1 := (le32_eq n.1).symm
theorem ser_version (v : Version) : versionCodec.ser v = Spec.le32 v := (le32_eq v).symm
theorem ser_amount (n : UInt64) : amountCodec.ser n = Spec.le64 n := (le64_eq n).symm
theorem ser_tx (t : Tx) : txCodec.ser t = Spec.txBytes t := by rw [txBytes_fun]; rfl
theorem ser_txOut (o : TxOut) : txOutCodec.ser o = Spec.txOutBytes o := by rw [txOutBytes_fun]; rfl
theorem ser_witness (w : List Bytes) : witnessCodec.ser w = Spec.witnessBytes w := by rw [witnessBytes_fun]; rfl
theorem ser_raw (b : Bytes) : rawCodec.ser b = b := rfl
theorem ser_source (k : KeySource) : keySourceCodec.ser k = k.1.1 ++ k.2.flatMap Spec.le32 := by rw [le32_fun]; rfl
theorem ser_pubkey (k : L.pubkey.T) : (pubkeyCodec L).ser k = k.bytes := rfl
theorem ser_secpPk (k : L.secpPk.T) : (secpPkCodec L).ser k = k.bytes := rfl
theorem ser_xonly (k : L.xonly.T) : (xonlyCodec L).ser k = k.bytes := rfl
theorem ser_ctrl (k : L.ctrl.T) : (ctrlCodec L).ser k = k.bytes := rfl
theorem ser_sig (s : EcdsaSig L) : (ecdsaSigCodec L).ser s = s.der.bytes ++ [s.ty.1] := rfl
theorem ser_tapSig (s : TapSig) : tapSigCodec.ser s = s.sig.1 ++ if s.ty.1 = 0 then [] else [s.ty.1] := by
  show (if s.ty.1 = 0 then s.sig.1 else s.sig.1 ++ [s.ty.1]) = _
  split <;> simp
theorem ser_hash {n : Nat} (h : FixedBytes n) : (hashCodec n).ser h = h.1 := rfl
theorem ser_xonlyLeaf (k : L.xonly.T × Hash32) : (xonlyLeafCodec L).ser k = k.1.bytes ++ k.2.1 := rfl
theorem ser_leafScript (k : Bytes × LeafVersion) : leafScriptCodec.ser k = k.1 ++ [k.2.1] := rfl
theorem ser_tapOrigin (k : List Hash32 × KeySource) :
    tapOriginCodec.ser k = Spec.compact k.1.length ++ k.1.flatMap Subtype.val ++ k.2.1.1 ++ k.2.2.flatMap Spec.le32 := by
  rw [le32_fun, compact_fun]
  show (encVar k.1.length ++ k.1.flatMap Subtype.val) ++ (k.2.1.1 ++ k.2.2.flatMap encU32) = _
  simp only [List.append_assoc]
theorem ser_tapTree (t : TapTree L) : (tapTreeCodec L).ser t = t.leaves.flatMap fun l => [l.depth, l.ver.1] ++ Spec.blob l.script := by rw [blob_fun]; rfl
end

end Psbt.V2
