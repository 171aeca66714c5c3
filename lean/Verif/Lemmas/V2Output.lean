/- The v2 output map as a slot system. -/
import Verif.Lemmas.Kinds
namespace Psbt.V2
open Psbt

/-- The type of each field. -/
abbrev OutF (L : Lib) : OutSlot → Type
  | .amount => UInt64
  | .script => Bytes
  | .redeemScript => Option Bytes
  | .witnessScript => Option Bytes
  | .bip32 => BMap L.secpPk.T KeySource
  | .tapInternalKey => Option L.xonly.T
  | .tapTree => Option (TapTree L)
  | .tapKeyOrigins => BMap L.xonly.T (List Hash32 × KeySource)
  | .spInfo => Option Bytes
  | .spLabel => Option UInt32
  | .proprietary => BMap PropKey Bytes
  | .unknown => BMap RawKey Bytes

def outGet (L : Lib) : (s : OutSlot) → Output L → OutF L s
  | .amount, i => i.amount
  | .script, i => i.scriptPubkey
  | .redeemScript, i => i.redeemScript
  | .witnessScript, i => i.witnessScript
  | .bip32, i => i.bip32Derivations
  | .tapInternalKey, i => i.tapInternalKey
  | .tapTree, i => i.tapTree
  | .tapKeyOrigins, i => i.tapKeyOrigins
  | .spInfo, i => i.spV0Info
  | .spLabel, i => i.spV0Label
  | .proprietary, i => i.proprietaries
  | .unknown, i => i.unknowns

def outSet (L : Lib) : (s : OutSlot) → OutF L s → Output L → Output L
  | .amount, f, i => { i with amount := f }
  | .script, f, i => { i with scriptPubkey := f }
  | .redeemScript, f, i => { i with redeemScript := f }
  | .witnessScript, f, i => { i with witnessScript := f }
  | .bip32, f, i => { i with bip32Derivations := f }
  | .tapInternalKey, f, i => { i with tapInternalKey := f }
  | .tapTree, f, i => { i with tapTree := f }
  | .tapKeyOrigins, f, i => { i with tapKeyOrigins := f }
  | .spInfo, f, i => { i with spV0Info := f }
  | .spLabel, f, i => { i with spV0Label := f }
  | .proprietary, f, i => { i with proprietaries := f }
  | .unknown, f, i => { i with unknowns := f }

def outStep (L : Lib) : (s : OutSlot) → OutF L s → Pair → Except InsErr (OutF L s)
  | .amount => insAmount
  | .script => insSpk
  | .redeemScript => insOpt rawCodec
  | .witnessScript => insOpt rawCodec
  | .bip32 => insMap (secpPkCodec L) keySourceCodec
  | .tapInternalKey => insOpt (xonlyCodec L)
  | .tapTree => insOpt (tapTreeCodec L)
  | .tapKeyOrigins => insMap (xonlyCodec L) tapOriginCodec
  | .spInfo => insSpInfo
  | .spLabel => insSpLabel
  | .proprietary => insProp
  | .unknown => insUnknown

def outEmit (L : Lib) : (s : OutSlot) → OutF L s → List Pair
  | .amount => fun f => [bare PSBT_OUT_AMOUNT (amountCodec.ser f)]
  | .script => fun f => [bare PSBT_OUT_SCRIPT f]
  | .redeemScript => emitOpt PSBT_OUT_REDEEM_SCRIPT rawCodec
  | .witnessScript => emitOpt PSBT_OUT_WITNESS_SCRIPT rawCodec
  | .bip32 => emitMap PSBT_OUT_BIP32_DERIVATION (secpPkCodec L) keySourceCodec
  | .tapInternalKey => emitOpt PSBT_OUT_TAP_INTERNAL_KEY (xonlyCodec L)
  | .tapTree => emitOpt PSBT_OUT_TAP_TREE (tapTreeCodec L)
  | .tapKeyOrigins => emitMap PSBT_OUT_TAP_BIP32_DERIVATION (xonlyCodec L) tapOriginCodec
  | .spInfo => emitSpInfo L
  | .spLabel => emitSpLabel L
  | .proprietary => emitProp
  | .unknown => emitUnknown

def outOrder : List OutSlot :=
  [.amount, .script, .redeemScript, .witnessScript, .bip32, .tapInternalKey, .tapTree, .tapKeyOrigins, .spInfo,
   .spLabel, .proprietary, .unknown]

theorem outOrder_nodup : outOrder.Nodup := by decide
theorem mem_outOrder (s : OutSlot) : s ∈ outOrder := by cases s <;> decide

def outSys (L : Lib) : SlotSys (Output L) OutSlot InsErr where
  F := OutF L
  get := outGet L
  set := outSet L
  get_set s f m := by cases s <;> rfl
  get_set_ne s t f m h := by
    cases t <;> cases s <;> first | rfl | exact absurd rfl h
  ext m m' h := by
    obtain ⟨⟩ := m
    obtain ⟨⟩ := m'
    have h1 := h .amount; have h2 := h .script; have h3 := h .redeemScript; have h4 := h .witnessScript
    have h5 := h .bip32; have h6 := h .tapInternalKey; have h7 := h .tapTree; have h8 := h .tapKeyOrigins
    have h9 := h .spInfo; have h10 := h .spLabel; have h11 := h .proprietary; have h12 := h .unknown
    simp only [outGet] at *
    subst_vars
    rfl
  slotOf p := outSlot L.sp p.key.ty
  step := outStep L

theorem out_ins (L : Lib) : Output.insertPair (L := L) = (outSys L).ins := by
  funext i p
  unfold Output.insertPair SlotSys.ins
  simp only [outSys]
  generalize outSlot L.sp p.key.ty = s
  cases s <;> rfl

theorem out_pairs (L : Lib) (i : Output L) : i.getPairs = (outSys L).pairs outOrder (outEmit L) i := by
  rfl

/-- What each field of a decoded output satisfies. -/
def OutInv (L : Lib) : (s : OutSlot) → OutF L s → Prop
  | .spInfo => fun f => (∀ p ∈ outEmit L .spInfo f, PairFits p) ∧
      (L.sp = false → f = none) ∧ ∀ v, f = some v → v.length = 66
  | .spLabel => fun f => (∀ p ∈ outEmit L .spLabel f, PairFits p) ∧ (L.sp = false → f = none)
  | .proprietary => fun f => (∀ p ∈ outEmit L .proprietary f, PairFits p) ∧ ∀ k v, f.get k = some v → PropFits k
  | .unknown => fun f =>
    (∀ p ∈ outEmit L .unknown f, PairFits p) ∧ ∀ k v, f.get k = some v → outSlot L.sp k.ty = .unknown
  | s => fun f => ∀ p ∈ outEmit L s f, PairFits p

theorem isSentinel_amount (isSlot : Pair → Prop) : IsSentinel 0 isSlot insAmount (parseVal amountCodec) := by
  intro f p f' _
  rw [parseVal_some]
  simp only [insAmount]
  split
  · rename_i h; simp [h]
  · rename_i h
    simp only [ne_eq, Decidable.not_not] at h
    simp [h, mapErr_ok]

theorem isSentinel_spk (isSlot : Pair → Prop) : IsSentinel [] isSlot insSpk (parseVal rawCodec) := by
  intro f p f' _
  rw [parseVal_some]
  simp only [insSpk]
  split
  · rename_i h; simp [h]
  · rename_i h
    simp only [ne_eq, Decidable.not_not] at h
    simp [h, mapErr_ok]

theorem amount_ser_length (n : UInt64) : (amountCodec.ser n).length = 8 := leEnc_length _ _

theorem amountCodec_exact {b : Bytes} {v : UInt64} (h : amountCodec.deser b = .ok v) : b = amountCodec.ser v :=
  consensusCodec_exact (fun _ _ _ h => decU64_ok h) h

theorem lawful_outAmount {isSlot : Pair → Prop} (hs : ∀ v, isSlot (bare PSBT_OUT_AMOUNT v)) :
    LawfulSlot isSlot insAmount 0 (fun f => [bare PSBT_OUT_AMOUNT (amountCodec.ser f)])
      (fun f => ∀ p ∈ [bare PSBT_OUT_AMOUNT (amountCodec.ser f)], PairFits p) := by
  apply (isSentinel_amount isSlot).lawful (emit1 := fun f => bare PSBT_OUT_AMOUNT (amountCodec.ser f))
  · exact pairFits_bare_short _ (by rw [amount_ser_length]; decide)
  · intro p v _ _ _
    exact pairFits_bare_short _ (by rw [amount_ser_length]; decide)
  · intro v _
    exact ⟨hs _, parseVal_some.mpr (lawful_amount.rt v (by rw [amount_ser_length]; decide))⟩

theorem lawful_outSpk {isSlot : Pair → Prop} (hs : ∀ v, isSlot (bare PSBT_OUT_SCRIPT v)) :
    LawfulSlot isSlot insSpk [] (fun f => [bare PSBT_OUT_SCRIPT f])
      (fun f => ∀ p ∈ [bare PSBT_OUT_SCRIPT f], PairFits p) := by
  apply (isSentinel_spk isSlot).lawful (emit1 := fun f => bare PSBT_OUT_SCRIPT f)
  · exact pairFits_bare_short _ (by decide)
  · intro p v hp _ h
    rw [parseVal_some] at h
    simp only [rawCodec, Except.ok.injEq] at h
    rw [← h]
    exact PairFits.bare hp.2
  · intro v _
    exact ⟨hs _, parseVal_some.mpr rfl⟩

def parseInfo (p : Pair) : Option Bytes := if p.key.key = [] ∧ p.value.length = 66 then some p.value else none

def parseLabel (p : Pair) : Option UInt32 :=
  if p.key.key = [] ∧ p.value.length = 4 then some (UInt32.ofNat (leDec p.value)) else none

theorem isOpt_info (isSlot : Pair → Prop) : IsOpt isSlot insSpInfo parseInfo := by
  intro o p o' _
  unfold insSpInfo parseInfo
  cases o with
  | some w => simp
  | none =>
    by_cases h1 : p.key.key = [] <;> by_cases h2 : p.value.length = 66 <;> simp [h1, h2, eq_comm]

theorem isOpt_label (isSlot : Pair → Prop) : IsOpt isSlot insSpLabel parseLabel := by
  intro o p o' _
  unfold insSpLabel parseLabel
  cases o with
  | some w => simp
  | none =>
    by_cases h1 : p.key.key = [] <;> by_cases h2 : p.value.length = 4 <;> simp [h1, h2, eq_comm]

theorem ofNat_leDec_encU32 (n : UInt32) : UInt32.ofNat (leDec (encU32 n)) = n := by
  have := decU32_enc n []
  simp only [decU32, encU32] at this ⊢
  rw [readN_append (leEnc_length _ _)] at this
  simp only [ok_bind, Except.ok.injEq, Prod.mk.injEq, and_true] at this
  exact this

theorem lawful_info (L : Lib) {isSlot : Pair → Prop} (hs : L.sp = true → ∀ v, isSlot (bare PSBT_OUT_SP_V0_INFO v))
    (hs' : L.sp = false → ∀ p, ¬ isSlot p) :
    LawfulSlot isSlot insSpInfo none (emitSpInfo L)
      (fun f => (∀ p ∈ emitSpInfo L f, PairFits p) ∧ (L.sp = false → f = none) ∧ ∀ v, f = some v → v.length = 66) := by
  cases hsp : L.sp with
  | true =>
    have := (isOpt_info isSlot).lawful (emit1 := fun v => bare PSBT_OUT_SP_V0_INFO v) (emit := emitSpInfo L)
      (Extra := fun v => v.length = 66) (by simp [emitSpInfo, emitOpt]) (by simp [emitSpInfo, emitOpt, hsp, rawCodec])
      (by
        intro p v hp _ h
        unfold parseInfo at h
        split at h
        · rename_i hc
          cases h
          exact ⟨PairFits.bare hp.2, hc.2⟩
        · cases h)
      (by
        intro v hf hv
        refine ⟨hs hsp _, ?_⟩
        simp [parseInfo, bare, hv])
    simpa using this
  | false =>
    have := lawful_never (isSlot := isSlot) (step := insSpInfo) (init := none) (fun f p f' hp => absurd hp (hs' hsp p))
    have he : emitSpInfo L = fun _ => [] := by funext m; simp [emitSpInfo, hsp]
    rw [he]
    refine LawfulSlot.congr this ?_
    intro f
    cases f <;> simp

theorem lawful_label (L : Lib) {isSlot : Pair → Prop} (hs : L.sp = true → ∀ v, isSlot (bare PSBT_OUT_SP_V0_LABEL v))
    (hs' : L.sp = false → ∀ p, ¬ isSlot p) :
    LawfulSlot isSlot insSpLabel none (emitSpLabel L)
      (fun f => (∀ p ∈ emitSpLabel L f, PairFits p) ∧ (L.sp = false → f = none)) := by
  cases hsp : L.sp with
  | true =>
    have := (isOpt_label isSlot).lawful (emit1 := fun v => bare PSBT_OUT_SP_V0_LABEL (u32Codec.ser v))
      (emit := emitSpLabel L) (Extra := fun v => True) (by simp [emitSpLabel, emitOpt])
      (by simp [emitSpLabel, emitOpt, hsp])
      (by
        intro p v hp _ h
        exact ⟨pairFits_bare_short _ (by rw [u32_ser_length]; decide), trivial⟩)
      (by
        intro v hf _
        refine ⟨hs hsp _, ?_⟩
        simp only [parseLabel, bare, u32_ser_length, and_self, if_true]
        rw [show u32Codec.ser v = encU32 v from rfl, ofNat_leDec_encU32])
    simpa using this
  | false =>
    have := lawful_never (isSlot := isSlot) (step := insSpLabel) (init := none) (fun f p f' hp => absurd hp (hs' hsp p))
    have he : emitSpLabel L = fun _ => [] := by funext m; simp [emitSpLabel, hsp]
    rw [he]
    refine LawfulSlot.congr this ?_
    intro f
    cases f <;> simp

theorem out_no_sp : ∀ t : UInt8, outSlot false t ≠ .spInfo ∧ outSlot false t ≠ .spLabel :=
  forall_u8 (by decide +kernel)

theorem out_lawful (L : Lib) (s : OutSlot) :
    LawfulSlot (fun p => (outSys L).slotOf p = s) ((outSys L).step s) ((outSys L).get s (Output.placeholder L))
      (outEmit L s) (OutInv L s) := by
  have hk : ∀ t s', t ≠ PSBT_OUT_SP_V0_INFO → t ≠ PSBT_OUT_SP_V0_LABEL → outSlot false t = s' →
      ∀ k v, (outSys L).slotOf ⟨⟨t, k⟩, v⟩ = s' := by
    intro t s' h1 h2 h k v
    simp only [outSys]
    rw [← h]; unfold outSlot; simp [h1, h2]
  have hb : ∀ t s', t ≠ PSBT_OUT_SP_V0_INFO → t ≠ PSBT_OUT_SP_V0_LABEL → outSlot false t = s' →
      ∀ v, (outSys L).slotOf (bare t v) = s' := fun t s' h1 h2 h v => hk t s' h1 h2 h [] v
  cases s with
  | amount => exact lawful_outAmount (hb _ _ (by decide) (by decide) (by decide))
  | script => exact lawful_outSpk (hb _ _ (by decide) (by decide) (by decide))
  | redeemScript => exact lawful_insOpt' lawful_raw _ (hb _ _ (by decide) (by decide) (by decide))
  | witnessScript => exact lawful_insOpt' lawful_raw _ (hb _ _ (by decide) (by decide) (by decide))
  | bip32 =>
    exact lawful_insMap' (lawful_foreign _ _) lawful_keySource Foreign.bytes_ne_nil _
      (hk _ _ (by decide) (by decide) (by decide))
  | tapInternalKey => exact lawful_insOpt' (lawful_foreign _ _) _ (hb _ _ (by decide) (by decide) (by decide))
  | tapTree => exact lawful_insOpt' (lawful_tapTree L) _ (hb _ _ (by decide) (by decide) (by decide))
  | tapKeyOrigins =>
    exact lawful_insMap' (lawful_foreign _ _) lawful_tapOrigin Foreign.bytes_ne_nil _
      (hk _ _ (by decide) (by decide) (by decide))
  | spInfo =>
    exact lawful_info L (fun h v => by simp only [outSys, bare, h]; decide)
      (fun h p e => (out_no_sp p.key.ty).1 (by rw [← h]; exact e))
  | spLabel =>
    exact lawful_label L (fun h v => by simp only [outSys, bare, h]; decide)
      (fun h p e => (out_no_sp p.key.ty).2 (by rw [← h]; exact e))
  | proprietary => exact lawful_prop (isKeyed_insProp _) (hk _ _ (by decide) (by decide) (by decide))
  | unknown => exact lawful_unknown (isT := fun t => outSlot L.sp t = .unknown)

/-- Pairs that do not carry one of the two placeholder values. -/
def OutQ (p : Pair) : Prop :=
  (p.key.ty = PSBT_OUT_AMOUNT → p.value ≠ amountCodec.ser 0) ∧
  (p.key.ty = PSBT_OUT_SCRIPT → p.value ≠ [])

theorem outSlot_amount : ∀ sp t, outSlot sp t = .amount → t = PSBT_OUT_AMOUNT :=
  fun sp => forall_u8 (by cases sp <;> decide +kernel)

theorem outSlot_script : ∀ sp t, outSlot sp t = .script → t = PSBT_OUT_SCRIPT :=
  fun sp => forall_u8 (by cases sp <;> decide +kernel)

theorem out_comm (L : Lib) (s : OutSlot) :
    CommSlot (fun p => OutQ p ∧ (outSys L).slotOf p = s) ((outSys L).step s) := by
  cases s with
  | amount =>
    apply (isSentinel_amount _).comm
    intro p hQ hs h
    rw [parseVal_some] at h
    exact hQ.1 (outSlot_amount _ _ hs) (amountCodec_exact h)
  | script =>
    apply (isSentinel_spk _).comm
    intro p hQ hs h
    rw [parseVal_some] at h
    simp only [rawCodec, Except.ok.injEq] at h
    exact hQ.2 (outSlot_script _ _ hs) h
  | redeemScript => exact (isOpt_insOpt _ _).comm
  | witnessScript => exact (isOpt_insOpt _ _).comm
  | bip32 => exact (isKeyed_insMap _ _ _).comm parseMap_key
  | tapInternalKey => exact (isOpt_insOpt _ _).comm
  | tapTree => exact (isOpt_insOpt _ _).comm
  | tapKeyOrigins => exact (isKeyed_insMap _ _ _).comm parseMap_key
  | spInfo => exact (isOpt_info _).comm
  | spLabel => exact (isOpt_label _).comm
  | proprietary => exact (isKeyed_insProp _).comm parseProp_key
  | unknown => exact (isKeyed_insUnknown _).comm parseUnknown_key

end Psbt.V2
