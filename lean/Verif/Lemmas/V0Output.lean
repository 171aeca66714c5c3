/- The v0 output map as a slot system. -/
import Verif.Lemmas.V2Input
import Verif.Model.V0.Output
namespace Psbt.V0
open Psbt

/-- The type of each field. -/
abbrev OutF (L : Lib) : OutSlot → Type
  | .redeemScript => Option Bytes
  | .witnessScript => Option Bytes
  | .bip32 => BMap L.secpPk.T KeySource
  | .tapInternalKey => Option L.xonly.T
  | .tapTree => Option (TapTree L)
  | .tapKeyOrigins => BMap L.xonly.T (List Hash32 × KeySource)
  | .proprietary => BMap PropKey Bytes
  | .unknown => BMap RawKey Bytes
  | .excluded => Unit

def outGet (L : Lib) : (s : OutSlot) → Output L → OutF L s
  | .redeemScript, i => i.redeemScript
  | .witnessScript, i => i.witnessScript
  | .bip32, i => i.bip32Derivation
  | .tapInternalKey, i => i.tapInternalKey
  | .tapTree, i => i.tapTree
  | .tapKeyOrigins, i => i.tapKeyOrigins
  | .proprietary, i => i.proprietary
  | .unknown, i => i.unknown
  | .excluded, _ => ()

def outSet (L : Lib) : (s : OutSlot) → OutF L s → Output L → Output L
  | .redeemScript, f, i => { i with redeemScript := f }
  | .witnessScript, f, i => { i with witnessScript := f }
  | .bip32, f, i => { i with bip32Derivation := f }
  | .tapInternalKey, f, i => { i with tapInternalKey := f }
  | .tapTree, f, i => { i with tapTree := f }
  | .tapKeyOrigins, f, i => { i with tapKeyOrigins := f }
  | .proprietary, f, i => { i with proprietary := f }
  | .unknown, f, i => { i with unknown := f }
  | .excluded, _, i => i

def outStep (L : Lib) : (s : OutSlot) → OutF L s → Pair → Except Err (OutF L s)
  | .redeemScript => insOpt rawCodec
  | .witnessScript => insOpt rawCodec
  | .bip32 => insMap (secpPkCodec L) keySourceCodec
  | .tapInternalKey => insOpt (xonlyCodec L)
  | .tapTree => insOpt (tapTreeCodec L)
  | .tapKeyOrigins => insMap (xonlyCodec L) tapOriginCodec
  | .proprietary => insProp
  | .unknown => insUnknown
  | .excluded => fun _ p => .error (.excludedKey p.key.ty)

def outEmit (L : Lib) : (s : OutSlot) → OutF L s → List Pair
  | .redeemScript => emitOpt PSBT_OUT_REDEEM_SCRIPT rawCodec
  | .witnessScript => emitOpt PSBT_OUT_WITNESS_SCRIPT rawCodec
  | .bip32 => emitMap PSBT_OUT_BIP32_DERIVATION (secpPkCodec L) keySourceCodec
  | .tapInternalKey => emitOpt PSBT_OUT_TAP_INTERNAL_KEY (xonlyCodec L)
  | .tapTree => emitOpt PSBT_OUT_TAP_TREE (tapTreeCodec L)
  | .tapKeyOrigins => emitMap PSBT_OUT_TAP_BIP32_DERIVATION (xonlyCodec L) tapOriginCodec
  | .proprietary => emitProp
  | .unknown => emitUnknown
  | .excluded => fun _ => []

def outOrder : List OutSlot :=
  [.redeemScript, .witnessScript, .bip32, .tapInternalKey, .tapTree, .tapKeyOrigins, .proprietary, .unknown, .excluded]

theorem outOrder_nodup : outOrder.Nodup := by decide
theorem mem_outOrder (s : OutSlot) : s ∈ outOrder := by cases s <;> decide

def outSys (L : Lib) : SlotSys (Output L) OutSlot Err where
  F := OutF L
  get := outGet L
  set := outSet L
  get_set s f m := by cases s <;> rfl
  get_set_ne s t f m h := by
    cases t <;> cases s <;> first | rfl | exact absurd rfl h
  ext m m' h := by
    obtain ⟨⟩ := m
    obtain ⟨⟩ := m'
    have h0 := h .redeemScript
    have h1 := h .witnessScript
    have h2 := h .bip32
    have h3 := h .tapInternalKey
    have h4 := h .tapTree
    have h5 := h .tapKeyOrigins
    have h6 := h .proprietary
    have h7 := h .unknown
    simp only [outGet] at *
    subst_vars
    rfl
  slotOf p := outSlot p.key.ty
  step := outStep L

theorem out_ins (L : Lib) : Output.insertPair (L := L) = (outSys L).ins := by
  funext i p
  unfold Output.insertPair SlotSys.ins
  simp only [outSys]
  generalize outSlot p.key.ty = s
  cases s <;> rfl

theorem out_pairs (L : Lib) (i : Output L) : i.getPairs = (outSys L).pairs outOrder (outEmit L) i := by
  simp [Output.getPairs, SlotSys.pairs, outOrder, outEmit, outSys, outGet]

/-- What each field of a decoded map satisfies. -/
def OutInv (L : Lib) : (s : OutSlot) → OutF L s → Prop
  | .proprietary => fun f => (∀ p ∈ outEmit L .proprietary f, PairFits p) ∧ ∀ k v, f.get k = some v → PropFits k
  | .unknown => fun f =>
    (∀ p ∈ outEmit L .unknown f, PairFits p) ∧ ∀ k v, f.get k = some v → outSlot k.ty = .unknown
  | .excluded => fun f => f = ()
  | s => fun f => ∀ p ∈ outEmit L s f, PairFits p

theorem out_lawful (L : Lib) (s : OutSlot) :
    LawfulSlot (fun p => (outSys L).slotOf p = s) ((outSys L).step s) ((outSys L).get s (Output.default L))
      (outEmit L s) (OutInv L s) := by
  have hk : ∀ t s', outSlot t = s' → ∀ k v, (outSys L).slotOf ⟨⟨t, k⟩, v⟩ = s' := fun t s' h k v => h
  have hb : ∀ t s', outSlot t = s' → ∀ v, (outSys L).slotOf (bare t v) = s' := fun t s' h v => h
  cases s with
  | redeemScript => exact lawful_insOpt' lawful_raw _ (hb _ _ (by decide))
  | witnessScript => exact lawful_insOpt' lawful_raw _ (hb _ _ (by decide))
  | bip32 => exact lawful_insMap' (lawful_foreign _ _) lawful_keySource Foreign.bytes_ne_nil _ (hk _ _ (by decide))
  | tapInternalKey => exact lawful_insOpt' (lawful_foreign _ _) _ (hb _ _ (by decide))
  | tapTree => exact lawful_insOpt' (lawful_tapTree L) _ (hb _ _ (by decide))
  | tapKeyOrigins => exact lawful_insMap' (lawful_foreign _ _) lawful_tapOrigin Foreign.bytes_ne_nil _ (hk _ _ (by decide))
  | proprietary => exact lawful_prop (isKeyed_insProp _) (hk _ _ (by decide))
  | unknown => exact lawful_unknown (isT := fun t => outSlot t = .unknown)
  | excluded => exact lawful_never (fun f p f' _ h => by cases h)

theorem out_comm (L : Lib) (s : OutSlot) : CommSlot (fun p => True ∧ (outSys L).slotOf p = s) ((outSys L).step s) := by
  cases s with
  | redeemScript => exact (isOpt_insOpt _ _).comm
  | witnessScript => exact (isOpt_insOpt _ _).comm
  | bip32 => exact (isKeyed_insMap _ _ _).comm parseMap_key
  | tapInternalKey => exact (isOpt_insOpt _ _).comm
  | tapTree => exact (isOpt_insOpt _ _).comm
  | tapKeyOrigins => exact (isKeyed_insMap _ _ _).comm parseMap_key
  | proprietary => exact (isKeyed_insProp _).comm parseProp_key
  | unknown => exact (isKeyed_insUnknown _).comm parseUnknown_key
  | excluded => exact comm_never (fun f p f' _ h => by cases h)

end Psbt.V0
