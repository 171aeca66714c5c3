/- The calls of the roles keep a PSBT v2 one the wire format can carry. -/
import Verif.Spec.HandOver
import Verif.Lemmas.Parallel
import Verif.Lemmas.Limits
import Verif.Props.V2Parse
import Verif.Props.V2Combine
import Verif.Props.V2Finalize
namespace Psbt.V2
open Psbt

variable {L : Lib} {S : SigLib L} {M : MsLib L}

/-- `Spec.WF` without the two conditions about memory. -/
structure Sound (p : Psbt L) : Prop where
  global : Spec.GlobalWF p.global
  inputs : ∀ i ∈ p.inputs, Spec.InputWF i
  outputs : ∀ o ∈ p.outputs, Spec.OutputWF o
  inputCount : p.global.inputCount.toNat = p.inputs.length
  outputCount : p.global.outputCount.toNat = p.outputs.length

theorem wf_iff_sound {p : Psbt L} : Spec.WF p ↔ Sound p ∧ Spec.Fits p :=
  ⟨fun h => ⟨⟨h.global, h.inputs, h.outputs, h.inputCount, h.outputCount⟩, h.inputMem, h.outputMem⟩,
    fun ⟨h, m1, m2⟩ => ⟨h.global, h.inputs, h.outputs, h.inputCount, h.outputCount, m1, m2⟩⟩

/-! ### Sizes, field by field -/

theorem input_sizes {i : Input L} {P : Pair → Prop} : (∀ q ∈ i.getPairs, P q) ↔
    ∀ ls ∈ [
      [bare PSBT_IN_PREVIOUS_TXID i.previousTxid.1],
      [bare PSBT_IN_OUTPUT_INDEX (u32Codec.ser i.spentOutputIndex)],
      emitOpt PSBT_IN_SEQUENCE u32Codec i.sequence,
      emitOpt PSBT_IN_REQUIRED_TIME_LOCKTIME timeCodec i.minTime,
      emitOpt PSBT_IN_REQUIRED_HEIGHT_LOCKTIME heightCodec i.minHeight,
      emitOpt PSBT_IN_NON_WITNESS_UTXO txCodec i.nonWitnessUtxo,
      emitOpt PSBT_IN_WITNESS_UTXO txOutCodec i.witnessUtxo,
      emitMap PSBT_IN_PARTIAL_SIG (pubkeyCodec L) (ecdsaSigCodec L) i.partialSigs,
      emitOpt PSBT_IN_SIGHASH_TYPE u32Codec i.sighashType,
      emitOpt PSBT_IN_REDEEM_SCRIPT rawCodec i.redeemScript,
      emitOpt PSBT_IN_WITNESS_SCRIPT rawCodec i.witnessScript,
      emitMap PSBT_IN_BIP32_DERIVATION (secpPkCodec L) keySourceCodec i.bip32Derivations,
      emitOpt PSBT_IN_FINAL_SCRIPTSIG rawCodec i.finalScriptSig,
      emitOpt PSBT_IN_FINAL_SCRIPTWITNESS witnessCodec i.finalScriptWitness,
      emitMap PSBT_IN_RIPEMD160 (hashCodec 20) rawCodec i.ripemd160Preimages,
      emitMap PSBT_IN_SHA256 (hashCodec 32) rawCodec i.sha256Preimages,
      emitMap PSBT_IN_HASH160 (hashCodec 20) rawCodec i.hash160Preimages,
      emitMap PSBT_IN_HASH256 (hashCodec 32) rawCodec i.hash256Preimages,
      emitOpt PSBT_IN_TAP_KEY_SIG tapSigCodec i.tapKeySig,
      emitMap PSBT_IN_TAP_SCRIPT_SIG (xonlyLeafCodec L) tapSigCodec i.tapScriptSigs,
      emitMap PSBT_IN_TAP_LEAF_SCRIPT (ctrlCodec L) leafScriptCodec i.tapScripts,
      emitMap PSBT_IN_TAP_BIP32_DERIVATION (xonlyCodec L) tapOriginCodec i.tapKeyOrigins,
      emitOpt PSBT_IN_TAP_INTERNAL_KEY (xonlyCodec L) i.tapInternalKey,
      emitOpt PSBT_IN_TAP_MERKLE_ROOT (hashCodec 32) i.tapMerkleRoot,
      emitSp L PSBT_IN_SP_ECDH_SHARE Foreign.T.bytes i.spEcdhShares,
      emitSp L PSBT_IN_SP_DLEQ Subtype.val i.spDleqProofs,
      emitProp i.proprietaries,
      emitUnknown i.unknowns], ∀ q ∈ ls, P q := by
  unfold Input.getPairs
  constructor
  · intro h ls hl q hq; exact h q (List.mem_flatten.mpr ⟨ls, hl, hq⟩)
  · intro h q hq
    obtain ⟨ls, hl, hq⟩ := List.mem_flatten.mp hq
    exact h ls hl q hq

theorem u32_len (n : UInt32) : (u32Codec.ser n).length = 4 := by
  show (encU32 n).length = 4
  simp [encU32]
theorem time_len (n : Time) : (timeCodec.ser n).length = 4 := by
  show (encU32 n.1).length = 4
  simp [encU32]
theorem height_len (n : Height) : (heightCodec.ser n).length = 4 := by
  show (encU32 n.1).length = 4
  simp [encU32]

theorem emitOpt_ok {α : Type} {t : UInt8} {c : Codec α} {o : Option α} :
    (∀ q ∈ emitOpt t c o, Spec.PairOk q) ↔ ∀ v, o = some v → (c.ser v).length ≤ Spec.MAX_VALUE := by
  cases o with
  | none => simp [emitOpt]
  | some v => simp [emitOpt, bare, Spec.PairOk]

theorem emitMap_ok {K V : Type} [OrdKey K] [DecidableEq K] {t : UInt8} {ck : Codec K} {cv : Codec V} {m : BMap K V} :
    (∀ q ∈ emitMap t ck cv m, Spec.PairOk q) ↔
      ∀ k v, m.get k = some v → (ck.ser k).length ≤ Spec.MAX_KEY ∧ (cv.ser v).length ≤ Spec.MAX_VALUE := by
  unfold emitMap
  constructor
  · intro h k v hk
    exact h _ (List.mem_map.mpr ⟨(k, v), BMap.mem_iff_get.mpr hk, rfl⟩)
  · intro h q hq
    obtain ⟨⟨k, v⟩, hkv, rfl⟩ := List.mem_map.mp hq
    exact h k v (BMap.mem_iff_get.mp hkv)

/-- Another sequence number. -/
theorem InputWF.sequence {i : Input L} (h : Spec.InputWF i) (n : UInt32) : Spec.InputWF { i with sequence := some n } := by
  refine { h with sizes := ?_ }
  have hs := input_sizes.mp h.sizes
  refine input_sizes.mpr ?_
  simp only [List.forall_mem_cons] at hs ⊢
  refine ⟨hs.1, hs.2.1, ?_, hs.2.2.2⟩
  refine emitOpt_ok.mpr fun v hv => ?_
  rw [u32_len]; decide

/-- Required lock times, as the builder sets them. -/
theorem InputWF.minTime {i : Input L} (h : Spec.InputWF i) (n : Time) : Spec.InputWF { i with minTime := some n } := by
  refine { h with sizes := ?_ }
  have hs := input_sizes.mp h.sizes
  refine input_sizes.mpr ?_
  simp only [List.forall_mem_cons] at hs ⊢
  refine ⟨hs.1, hs.2.1, hs.2.2.1, ?_, hs.2.2.2.2⟩
  refine emitOpt_ok.mpr fun v hv => ?_
  rw [time_len]; decide
theorem InputWF.minHeight {i : Input L} (h : Spec.InputWF i) (n : Height) : Spec.InputWF { i with minHeight := some n } := by
  refine { h with sizes := ?_ }
  have hs := input_sizes.mp h.sizes
  refine input_sizes.mpr ?_
  simp only [List.forall_mem_cons] at hs ⊢
  refine ⟨hs.1, hs.2.1, hs.2.2.1, hs.2.2.2.1, ?_, hs.2.2.2.2.2⟩
  refine emitOpt_ok.mpr fun v hv => ?_
  rw [height_len]; decide
theorem InputWF.nonWitnessUtxo {i : Input L} (h : Spec.InputWF i) {t : Tx} (ht : (encTx t).length ≤ Spec.MAX_VALUE) :
    Spec.InputWF { i with nonWitnessUtxo := some t } := by
  refine { h with sizes := ?_ }
  have hs := input_sizes.mp h.sizes
  refine input_sizes.mpr ?_
  simp only [List.forall_mem_cons] at hs ⊢
  refine ⟨hs.1, hs.2.1, hs.2.2.1, hs.2.2.2.1, hs.2.2.2.2.1, ?_, hs.2.2.2.2.2.2⟩
  refine emitOpt_ok.mpr fun v hv => ?_
  cases hv; exact ht
theorem InputWF.witnessUtxo {i : Input L} (h : Spec.InputWF i) {u : TxOut} (hu : (encTxOut u).length ≤ Spec.MAX_VALUE) :
    Spec.InputWF { i with witnessUtxo := some u } := by
  refine { h with sizes := ?_ }
  have hs := input_sizes.mp h.sizes
  refine input_sizes.mpr ?_
  simp only [List.forall_mem_cons] at hs ⊢
  refine ⟨hs.1, hs.2.1, hs.2.2.1, hs.2.2.2.1, hs.2.2.2.2.1, hs.2.2.2.2.2.1, ?_, hs.2.2.2.2.2.2.2⟩
  refine emitOpt_ok.mpr fun v hv => ?_
  cases hv; exact hu

/-- Other partial signatures. -/
theorem InputWF.partialSigs {i : Input L} (h : Spec.InputWF i) {m : BMap L.pubkey.T (EcdsaSig L)}
    (hm : ∀ pk s, m.get pk = some s → i.partialSigs.get pk = some s ∨ pk.bytes.length ≤ 65 ∧ s.der.bytes.length ≤ 72) :
    Spec.InputWF { i with partialSigs := m } := by
  refine { h with sizes := ?_ }
  have hs := input_sizes.mp h.sizes
  refine input_sizes.mpr ?_
  simp only [List.forall_mem_cons] at hs ⊢
  refine ⟨hs.1, hs.2.1, hs.2.2.1, hs.2.2.2.1, hs.2.2.2.2.1, hs.2.2.2.2.2.1, hs.2.2.2.2.2.2.1, ?_, hs.2.2.2.2.2.2.2.2⟩
  refine emitMap_ok.mpr fun pk s hg => ?_
  rcases hm pk s hg with h1 | ⟨h1, h2⟩
  · exact emitMap_ok.mp hs.2.2.2.2.2.2.2.1 pk s h1
  · have e1 : (pubkeyCodec L).ser pk = pk.bytes := rfl
    have e2 : (ecdsaSigCodec L).ser s = s.der.bytes ++ [s.ty.1] := rfl
    rw [e1, e2, List.length_append]
    simp only [Spec.MAX_KEY, Spec.MAX_VALUE, List.length_singleton]
    omega

theorem BMap.get_empty_ne {K V : Type} [OrdKey K] [DecidableEq K] {k : K} {v : V} : (BMap.empty : BMap K V).get k ≠ some v := by
  intro h; cases h

/-- A new input. -/
theorem InputWF.new {o : OutPoint} (h1 : o.txid.1 ≠ List.replicate 32 0) (h2 : o.vout ≠ 0xFFFFFFFF) : Spec.InputWF (Input.new L o) where
  txid := h1
  vout := h2
  sizes := by
    refine input_sizes.mpr ?_
    simp only [List.forall_mem_cons, Input.new]
    have := o.txid.2
    refine ⟨?_, ?_, ?_⟩
    · exact ⟨by simp [Spec.PairOk, bare, Spec.MAX_VALUE, this], fun _ h => by cases h⟩
    · exact ⟨by simp [Spec.PairOk, bare, Spec.MAX_VALUE, u32_len], fun _ h => by cases h⟩
    · simp only [emitOpt, emitMap, emitProp, emitUnknown, emitSp, BMap.empty, List.map_nil, List.not_mem_nil, false_imp_iff,
        implies_true, ite_self, true_and]
  ripemd160 _ _ h := (BMap.get_empty_ne h).elim
  sha256 _ _ h := (BMap.get_empty_ne h).elim
  hash160 _ _ h := (BMap.get_empty_ne h).elim
  hash256 _ _ h := (BMap.get_empty_ne h).elim
  props _ _ h := (BMap.get_empty_ne h).elim
  unknowns _ _ h := (BMap.get_empty_ne h).elim
  spOff _ := ⟨rfl, rfl⟩
  spOn _ := ⟨fun _ => rfl, fun _ => rfl⟩

/-- A finalized input. -/
theorem InputWF.onlyFinal {i : Input L} (h : Spec.InputWF i) {s : Option Bytes} {w : Option (List Bytes)}
    (hs : ∀ x, s = some x → x.length ≤ Spec.MAX_VALUE) (hw : ∀ x, w = some x → (encWitness x).length ≤ Spec.MAX_VALUE) :
    Spec.InputWF (Spec.onlyFinal i s w) := by
  have hn : Spec.InputWF (Input.new L ⟨i.previousTxid, i.spentOutputIndex⟩) := InputWF.new h.txid h.vout
  have h1 := input_sizes.mp h.sizes
  have h2 := input_sizes.mp hn.sizes
  refine { hn with sizes := input_sizes.mpr ?_ }
  simp only [List.forall_mem_cons, Spec.onlyFinal] at h1 h2 ⊢
  obtain ⟨a1, a2, a3, a4, a5, a6, a7, a8, a9, a10, a11, a12, a13, a14, a15⟩ := h2
  exact ⟨a1, a2, a3, a4, a5, h1.2.2.2.2.2.1, h1.2.2.2.2.2.2.1, a8, a9, a10, a11, a12, emitOpt_ok.mpr hs, emitOpt_ok.mpr hw, a15⟩

theorem or_some {α : Type} {a b : Option α} {v : α} (h : a.or b = some v) : a = some v ∨ b = some v := by
  cases a with
  | none => exact .inr h
  | some x => exact .inl h

theorem extend_some {K V : Type} [OrdKey K] [DecidableEq K] {m n : BMap K V} {k : K} {v : V} (h : (m.extend n).get k = some v) :
    m.get k = some v ∨ n.get k = some v := by
  rw [BMap.get_extend] at h
  exact (or_some h).symm

theorem extend_eq_empty {K V : Type} [OrdKey K] [DecidableEq K] {m n : BMap K V} : m.extend n = .empty ↔ m = .empty ∧ n = .empty := by
  constructor
  · intro h
    have key : ∀ k, (n.get k).or (m.get k) = none := by
      intro k
      rw [← BMap.get_extend, h]; rfl
    have z : ∀ {a b : Option V}, a.or b = none → a = none ∧ b = none := by
      intro a b h
      cases a with
      | none => exact ⟨rfl, h⟩
      | some x => cases h
    exact ⟨BMap.ext_get fun k => (z (key k)).2, BMap.ext_get fun k => (z (key k)).1⟩
  · rintro ⟨rfl, rfl⟩; rfl

/-- Combined inputs. -/
theorem InputWF.merge {a b : Input L} (ha : Spec.InputWF a) (hb : Spec.InputWF b) : Spec.InputWF (a.merge b) where
  txid := ha.txid
  vout := ha.vout
  sizes q hq := ((merged_input a b).1 q hq).elim (ha.sizes q) (hb.sizes q)
  ripemd160 k v h := (extend_some h).elim (ha.ripemd160 k v) (hb.ripemd160 k v)
  sha256 k v h := (extend_some h).elim (ha.sha256 k v) (hb.sha256 k v)
  hash160 k v h := (extend_some h).elim (ha.hash160 k v) (hb.hash160 k v)
  hash256 k v h := (extend_some h).elim (ha.hash256 k v) (hb.hash256 k v)
  props k v h := (extend_some h).elim (ha.props k v) (hb.props k v)
  unknowns k v h := (extend_some h).elim (ha.unknowns k v) (hb.unknowns k v)
  spOff h := ⟨extend_eq_empty.mpr ⟨(ha.spOff h).1, (hb.spOff h).1⟩, extend_eq_empty.mpr ⟨(ha.spOff h).2, (hb.spOff h).2⟩⟩
  spOn h := by
    show a.spEcdhShares.extend b.spEcdhShares = .empty ↔ a.spDleqProofs.extend b.spDleqProofs = .empty
    rw [extend_eq_empty, extend_eq_empty, ha.spOn h, hb.spOn h]

theorem combOpt_none {α : Type} {a b : Option α} : combOpt a b = none ↔ a = none ∧ b = none := by
  cases a <;> cases b <;> simp [combOpt]
theorem combOpt_some {α : Type} {a b : Option α} {v : α} (h : combOpt a b = some v) : a = some v ∨ b = some v := by
  rw [combOpt_eq] at h
  exact or_some h

/-- Combined outputs. -/
theorem OutputWF.merge {a b : Output L} (ha : Spec.OutputWF a) (hb : Spec.OutputWF b) : Spec.OutputWF (a.merge b) where
  amount := ha.amount
  script := ha.script
  sizes q hq := ((merged_output a b).1 q hq).elim (ha.sizes q) (hb.sizes q)
  props k v h := (extend_some h).elim (ha.props k v) (hb.props k v)
  unknowns k v h := (extend_some h).elim (ha.unknowns k v) (hb.unknowns k v)
  info v h := (combOpt_some h).elim (ha.info v) (hb.info v)
  spOff h := ⟨combOpt_none.mpr ⟨(ha.spOff h).1, (hb.spOff h).1⟩, combOpt_none.mpr ⟨(ha.spOff h).2, (hb.spOff h).2⟩⟩
  spOn h := by
    show combOpt a.spV0Label b.spV0Label ≠ none → combOpt a.spV0Info b.spV0Info ≠ none
    intro h1 h2
    obtain ⟨h3, h4⟩ := combOpt_none.mp h2
    refine h1 (combOpt_none.mpr ⟨?_, ?_⟩)
    · exact Classical.byContradiction fun h5 => ha.spOn h h5 h3
    · exact Classical.byContradiction fun h5 => hb.spOn h h5 h4

/-- Combined global maps. -/
theorem GlobalWF.combine {a b c : Global L} (h : a.combine b = .ok c) (ha : Spec.GlobalWF a) (hb : Spec.GlobalWF b) : Spec.GlobalWF c := by
  obtain ⟨-, -, -, hc⟩ := globalCombine_ok.mp h
  refine ⟨?_, fun q hq => ((merged_global h).1 q hq).elim (ha.sizes q) (hb.sizes q), ?_, ?_, ?_, ?_⟩
  · rw [hc]; exact ha.version
  · intro k v hk
    rw [hc] at hk
    exact (extend_some hk).elim (ha.props k v) (hb.props k v)
  · intro k v hk
    rw [hc] at hk
    exact (extend_some hk).elim (ha.unknowns k v) (hb.unknowns k v)
  · intro hsp
    rw [hc]
    exact ⟨extend_eq_empty.mpr ⟨(ha.spOff hsp).1, (hb.spOff hsp).1⟩, extend_eq_empty.mpr ⟨(ha.spOff hsp).2, (hb.spOff hsp).2⟩⟩
  · intro hsp
    rw [hc]
    show a.spEcdhShares.extend b.spEcdhShares = .empty ↔ a.spDleqProofs.extend b.spDleqProofs = .empty
    rw [extend_eq_empty, extend_eq_empty, ha.spOn hsp, hb.spOn hsp]

theorem zip_all {ε α : Type} {f : α → α → Except ε α} {P : α → Prop} (hf : ∀ a b c, P a → P b → f a b = .ok c → P c) {as bs cs : List α}
    (h : combineZip f as bs = .ok cs) (ha : ∀ a ∈ as, P a) (hb : ∀ b ∈ bs, P b) : ∀ c ∈ cs, P c := by
  obtain ⟨hl, hz⟩ := combineZip_ok.mp h
  intro c hc
  obtain ⟨n, hn⟩ := List.mem_iff_getElem?.mp hc
  have hlt := (List.getElem?_eq_some_iff.mp hn).1
  have ha' : as[n]? = some (as[n]'(by omega)) := List.getElem?_eq_getElem _
  obtain ⟨z1, z2⟩ := hz n _ _ ha' hn
  cases hbn : bs[n]? with
  | none => rw [z2 hbn]; exact ha _ (List.mem_of_getElem? ha')
  | some b => exact hf _ b c (ha _ (List.mem_of_getElem? ha')) (hb b (List.mem_of_getElem? hbn)) (z1 b hbn)

theorem Sound.combine {p q r : Psbt L} (h : p.combine q = .ok r) (hp : Sound p) (hq : Sound q) : Sound r := by
  obtain ⟨hg, hi, ho⟩ := combine_ok.mp h
  obtain ⟨-, -, -, hc⟩ := globalCombine_ok.mp hg
  refine ⟨GlobalWF.combine hg hp.global hq.global, zip_all ?_ hi hp.inputs hq.inputs, zip_all ?_ ho hp.outputs hq.outputs, ?_, ?_⟩
  · intro a b c ha hb hab
    rw [(inputCombine_ok.mp hab).2.2]; exact InputWF.merge ha hb
  · intro a b c ha hb hab
    rw [(outputCombine_ok.mp hab).2.2]; exact OutputWF.merge ha hb
  · rw [hc, (combineZip_ok.mp hi).1]; exact hp.inputCount
  · rw [hc, (combineZip_ok.mp ho).1]; exact hp.outputCount

/-! ### Global map -/

theorem global_sizes {g : Global L} {P : Pair → Prop} : (∀ q ∈ g.getPairs, P q) ↔
    ∀ ls ∈ [
      [bare PSBT_GLOBAL_VERSION (versionCodec.ser g.version)],
      [bare PSBT_GLOBAL_TX_VERSION (u32Codec.ser g.txVersion)],
      emitOpt PSBT_GLOBAL_FALLBACK_LOCKTIME u32Codec g.fallbackLockTime,
      [bare PSBT_GLOBAL_INPUT_COUNT (encVar g.inputCount.toNat)],
      [bare PSBT_GLOBAL_OUTPUT_COUNT (encVar g.outputCount.toNat)],
      [bare PSBT_GLOBAL_TX_MODIFIABLE [g.txModifiableFlags]],
      g.xpubs.l.map (fun kv => ⟨⟨PSBT_GLOBAL_XPUB, kv.1.bytes⟩, keySourceCodec.ser kv.2⟩),
      emitSp L PSBT_GLOBAL_SP_ECDH_SHARE Foreign.T.bytes g.spEcdhShares,
      emitSp L PSBT_GLOBAL_SP_DLEQ Subtype.val g.spDleqProofs,
      emitProp g.proprietaries,
      emitUnknown g.unknowns], ∀ q ∈ ls, P q := by
  unfold Global.getPairs
  constructor
  · intro h ls hl q hq; exact h q (List.mem_flatten.mpr ⟨ls, hl, hq⟩)
  · intro h q hq
    obtain ⟨ls, hl, hq⟩ := List.mem_flatten.mp hq
    exact h ls hl q hq

theorem bare_ok {t : UInt8} {v : Bytes} (h : v.length ≤ 9) : ∀ q ∈ [bare t v], Spec.PairOk q := by
  intro q hq
  rw [List.mem_singleton] at hq
  subst hq
  simp only [Spec.PairOk, bare, Spec.MAX_VALUE, Spec.MAX_KEY, List.length_nil]
  omega

theorem encVar_small (n : Nat) : (encVar n).length ≤ 9 := by
  rw [encVar_length]; repeat' split
  all_goals omega

/-- The transaction version, fallback lock time, counts and flags may have any value. -/
theorem GlobalWF.set {g : Global L} (h : Spec.GlobalWF g) (v : UInt32) (f : Option UInt32) (m : UInt8) (n k : UInt64) :
    Spec.GlobalWF { g with txVersion := v, fallbackLockTime := f, txModifiableFlags := m, inputCount := n, outputCount := k } := by
  refine { h with sizes := global_sizes.mpr ?_ }
  have hs := global_sizes.mp h.sizes
  simp only [List.forall_mem_cons (l := _ :: _), List.forall_mem_cons (a := g.xpubs.l.map _)] at hs
  intro ls hl
  simp only [List.mem_cons, List.not_mem_nil, or_false] at hl
  rcases hl with rfl | rfl | rfl | rfl | rfl | rfl | hl
  · exact bare_ok (by show (encU32 _).length ≤ 9; simp [encU32])
  · exact bare_ok (by rw [u32_len]; omega)
  · exact emitOpt_ok.mpr fun v _ => by rw [u32_len]; decide
  · exact bare_ok (encVar_small _)
  · exact bare_ok (encVar_small _)
  · exact bare_ok (by simp)
  · refine global_sizes.mp h.sizes ls ?_
    simp only [List.mem_cons, List.not_mem_nil, or_false]
    exact .inr (.inr (.inr (.inr (.inr (.inr hl)))))

theorem GlobalWF.new : Spec.GlobalWF (Global.new L) where
  version := rfl
  sizes := by
    refine global_sizes.mpr ?_
    intro ls hl
    simp only [List.mem_cons, List.not_mem_nil, or_false] at hl
    rcases hl with rfl | rfl | rfl | rfl | rfl | rfl | rfl | rfl | rfl | rfl | rfl
    · exact bare_ok (by show (encU32 _).length ≤ 9; simp [encU32])
    · exact bare_ok (by rw [u32_len]; omega)
    · exact emitOpt_ok.mpr fun v _ => by rw [u32_len]; decide
    · exact bare_ok (encVar_small _)
    · exact bare_ok (encVar_small _)
    · exact bare_ok (by simp)
    all_goals
      intro q hq
      simp [Global.new, emitSp, emitProp, emitUnknown, BMap.empty] at hq
  props _ _ h := (BMap.get_empty_ne h).elim
  unknowns _ _ h := (BMap.get_empty_ne h).elim
  spOff _ := ⟨rfl, rfl⟩
  spOn _ := ⟨fun _ => rfl, fun _ => rfl⟩

theorem Sound.setGlobal {p : Psbt L} (h : Sound p) (v : UInt32) (f : Option UInt32) (m : UInt8) :
    Sound { p with global := { p.global with txVersion := v, fallbackLockTime := f, txModifiableFlags := m } } :=
  ⟨GlobalWF.set h.global v f m p.global.inputCount p.global.outputCount, h.inputs, h.outputs, h.inputCount, h.outputCount⟩

theorem Sound.input {p q : Psbt L} {i : Input L} (h : Sound p) (hi : Spec.InputWF i) (e : Constructor.input p i = .ok q) : Sound q := by
  unfold Constructor.input at e
  rw [bind_ok] at e
  obtain ⟨n, hn, e⟩ := e
  cases e
  refine ⟨GlobalWF.set h.global _ _ _ n p.global.outputCount, ?_, h.outputs, ?_, h.outputCount⟩
  · intro j hj
    rcases List.mem_append.mp hj with hj | hj
    · exact h.inputs j hj
    · rw [List.mem_singleton.mp hj]; exact hi
  · show n.toNat = (p.inputs ++ [i]).length
    rw [addOne_ok hn, h.inputCount, List.length_append]; rfl

theorem Sound.output {p q : Psbt L} {o : Output L} (h : Sound p) (ho : Spec.OutputWF o) (e : Constructor.output p o = .ok q) : Sound q := by
  unfold Constructor.output at e
  rw [bind_ok] at e
  obtain ⟨n, hn, e⟩ := e
  cases e
  refine ⟨GlobalWF.set h.global _ _ _ p.global.inputCount n, h.inputs, ?_, h.inputCount, ?_⟩
  · intro j hj
    rcases List.mem_append.mp hj with hj | hj
    · exact h.outputs j hj
    · rw [List.mem_singleton.mp hj]; exact ho
  · show n.toNat = (p.outputs ++ [o]).length
    rw [addOne_ok hn, h.outputCount, List.length_append]; rfl

theorem Sound.sign {p q : Psbt L} {tx : Tx} {k : Provider S} {r} (hS : Spec.SmallKeys S) (h : Sound p) (e : p.sign S tx k = .ok (q, r)) :
    Sound q := by
  have he := C33_frame e
  have hl := length_congr he
  have hg : ∃ m, q.global = { p.global with txModifiableFlags := m } := by
    refine ⟨q.global.txModifiableFlags, ?_⟩
    have : (Spec.erase q).global = (Spec.erase p).global := by rw [he]
    have h2 : { (Spec.erase q).global with txModifiableFlags := q.global.txModifiableFlags } =
      { (Spec.erase p).global with txModifiableFlags := q.global.txModifiableFlags } := by rw [this]
    exact h2
  obtain ⟨m, hg⟩ := hg
  refine ⟨?_, ?_, ?_, ?_, ?_⟩
  · rw [hg]; exact GlobalWF.set h.global _ _ m _ _
  · intro j hj
    obtain ⟨n, hn⟩ := List.mem_iff_getElem?.mp hj
    obtain ⟨i, hi⟩ : ∃ i, p.inputs[n]? = some i :=
      ⟨_, List.getElem?_eq_getElem (by rw [← hl]; exact (List.getElem?_eq_some_iff.mp hn).1)⟩
    have h1 := sign_input e n
    rw [hi, hn, Option.map_some, Option.some.injEq] at h1
    have h2 : j = { i with partialSigs := j.partialSigs } := by rw [h1]; split <;> rfl
    rw [h2]
    refine InputWF.partialSigs (h.inputs _ (List.mem_of_getElem? hi)) fun pk s hs => ?_
    obtain ⟨-, h3 | ⟨m, ty, sk, -, -, rfl, h3⟩, -⟩ := C33_existing_signatures e hi hn pk
    · exact .inl (h3.symm.trans hs)
    · rw [hs] at h3
      cases h3
      exact .inr ⟨(hS sk).1, (hS sk).2 m⟩
  · rw [outputs_congr he]; exact h.outputs
  · rw [hg, hl]; exact h.inputCount
  · rw [hg, outputs_congr he]; exact h.outputCount

theorem Sound.finalize {p q : Psbt L} {debug : Bool} (h : Sound p) (hn : Finalizer.new p = .ok p) (e : Finalizer.finalize M debug p = .ok q)
    (hf : Spec.SmallFinal q) : Sound q := by
  obtain ⟨-, hfund, -⟩ := (C41_new_iff p p).mp hn
  obtain ⟨hg, ho, hl, hr, -⟩ := (C41_finalize_iff hfund debug q).mp e
  refine ⟨hg ▸ h.global, ?_, ho ▸ h.outputs, by rw [hg, hl]; exact h.inputCount, by rw [hg, ho]; exact h.outputCount⟩
  intro j hj
  obtain ⟨n, hjn⟩ := List.mem_iff_getElem?.mp hj
  obtain ⟨i, hi⟩ : ∃ i, p.inputs[n]? = some i :=
    ⟨_, List.getElem?_eq_getElem (by rw [← hl]; exact (List.getElem?_eq_some_iff.mp hjn).1)⟩
  have hwf := h.inputs _ (List.mem_of_getElem? hi)
  obtain ⟨f1, f2⟩ := hf j hj
  rw [witnessBytes_fun] at f2
  have := hr n i j hi hjn
  generalize hx : (Except.ok j : Except (FinalizeInputErr L) (Input L)) = x at this
  cases this with
  | segwit _ _ _ =>
    have hx := Except.ok.inj hx
    rw [hx] at f1 f2 ⊢
    exact InputWF.onlyFinal hwf f1 f2
  | legacy _ _ =>
    have hx := Except.ok.inj hx
    rw [hx] at f1 f2 ⊢
    exact InputWF.onlyFinal hwf f1 f2
  | noWitness _ _ => cases hx
  | fails _ => cases hx

end Psbt.V2
