import Verif.Lemmas.Serde
import Verif.Model.V2.Serde
import Verif.Model.V0.Serde
import Verif.Spec.Serde

namespace Psbt.V0
variable {L : Lib} {S : SerdeLib L} {f : Fmt}

theorem Input.fieldNames_nodup : Input.fieldNames.Nodup := by decide

theorem Input.serde_eq (h : S.Good) (x : Input L) :
    (Input.serde S).de f ((Input.serde S).ser f x) = (do
    let a ← (byteValuesS S.ripemd160).de f ((byteValuesS S.ripemd160).ser f x.ripemd160Preimages)
    let b ← (byteValuesS S.sha256).de f ((byteValuesS S.sha256).ser f x.sha256Preimages)
    let c ← (byteValuesS S.hash160).de f ((byteValuesS S.hash160).ser f x.hash160Preimages)
    let d ← (byteValuesS S.sha256d).de f ((byteValuesS S.sha256d).ser f x.hash256Preimages)
    some { x with ripemd160Preimages := a, sha256Preimages := b, hash160Preimages := c, hash256Preimages := d }) := by
  have e0 := optS_good (f := f) h.tx x.nonWitnessUtxo
  have e1 := optS_good (f := f) h.txOut x.witnessUtxo
  have e2 := mapS_good (f := f) h.pubkey h.ecdsaSig x.partialSigs
  have e3 := optS_good (f := f) h.sighashType x.sighashType
  have e4 := optS_good (f := f) h.script x.redeemScript
  have e5 := optS_good (f := f) h.script x.witnessScript
  have e6 := asSeqS_good (f := f) h.secpPk h.keySource x.bip32Derivation
  have e7 := optS_good (f := f) h.script x.finalScriptSig
  have e8 := optS_good (f := f) h.witness x.finalScriptWitness
  have e13 := optS_good (f := f) h.tapSig x.tapKeySig
  have e14 := asSeqS_good (f := f) (pairS_good h.xonly h.leafHash) h.tapSig x.tapScriptSigs
  have e15 := asSeqS_good (f := f) h.ctrl (pairS_good h.script h.leafVersion) x.tapScripts
  have e16 := asSeqS_good (f := f) h.xonly (pairS_good (vecS_good h.leafHash) h.keySource) x.tapKeyOrigins
  have e17 := optS_good (f := f) h.xonly x.tapInternalKey
  have e18 := optS_good (f := f) h.nodeHash x.tapMerkleRoot
  have e19 := asSeqBytesS_good (f := f) propKeyS_good x.proprietary
  have e20 := asSeqBytesS_good (f := f) rawKeyS_good x.unknown
  simp only [SCodec.Rt] at e0 e1 e2 e3 e4 e5 e6 e7 e8 e13 e14 e15 e16 e17 e18 e19 e20
  unfold Input.serde
  simp only
  rw [structDe_ser Input.fieldNames_nodup (by rfl)]
  simp only [Option.bind_eq_bind, Option.bind_some, reqField, optField, List.lookup, List.cons_append, List.nil_append, Bool.false_eq_true, ↓reduceIte, String.reduceBEq, e0, e1, e2, e3, e4, e5, e6, e7, e8, e13, e14, e15, e16, e17, e18, e19, e20]

theorem Input.serde_json (h : S.Good) (x : Input L) (hf : f.human = true) : Jsonable ((Input.serde S).ser f x) := by
  refine structSer_json hf ?_
  simp only [List.forall_mem_cons]
  exact ⟨optS_json (f := f) h.tx x.nonWitnessUtxo hf,
    optS_json (f := f) h.txOut x.witnessUtxo hf,
    mapS_json (f := f) h.pubkeyStr h.ecdsaSig x.partialSigs hf,
    optS_json (f := f) h.sighashType x.sighashType hf,
    optS_json (f := f) h.script x.redeemScript hf,
    optS_json (f := f) h.script x.witnessScript hf,
    asSeqS_json (f := f) h.secpPk h.keySource x.bip32Derivation hf,
    optS_json (f := f) h.script x.finalScriptSig hf,
    optS_json (f := f) h.witness x.finalScriptWitness hf,
    byteValuesS_json (f := f) h.ripemd160Str x.ripemd160Preimages hf,
    byteValuesS_json (f := f) h.sha256Str x.sha256Preimages hf,
    byteValuesS_json (f := f) h.hash160Str x.hash160Preimages hf,
    byteValuesS_json (f := f) h.sha256dStr x.hash256Preimages hf,
    optS_json (f := f) h.tapSig x.tapKeySig hf,
    asSeqS_json (f := f) (pairS_good h.xonly h.leafHash) h.tapSig x.tapScriptSigs hf,
    asSeqS_json (f := f) h.ctrl (pairS_good h.script h.leafVersion) x.tapScripts hf,
    asSeqS_json (f := f) h.xonly (pairS_good (vecS_good h.leafHash) h.keySource) x.tapKeyOrigins hf,
    optS_json (f := f) h.xonly x.tapInternalKey hf,
    optS_json (f := f) h.nodeHash x.tapMerkleRoot hf,
    asSeqBytesS_json (f := f) propKeyS_good x.proprietary hf,
    asSeqBytesS_json (f := f) rawKeyS_good x.unknown hf, by simp⟩

theorem Input.serde_rt (h : S.Good) (x : Input L) : (Input.serde S).Rt f x ↔ (f.human = true → f.borrows = false → Psbt.Spec.V0.NoPreimages x) := by
  have h1 := byteValuesS_rt (f := f) h.ripemd160 x.ripemd160Preimages
  have h2 := byteValuesS_rt (f := f) h.sha256 x.sha256Preimages
  have h3 := byteValuesS_rt (f := f) h.hash160 x.hash160Preimages
  have h4 := byteValuesS_rt (f := f) h.sha256d x.hash256Preimages
  unfold SCodec.Rt at *
  rw [Input.serde_eq h x]
  simp only [Option.bind_eq_bind, Option.bind_eq_some_iff]
  constructor
  · rintro ⟨a, ha, b, hb, c, hc, d, hd, e⟩ hf hw
    injection e with e
    have ea : a = x.ripemd160Preimages := congrArg Input.ripemd160Preimages e
    have eb : b = x.sha256Preimages := congrArg Input.sha256Preimages e
    have ec : c = x.hash160Preimages := congrArg Input.hash160Preimages e
    have ed : d = x.hash256Preimages := congrArg Input.hash256Preimages e
    rw [ea, h1] at ha
    rw [eb, h2] at hb
    rw [ec, h3] at hc
    rw [ed, h4] at hd
    exact ⟨ha hf hw, hb hf hw, hc hf hw, hd hf hw⟩
  · intro hn
    exact ⟨_, h1.2 fun a b => (hn a b).1, _, h2.2 fun a b => (hn a b).2.1, _, h3.2 fun a b => (hn a b).2.2.1, _,
      h4.2 fun a b => (hn a b).2.2.2, rfl⟩

theorem Output.fieldNames_nodup : Output.fieldNames.Nodup := by decide

theorem Output.serde_eq (h : S.Good) (x : Output L) :
    (Output.serde S).de f ((Output.serde S).ser f x) = some x := by
  have e0 := optS_good (f := f) h.script x.redeemScript
  have e1 := optS_good (f := f) h.script x.witnessScript
  have e2 := asSeqS_good (f := f) h.secpPk h.keySource x.bip32Derivation
  have e3 := optS_good (f := f) h.xonly x.tapInternalKey
  have e4 := optS_good (f := f) h.tapTree x.tapTree
  have e5 := asSeqS_good (f := f) h.xonly (pairS_good (vecS_good h.leafHash) h.keySource) x.tapKeyOrigins
  have e6 := asSeqBytesS_good (f := f) propKeyS_good x.proprietary
  have e7 := asSeqBytesS_good (f := f) rawKeyS_good x.unknown
  simp only [SCodec.Rt] at e0 e1 e2 e3 e4 e5 e6 e7
  unfold Output.serde
  simp only
  rw [structDe_ser Output.fieldNames_nodup (by rfl)]
  simp only [Option.bind_eq_bind, Option.bind_some, reqField, optField, List.lookup, List.cons_append, List.nil_append, Bool.false_eq_true, ↓reduceIte, String.reduceBEq, e0, e1, e2, e3, e4, e5, e6, e7]

theorem Output.serde_json (h : S.Good) (x : Output L) (hf : f.human = true) : Jsonable ((Output.serde S).ser f x) := by
  refine structSer_json hf ?_
  simp only [List.forall_mem_cons]
  exact ⟨optS_json (f := f) h.script x.redeemScript hf,
    optS_json (f := f) h.script x.witnessScript hf,
    asSeqS_json (f := f) h.secpPk h.keySource x.bip32Derivation hf,
    optS_json (f := f) h.xonly x.tapInternalKey hf,
    optS_json (f := f) h.tapTree x.tapTree hf,
    asSeqS_json (f := f) h.xonly (pairS_good (vecS_good h.leafHash) h.keySource) x.tapKeyOrigins hf,
    asSeqBytesS_json (f := f) propKeyS_good x.proprietary hf,
    asSeqBytesS_json (f := f) rawKeyS_good x.unknown hf, by simp⟩

end Psbt.V0

namespace Psbt.V2
variable {L : Lib} {S : SerdeLib L} {f : Fmt}

theorem Global.fieldNames_nodup (L : Lib) : (Global.fieldNames L).Nodup := by
  unfold Global.fieldNames
  cases L.sp <;> decide

theorem Global.serde_eq (h : S.Good) (x : Global L) (hs : L.sp = false → x.spEcdhShares = .empty ∧ x.spDleqProofs = .empty) :
    (Global.serde S).de f ((Global.serde S).ser f x) = some x := by
  have e0 := h.u32.rt f x.version
  have e1 := h.txVersion.rt f x.txVersion
  have e2 := optS_good (f := f) h.lockTime x.fallbackLockTime
  have e3 := u8S_good.rt f x.txModifiableFlags
  have e4 := h.usize.rt f x.inputCount
  have e5 := h.usize.rt f x.outputCount
  have e6 := mapS_good (f := f) h.xpub h.keySource x.xpubs
  have e7 := asSeqS_good (f := f) h.compressed h.compressed x.spEcdhShares
  have e8 := asSeqS_good (f := f) h.compressed dleqS_good x.spDleqProofs
  have e9 := asSeqBytesS_good (f := f) propKeyS_good x.proprietaries
  have e10 := asSeqBytesS_good (f := f) rawKeyS_good x.unknowns
  simp only [SCodec.Rt] at e0 e1 e2 e3 e4 e5 e6 e7 e8 e9 e10
  unfold Global.serde
  simp only
  rw [structDe_ser (Global.fieldNames_nodup L) (by unfold Global.fieldNames; cases L.sp <;> rfl)]
  cases hsp : L.sp with
  | true => simp only [Option.bind_eq_bind, Option.bind_some, reqField, optField, List.lookup, List.cons_append, List.nil_append, Bool.false_eq_true, ↓reduceIte, String.reduceBEq, hsp, e0, e1, e2, e3, e4, e5, e6, e7, e8, e9, e10]
  | false =>
    obtain ⟨s1, s2⟩ := hs hsp
    simp only [Option.bind_eq_bind, Option.bind_some, reqField, optField, List.lookup, List.cons_append, List.nil_append, Bool.false_eq_true, ↓reduceIte, String.reduceBEq, hsp, e0, e1, e2, e3, e4, e5, e6, e7, e8, e9, e10]
    rw [← s1, ← s2]

theorem Global.serde_json (h : S.Good) (x : Global L) (hf : f.human = true) : Jsonable ((Global.serde S).ser f x) := by
  refine structSer_json hf ?_
  rw [List.forall_mem_append, List.forall_mem_append]
  refine ⟨⟨?_, ?_⟩, ?_⟩
  · simp only [List.forall_mem_cons]
    exact ⟨h.u32.json f x.version hf,
      h.txVersion.json f x.txVersion hf,
      optS_json (f := f) h.lockTime x.fallbackLockTime hf,
      u8S_good.json f x.txModifiableFlags hf,
      h.usize.json f x.inputCount hf,
      h.usize.json f x.outputCount hf,
      mapS_json (f := f) h.xpubStr h.keySource x.xpubs hf, by simp⟩
  · split
    · simp only [List.forall_mem_cons]
      exact ⟨asSeqS_json (f := f) h.compressed h.compressed x.spEcdhShares hf,
        asSeqS_json (f := f) h.compressed dleqS_good x.spDleqProofs hf, by simp⟩
    · simp
  · simp only [List.forall_mem_cons]
    exact ⟨asSeqBytesS_json (f := f) propKeyS_good x.proprietaries hf,
      asSeqBytesS_json (f := f) rawKeyS_good x.unknowns hf, by simp⟩

theorem Input.fieldNames_nodup (L : Lib) : (Input.fieldNames L).Nodup := by
  unfold Input.fieldNames
  cases L.sp <;> decide

theorem Input.serde_eq (h : S.Good) (x : Input L) (hs : L.sp = false → x.spEcdhShares = .empty ∧ x.spDleqProofs = .empty) :
    (Input.serde S).de f ((Input.serde S).ser f x) = (do
    let a ← (byteValuesS S.ripemd160).de f ((byteValuesS S.ripemd160).ser f x.ripemd160Preimages)
    let b ← (byteValuesS S.sha256).de f ((byteValuesS S.sha256).ser f x.sha256Preimages)
    let c ← (byteValuesS S.hash160).de f ((byteValuesS S.hash160).ser f x.hash160Preimages)
    let d ← (byteValuesS S.sha256d).de f ((byteValuesS S.sha256d).ser f x.hash256Preimages)
    some { x with ripemd160Preimages := a, sha256Preimages := b, hash160Preimages := c, hash256Preimages := d }) := by
  have e0 := h.txid.rt f x.previousTxid
  have e1 := h.u32.rt f x.spentOutputIndex
  have e2 := optS_good (f := f) h.sequence x.sequence
  have e3 := optS_good (f := f) h.time x.minTime
  have e4 := optS_good (f := f) h.height x.minHeight
  have e5 := optS_good (f := f) h.tx x.nonWitnessUtxo
  have e6 := optS_good (f := f) h.txOut x.witnessUtxo
  have e7 := mapS_good (f := f) h.pubkey h.ecdsaSig x.partialSigs
  have e8 := optS_good (f := f) h.sighashType x.sighashType
  have e9 := optS_good (f := f) h.script x.redeemScript
  have e10 := optS_good (f := f) h.script x.witnessScript
  have e11 := asSeqS_good (f := f) h.secpPk h.keySource x.bip32Derivations
  have e12 := optS_good (f := f) h.script x.finalScriptSig
  have e13 := optS_good (f := f) h.witness x.finalScriptWitness
  have e18 := optS_good (f := f) h.tapSig x.tapKeySig
  have e19 := asSeqS_good (f := f) (pairS_good h.xonly h.leafHash) h.tapSig x.tapScriptSigs
  have e20 := asSeqS_good (f := f) h.ctrl (pairS_good h.script h.leafVersion) x.tapScripts
  have e21 := asSeqS_good (f := f) h.xonly (pairS_good (vecS_good h.leafHash) h.keySource) x.tapKeyOrigins
  have e22 := optS_good (f := f) h.xonly x.tapInternalKey
  have e23 := optS_good (f := f) h.nodeHash x.tapMerkleRoot
  have e24 := asSeqS_good (f := f) h.compressed h.compressed x.spEcdhShares
  have e25 := asSeqS_good (f := f) h.compressed dleqS_good x.spDleqProofs
  have e26 := asSeqBytesS_good (f := f) propKeyS_good x.proprietaries
  have e27 := asSeqBytesS_good (f := f) rawKeyS_good x.unknowns
  simp only [SCodec.Rt] at e0 e1 e2 e3 e4 e5 e6 e7 e8 e9 e10 e11 e12 e13 e18 e19 e20 e21 e22 e23 e24 e25 e26 e27
  unfold Input.serde
  simp only
  rw [structDe_ser (Input.fieldNames_nodup L) (by unfold Input.fieldNames; cases L.sp <;> rfl)]
  cases hsp : L.sp with
  | true => simp only [Option.bind_eq_bind, Option.bind_some, reqField, optField, List.lookup, List.cons_append, List.nil_append, Bool.false_eq_true, ↓reduceIte, String.reduceBEq, hsp, e0, e1, e2, e3, e4, e5, e6, e7, e8, e9, e10, e11, e12, e13, e18, e19, e20, e21, e22, e23, e24, e25, e26, e27]
  | false =>
    obtain ⟨s1, s2⟩ := hs hsp
    simp only [Option.bind_eq_bind, Option.bind_some, reqField, optField, List.lookup, List.cons_append, List.nil_append, Bool.false_eq_true, ↓reduceIte, String.reduceBEq, hsp, e0, e1, e2, e3, e4, e5, e6, e7, e8, e9, e10, e11, e12, e13, e18, e19, e20, e21, e22, e23, e24, e25, e26, e27]
    rw [← s1, ← s2]

theorem Input.serde_json (h : S.Good) (x : Input L) (hf : f.human = true) : Jsonable ((Input.serde S).ser f x) := by
  refine structSer_json hf ?_
  rw [List.forall_mem_append, List.forall_mem_append]
  refine ⟨⟨?_, ?_⟩, ?_⟩
  · simp only [List.forall_mem_cons]
    exact ⟨h.txid.json f x.previousTxid hf,
      h.u32.json f x.spentOutputIndex hf,
      optS_json (f := f) h.sequence x.sequence hf,
      optS_json (f := f) h.time x.minTime hf,
      optS_json (f := f) h.height x.minHeight hf,
      optS_json (f := f) h.tx x.nonWitnessUtxo hf,
      optS_json (f := f) h.txOut x.witnessUtxo hf,
      mapS_json (f := f) h.pubkeyStr h.ecdsaSig x.partialSigs hf,
      optS_json (f := f) h.sighashType x.sighashType hf,
      optS_json (f := f) h.script x.redeemScript hf,
      optS_json (f := f) h.script x.witnessScript hf,
      asSeqS_json (f := f) h.secpPk h.keySource x.bip32Derivations hf,
      optS_json (f := f) h.script x.finalScriptSig hf,
      optS_json (f := f) h.witness x.finalScriptWitness hf,
      byteValuesS_json (f := f) h.ripemd160Str x.ripemd160Preimages hf,
      byteValuesS_json (f := f) h.sha256Str x.sha256Preimages hf,
      byteValuesS_json (f := f) h.hash160Str x.hash160Preimages hf,
      byteValuesS_json (f := f) h.sha256dStr x.hash256Preimages hf,
      optS_json (f := f) h.tapSig x.tapKeySig hf,
      asSeqS_json (f := f) (pairS_good h.xonly h.leafHash) h.tapSig x.tapScriptSigs hf,
      asSeqS_json (f := f) h.ctrl (pairS_good h.script h.leafVersion) x.tapScripts hf,
      asSeqS_json (f := f) h.xonly (pairS_good (vecS_good h.leafHash) h.keySource) x.tapKeyOrigins hf,
      optS_json (f := f) h.xonly x.tapInternalKey hf,
      optS_json (f := f) h.nodeHash x.tapMerkleRoot hf, by simp⟩
  · split
    · simp only [List.forall_mem_cons]
      exact ⟨asSeqS_json (f := f) h.compressed h.compressed x.spEcdhShares hf,
        asSeqS_json (f := f) h.compressed dleqS_good x.spDleqProofs hf, by simp⟩
    · simp
  · simp only [List.forall_mem_cons]
    exact ⟨asSeqBytesS_json (f := f) propKeyS_good x.proprietaries hf,
      asSeqBytesS_json (f := f) rawKeyS_good x.unknowns hf, by simp⟩

theorem Input.serde_rt (h : S.Good) (x : Input L) (hs : L.sp = false → x.spEcdhShares = .empty ∧ x.spDleqProofs = .empty) : (Input.serde S).Rt f x ↔ (f.human = true → f.borrows = false → Psbt.Spec.NoPreimages x) := by
  have h1 := byteValuesS_rt (f := f) h.ripemd160 x.ripemd160Preimages
  have h2 := byteValuesS_rt (f := f) h.sha256 x.sha256Preimages
  have h3 := byteValuesS_rt (f := f) h.hash160 x.hash160Preimages
  have h4 := byteValuesS_rt (f := f) h.sha256d x.hash256Preimages
  unfold SCodec.Rt at *
  rw [Input.serde_eq h x hs]
  simp only [Option.bind_eq_bind, Option.bind_eq_some_iff]
  constructor
  · rintro ⟨a, ha, b, hb, c, hc, d, hd, e⟩ hf hw
    injection e with e
    have ea : a = x.ripemd160Preimages := congrArg Input.ripemd160Preimages e
    have eb : b = x.sha256Preimages := congrArg Input.sha256Preimages e
    have ec : c = x.hash160Preimages := congrArg Input.hash160Preimages e
    have ed : d = x.hash256Preimages := congrArg Input.hash256Preimages e
    rw [ea, h1] at ha
    rw [eb, h2] at hb
    rw [ec, h3] at hc
    rw [ed, h4] at hd
    exact ⟨ha hf hw, hb hf hw, hc hf hw, hd hf hw⟩
  · intro hn
    exact ⟨_, h1.2 fun a b => (hn a b).1, _, h2.2 fun a b => (hn a b).2.1, _, h3.2 fun a b => (hn a b).2.2.1, _,
      h4.2 fun a b => (hn a b).2.2.2, rfl⟩

theorem Output.fieldNames_nodup (L : Lib) : (Output.fieldNames L).Nodup := by
  unfold Output.fieldNames
  cases L.sp <;> decide

theorem Output.serde_eq (h : S.Good) (x : Output L) (hs : L.sp = false → x.spV0Info = none ∧ x.spV0Label = none) :
    (Output.serde S).de f ((Output.serde S).ser f x) = some x := by
  have e0 := h.amount.rt f x.amount
  have e1 := h.script.rt f x.scriptPubkey
  have e2 := optS_good (f := f) h.script x.redeemScript
  have e3 := optS_good (f := f) h.script x.witnessScript
  have e4 := asSeqS_good (f := f) h.secpPk h.keySource x.bip32Derivations
  have e5 := optS_good (f := f) h.xonly x.tapInternalKey
  have e6 := optS_good (f := f) h.tapTree x.tapTree
  have e7 := asSeqS_good (f := f) h.xonly (pairS_good (vecS_good h.leafHash) h.keySource) x.tapKeyOrigins
  have e8 := optS_good (f := f) (vecS_good u8S_good) x.spV0Info
  have e9 := optS_good (f := f) h.u32 x.spV0Label
  have e10 := asSeqBytesS_good (f := f) propKeyS_good x.proprietaries
  have e11 := asSeqBytesS_good (f := f) rawKeyS_good x.unknowns
  simp only [SCodec.Rt] at e0 e1 e2 e3 e4 e5 e6 e7 e8 e9 e10 e11
  unfold Output.serde
  simp only
  rw [structDe_ser (Output.fieldNames_nodup L) (by unfold Output.fieldNames; cases L.sp <;> rfl)]
  cases hsp : L.sp with
  | true => simp only [Option.bind_eq_bind, Option.bind_some, reqField, optField, List.lookup, List.cons_append, List.nil_append, Bool.false_eq_true, ↓reduceIte, String.reduceBEq, hsp, e0, e1, e2, e3, e4, e5, e6, e7, e8, e9, e10, e11]
  | false =>
    obtain ⟨s1, s2⟩ := hs hsp
    simp only [Option.bind_eq_bind, Option.bind_some, reqField, optField, List.lookup, List.cons_append, List.nil_append, Bool.false_eq_true, ↓reduceIte, String.reduceBEq, hsp, e0, e1, e2, e3, e4, e5, e6, e7, e8, e9, e10, e11]
    rw [← s1, ← s2]

theorem Output.serde_json (h : S.Good) (x : Output L) (hf : f.human = true) : Jsonable ((Output.serde S).ser f x) := by
  refine structSer_json hf ?_
  rw [List.forall_mem_append, List.forall_mem_append]
  refine ⟨⟨?_, ?_⟩, ?_⟩
  · simp only [List.forall_mem_cons]
    exact ⟨h.amount.json f x.amount hf,
      h.script.json f x.scriptPubkey hf,
      optS_json (f := f) h.script x.redeemScript hf,
      optS_json (f := f) h.script x.witnessScript hf,
      asSeqS_json (f := f) h.secpPk h.keySource x.bip32Derivations hf,
      optS_json (f := f) h.xonly x.tapInternalKey hf,
      optS_json (f := f) h.tapTree x.tapTree hf,
      asSeqS_json (f := f) h.xonly (pairS_good (vecS_good h.leafHash) h.keySource) x.tapKeyOrigins hf, by simp⟩
  · split
    · simp only [List.forall_mem_cons]
      exact ⟨optS_json (f := f) (vecS_good u8S_good) x.spV0Info hf,
        optS_json (f := f) h.u32 x.spV0Label hf, by simp⟩
    · simp
  · simp only [List.forall_mem_cons]
    exact ⟨asSeqBytesS_json (f := f) propKeyS_good x.proprietaries hf,
      asSeqBytesS_json (f := f) rawKeyS_good x.unknowns hf, by simp⟩

end Psbt.V2
