/- C42-C44, C63-C65: how PSBT v2 inputs are satisfied, and what the finalized transaction is. -/
import Verif.Props.V2Finalize
import Verif.Lemmas.Timelock
namespace Psbt.V2
open Psbt Psbt.Spec

variable {L : Lib} {M : MsLib L}

/-! ### C42 -/

/-- C42. The descriptor an input is spent with, or the error, is the one the funding script, the redeem script, the witness
script and the keys with signatures determine (`Descr`). -/
theorem C42_descriptor_iff {p : Psbt L} {i : Input L} {u : TxOut} (hu : FundedBy i u) (r : Except (MsInputErr L) (Desc L M.Ms)) :
    Finalizer.getDescriptor M p i = mapErr .err r ↔
      Descr M (hashMap M (derivationKeys p)) i.partialSigs.l u.scriptPubkey i.redeemScript i.witnessScript r := by
  rw [← descriptorOf_iff]
  unfold Finalizer.getDescriptor
  rw [fundingUtxo_ok.mpr hu]
  exact ⟨fun h => mapErr_inj err_inj h, fun h => by rw [← h]; rfl⟩

/-- C42. Key hashes inside scripts are replaced by the keys of the BIP-32 derivations of all inputs that have these hashes
(by the last of them, should two keys have the same hash). -/
theorem C42_keys (p : Psbt L) (h : FixedBytes 20) (k : L.pubkey.T) : (hashMap M (derivationKeys p)).get h = some k ↔
    HashesTo (fun k : L.pubkey.T => L.hash160 k.bytes) M.ofSecp (derivationKeys p) h k := hashMap_get

/-- C42. A descriptor is never made from a script or key the funding script does not commit to. -/
theorem C42_committed {p : Psbt L} {i : Input L} {u : TxOut} (hu : FundedBy i u) {d : Desc L M.Ms}
    (h : Finalizer.getDescriptor M p i = .ok d) :
    match d with
    | .pk k => ∃ b, P2pk b u.scriptPubkey ∧ L.pubkey.parse b = some k
    | .pkh k => CommitsPkh u.scriptPubkey k ∧ i.partialSigs.get k ≠ none
    | .wpkh k => CommitsWpkh u.scriptPubkey k ∧ i.partialSigs.get k ≠ none
    | .shWpkh k => ∃ rs, i.redeemScript = some rs ∧ CommitsSh L u.scriptPubkey rs ∧ CommitsWpkh rs k ∧ i.partialSigs.get k ≠ none
    | .wsh m => ∃ ws ms, i.witnessScript = some ws ∧ CommitsWsh L u.scriptPubkey ws ∧ M.parse .segwitv0 ws = some ms ∧
        m = M.substitute (hashMap M (derivationKeys p)) ms
    | .shWsh m => ∃ rs ws ms, i.redeemScript = some rs ∧ i.witnessScript = some ws ∧ CommitsSh L u.scriptPubkey rs ∧
        CommitsWsh L rs ws ∧ M.parse .segwitv0 ws = some ms ∧ m = M.substitute (hashMap M (derivationKeys p)) ms
    | .sh m => ∃ rs, i.redeemScript = some rs ∧ CommitsSh L u.scriptPubkey rs ∧ M.parse .legacy rs = some m
    | .bare m => ∃ ms, M.parse .bare u.scriptPubkey = some ms ∧ m = M.substitute (hashMap M (derivationKeys p)) ms := by
  have h := (C42_descriptor_iff (M := M) (p := p) hu (.ok d)).mp h
  have hk : ∀ {P : L.pubkey.T → Prop} {pk}, FirstKey i.partialSigs.l P pk → P pk ∧ i.partialSigs.get pk ≠ none := by
    rintro P pk ⟨l, s, l', e, hP, -⟩
    refine ⟨hP, ?_⟩
    have : (pk, s) ∈ i.partialSigs.l := by rw [e]; simp
    rw [BMap.mem_iff_get.mp this]; simp
  cases h with
  | pk h1 h2 => exact ⟨_, h1, h2⟩
  | pkh h1 h2 h3 => cases h3; exact hk h2
  | wpkh h1 h2 h3 => cases h3; exact hk h2
  | wsh h1 h2 h3 h4 =>
    cases h4 with
    | ok h5 h6 => cases h6; exact ⟨_, _, h2, h3, h5, rfl⟩
  | shWsh h1 h2 h3 h4 h5 =>
    cases h5 with
    | ok h6 h7 => cases h7; exact ⟨_, _, _, h1, h3, h2, h4, h6, rfl⟩
  | shWpkh h1 h2 h3 h4 h5 => cases h5; exact ⟨_, h1, h2, hk h4⟩
  | sh h1 h2 h3 h4 h5 h6 =>
    cases h6 with
    | ok h7 h8 => cases h8; exact ⟨_, h1, h2, h7⟩
  | bare h1 h2 h3 h4 h5 h6 h7 h8 =>
    cases h8 with
    | ok h9 h10 => cases h10; exact ⟨_, h9, rfl⟩

section Examples
def fDesc (i : Input EL) : Option (Except (MsInputErr EL) (Desc EL Bytes)) :=
  match Finalizer.getDescriptor FM (eP [i] [3]) i with | .ok d => some (.ok d) | .error (.err e) => some (.error e) | _ => none
def fSh (rs : Bytes) (ws : Option Bytes) : Input EL :=
  { Input.new EL ⟨Demo.rep 32 3, 0⟩ with
    witnessUtxo := some ⟨5, [0xa9, 0x14] ++ (EL.hash160 rs).1 ++ [0x87]⟩, redeemScript := some rs, witnessScript := ws }
def fBare (spk : Bytes) : Input EL := { Input.new EL ⟨Demo.rep 32 3, 0⟩ with witnessUtxo := some ⟨5, spk⟩ }
-- All eight kinds of descriptor occur, and an error of each kind.
example : fDesc fIn = some (.ok (.wpkh fKey)) := by decide +kernel
example : fDesc fLegacy = some (.ok (.pkh fKey)) := by decide +kernel
example : fDesc (fWsh [9]) = some (.ok (.wsh [9])) := by decide +kernel
example : fDesc (fSh [9] none) = some (.ok (.sh [9])) := by decide +kernel
example : fDesc (fSh ([0x00, 0x20] ++ (EL.sha256 [9]).1) (some [9])) = some (.ok (.shWsh [9])) := by decide +kernel
example : fDesc { fSh fSpk none with partialSigs := BMap.empty.insert fKey fSig } = some (.ok (.shWpkh fKey)) := by decide +kernel
example : fDesc (fBare [0x51]) = some (.ok (.bare [0x51])) := by decide +kernel
example : fDesc (fBare ([0x21] ++ fKey.bytes ++ [0xac])) = some (.ok (.pk fKey)) := by decide +kernel
example : fDesc { fWsh [9] with witnessScript := some [8] } =
    some (.error (.invalidWitnessScript [8] ([0x00, 0x20] ++ (EL.sha256 [9]).1))) := by decide +kernel
example : fDesc { fWsh [9] with witnessScript := none } = some (.error .missingWitnessScript) := by decide +kernel
example : fDesc { fWsh [9] with redeemScript := some [9] } = some (.error .nonEmptyRedeemScript) := by decide +kernel
example : fDesc { fSh [9] none with redeemScript := none } = some (.error .missingRedeemScript) := by decide +kernel
example : fDesc (fSh [9] (some [9])) = some (.error .nonEmptyWitnessScript) := by decide +kernel
example : fDesc { fIn with partialSigs := .empty } = some (.error .missingPubkey) := by decide +kernel
example : fDesc (fWsh [0xff]) = some (.error .miniscript) := by decide +kernel
end Examples

/-! ### C43 -/

/-- C43. The final scripts of a taproot input: no script sig; the signature of the output key if there is one, else the
witness of the leaf whose witness is smallest (`TapResult`), and an error exactly if no leaf has a witness. -/
theorem C43_taproot_iff {p : Psbt L} {i : Input L} {u : TxOut} (hu : FundedBy i u) (ht : P2tr u.scriptPubkey)
    (r : Except (MsInputErr L) (List Bytes)) :
    Finalizer.finalScripts M p i = mapErr .err (r.map fun w => ([], w)) ↔
      TapResult M true (tapHashMap (i.tapKeyOrigins.l.map Prod.fst)) (i.satisfier M) r := by
  constructor
  · intro h
    obtain ⟨r', -, hr'⟩ := tapTotal (M := M) (mall := true) (keys := i.tapKeyOrigins.l.map Prod.fst) (sat := i.satisfier M) ht
    have : Finalizer.finalScripts M p i = mapErr .err (r'.map fun w => ([], w)) := by
      cases r' with
      | ok w => exact scripts_sound (.tap hu ht hr')
      | error e => exact scripts_sound (.tapFails hu ht hr')
    rw [h] at this
    have := mapErr_inj err_inj this
    cases r <;> cases r' <;> cases this <;> exact hr'
  · intro h
    cases r with
    | ok w => exact scripts_sound (.tap hu ht h)
    | error e => exact scripts_sound (.tapFails hu ht h)

/-- C43. With a signature of the output key, that signature is the whole witness. -/
theorem C43_key_spend {p : Psbt L} {i : Input L} {u : TxOut} (hu : FundedBy i u) (ht : P2tr u.scriptPubkey) {sig : TapSig}
    (hs : i.tapKeySig = some sig) :
    Finalizer.finalScripts M p i = .ok ([], [sig.sig.1 ++ if sig.ty.1 = 0 then [] else [sig.ty.1]]) :=
  (C43_taproot_iff (M := M) (p := p) hu ht (.ok _)).mpr (.key hs)

/-- C43. Without one, the witness is that of a leaf of the input, and no leaf has one whose elements, together with the
element count, have fewer bytes. -/
theorem C43_smallest_partial {p : Psbt L} {i : Input L} {u : TxOut} (hu : FundedBy i u) (ht : P2tr u.scriptPubkey)
    (hs : i.tapKeySig = none) {s : Bytes} {w : List Bytes} (h : Finalizer.finalScripts M p i = .ok (s, w)) :
    s = [] ∧
    (∃ cb script ver, i.tapScripts.get cb = some (script, ver) ∧
      LeafWitness M true (tapHashMap (i.tapKeyOrigins.l.map Prod.fst)) (i.satisfier M) cb script ver w) ∧
    ∀ cb script ver w', i.tapScripts.get cb = some (script, ver) →
      LeafWitness M true (tapHashMap (i.tapKeyOrigins.l.map Prod.fst)) (i.satisfier M) cb script ver w' →
      w.flatten.length + (compact w.length).length ≤ w'.flatten.length + (compact w'.length).length := by
  obtain ⟨r, -, hr⟩ := tapTotal (M := M) (mall := true) (keys := i.tapKeyOrigins.l.map Prod.fst) (sat := i.satisfier M) ht
  have h2 := (C43_taproot_iff (M := M) (p := p) hu ht r).mpr hr
  rw [h] at h2
  cases r with
  | error e => cases h2
  | ok w0 =>
    cases h2
    refine ⟨rfl, ?_⟩
    cases hr with
    | key hk => rw [show (i.satisfier M).tapKeySpendSig = i.tapKeySig from rfl, hs] at hk; cases hk
    | leaf h1 h2 h3 h4 h5 =>
      rename_i l1 l2 cb script ver
      have h2 : i.tapScripts.l = l1 ++ (cb, script, ver) :: l2 := h2
      refine ⟨⟨cb, script, ver, ?_, h3⟩, fun cb' script' ver' w' hg hw' => ?_⟩
      · rw [← BMap.mem_iff_get, h2]; simp
      · have := BMap.mem_iff_get.mpr hg
        rw [h2, List.mem_append, List.mem_cons] at this
        rcases this with hm | hm | hm
        · exact h4 cb' script' ver' w' hm hw'
        · cases hm
          obtain ⟨-, ms, st, a1, a2, rfl⟩ := h3
          obtain ⟨-, ms', st', b1, b2, rfl⟩ := hw'
          rw [a1] at b1; cases b1
          rw [a2] at b2; cases b2
          exact Nat.le_refl _
        · exact Nat.le_of_lt (h5 cb' script' ver' w' hm hw')

/-- C43. A failure is reported exactly if there is no signature of the output key and no leaf has a witness. -/
theorem C43_fails_iff {p : Psbt L} {i : Input L} {u : TxOut} (hu : FundedBy i u) (ht : P2tr u.scriptPubkey) (e : MsInputErr L) :
    Finalizer.finalScripts M p i = .error (.err e) ↔ e = .couldNotSatisfyTr ∧ i.tapKeySig = none ∧
      ∀ cb script ver w, i.tapScripts.get cb = some (script, ver) →
        ¬ LeafWitness M true (tapHashMap (i.tapKeyOrigins.l.map Prod.fst)) (i.satisfier M) cb script ver w := by
  rw [show (.error (.err e) : Out (MsInputErr L) (Bytes × List Bytes)) =
    mapErr .err ((.error e : Except (MsInputErr L) (List Bytes)).map fun w => (([] : Bytes), w)) from rfl, C43_taproot_iff hu ht]
  constructor
  · intro h
    cases h with
    | none h1 h2 => exact ⟨rfl, h1, fun cb script ver w hg => h2 cb script ver w (BMap.mem_iff_get.mpr hg)⟩
  · rintro ⟨rfl, h1, h2⟩
    exact .none h1 fun cb script ver w hm => h2 cb script ver w (BMap.mem_iff_get.mp hm)

/-- C43. Key hashes inside leaf scripts are replaced by the keys of the input's own taproot key origins that have these
hashes. -/
theorem C43_keys (i : Input L) (h : FixedBytes 20) (k : L.xonly.T) : (tapHashMap (i.tapKeyOrigins.l.map Prod.fst)).get h = some k ↔
    HashesTo (fun k : L.xonly.T => L.hash160 k.bytes) (fun k => k) (i.tapKeyOrigins.l.map Prod.fst) h k := tapHashMap_get

section Examples
theorem fTr_spk : P2tr spkTr := isP2tr_iff.mp rfl
/-- A taproot input with two leaves, satisfied by 3 elements of 1 byte and by 1 element of 4 bytes. -/
def fTr : Input EL :=
  { Input.new EL ⟨Demo.rep 32 3, 0⟩ with
    witnessUtxo := some ⟨5, spkTr⟩
    tapScripts := (BMap.empty.insert (Demo.blk true 1) ([3, 1], TAPSCRIPT)).insert (Demo.blk true 2) ([1, 4], TAPSCRIPT) }
def fScripts (i : Input EL) : Option (Except (MsInputErr EL) (Bytes × List Bytes)) :=
  match Finalizer.finalScripts FM (eP [i] [3]) i with | .ok d => some (.ok d) | .error (.err e) => some (.error e) | _ => none
example : FundedBy fTr ⟨5, spkTr⟩ ∧ P2tr spkTr := ⟨.witness rfl, fTr_spk⟩
example : fScripts fTr = some (.ok ([], [[7], [7], [7], [3, 1], 0xc0 :: List.replicate 32 1])) := by decide +kernel
example : fScripts { fTr with tapKeySig := some ⟨Demo.rep 64 8, ⟨1, by decide⟩⟩ } = some (.ok ([], [List.replicate 64 8 ++ [1]])) := by
  decide +kernel
example : fScripts { fTr with tapScripts := BMap.empty.insert (Demo.blk true 1) ([3], TAPSCRIPT) } =
    some (.error .couldNotSatisfyTr) := by decide +kernel
end Examples

/-- C43 fails for the size witnesses have in a transaction (each element is preceded by its length): there a chosen
witness is not the smallest. -/
theorem C43_counterexample : ∃ (i : Input EL) (u : TxOut) (w w' : List Bytes) (cb : EL.ctrl.T) (script : Bytes) (ver : LeafVersion),
    FundedBy i u ∧ P2tr u.scriptPubkey ∧ fScripts i = some (.ok ([], w)) ∧
    i.tapScripts.get cb = some (script, ver) ∧
    LeafWitness FM true (tapHashMap (i.tapKeyOrigins.l.map Prod.fst)) (i.satisfier FM) cb script ver w' ∧
    (witnessBytes w').length < (witnessBytes w).length :=
  ⟨fTr, ⟨5, spkTr⟩, [[7], [7], [7], [3, 1], 0xc0 :: List.replicate 32 1], [[7, 7, 7, 7], [1, 4], 0xc0 :: List.replicate 32 2],
    Demo.blk true 2, [1, 4], TAPSCRIPT, .witness rfl, fTr_spk, by decide +kernel, by decide +kernel,
    ⟨rfl, [1, 4], [[7, 7, 7, 7]], rfl, rfl, rfl⟩, by decide +kernel⟩

/-! ### C44 -/

/-- C44. An absolute lock is considered met exactly if the input requires a lock time of the same unit that is at least as
large. -/
theorem C44_after_iff (i : Input L) (n : AbsLock) : (i.satisfier M).after n = true ↔
    match n with
    | .blocks h => ∃ m, i.minHeight = some m ∧ h.1.toNat ≤ m.1.toNat
    | .seconds t => ∃ m, i.minTime = some m ∧ t.1.toNat ≤ m.1.toNat := by
  show i.checkAfter n = true ↔ _
  cases n with
  | blocks h =>
    unfold Input.checkAfter
    cases i.minHeight with
    | none => simp
    | some m => simp [UInt32.le_iff_toNat_le]
  | seconds t =>
    unfold Input.checkAfter
    cases i.minTime with
    | none => simp
    | some m => simp [UInt32.le_iff_toNat_le]

/-- C44. A relative lock is considered met exactly if the input has a sequence number that, in a transaction of version 2,
passes `CHECKSEQUENCEVERIFY` with that lock. -/
theorem C44_older_iff (i : Input L) (n : RelLock) : (i.satisfier M).older n = true ↔
    ∃ s, i.sequence = some s ∧ CsvPasses (relOperand n) 2 s := by
  show i.checkOlder n = true ↔ _
  unfold Input.checkOlder
  cases i.sequence with
  | none => simp
  | some s => simp only [Option.some.injEq, exists_eq_left']; exact implied_iff

/-- C44. The operand of a relative lock of `n` blocks is `n`, that of `n` times 512 seconds has bit 22 set as well. -/
theorem C44_operand (n : UInt16) : (relOperand (.blocks n)).toNat = n.toNat ∧ (relOperand (.time n)).toNat = 2 ^ 22 + n.toNat :=
  ⟨relOperand_blocks n, relOperand_time n⟩

section Examples
example : (fLocked.satisfier FM).after (.blocks ⟨7, by decide⟩) = true ∧ (fLocked.satisfier FM).after (.blocks ⟨8, by decide⟩) = false ∧
    (fLocked.satisfier FM).after (.seconds ⟨500000000, by decide⟩) = false := by decide
example : (fLocked.satisfier FM).older (.blocks 9) = true ∧ (fLocked.satisfier FM).older (.blocks 10) = false ∧
    (fLocked.satisfier FM).older (.time 1) = false ∧
    ({ fIn with sequence := some 0x00400003 }.satisfier FM).older (.time 3) = true ∧
    ({ fIn with sequence := some 0x80000009 }.satisfier FM).older (.blocks 1) = false := by decide
end Examples

/-! ### C63 -/

/-- C63 fails, whatever is finalized: the transaction against which the finalizer has the signatures checked has sequence
number 0 in every input, while the transaction extracted afterwards has 0xFFFFFFFF; they agree in everything else. -/
theorem C63_checked_and_extracted {p q : Psbt L} {debug : Bool} (hf : ∀ i ∈ p.inputs, ∃ u, FundedBy i u)
    (h : Finalizer.finalize M debug p = .ok q) :
    Extractor.new q = .ok q ∧ ∃ t, Extractor.extractUnchecked q = .ok t ∧
      Spec.stripped t = { checkedTx p with input := (checkedTx p).input.map fun x => { x with sequence := 0xFFFFFFFF } } ∧
      (∀ x ∈ (checkedTx p).input, x.sequence = 0) ∧ (p.inputs ≠ [] → Spec.stripped t ≠ checkedTx p) := by
  obtain ⟨h1, h2, h3, h4, h5, -⟩ := (C41_finalize_iff hf debug q).mp h
  obtain ⟨g, js, os⟩ := q
  simp only at h1 h2 h3 h4
  subst h1 h2
  have hforms := forms_iff.mpr ⟨h3, h4⟩
  have hn : Extractor.new (⟨p.global, js, p.outputs⟩ : Psbt L) = .ok ⟨p.global, js, p.outputs⟩ :=
    extractorNew_ok.mpr ⟨rfl, (forms_finalized hforms).mpr h5, _, forms_lockTime hforms⟩
  obtain ⟨t, ht, hv, hl, ⟨hlen, hx⟩, ho⟩ := C31_extraction hn
  have hlt : t.lockTime = p.global.fallbackLockTime.getD 0 := by
    have := (C17_lock_time_iff _ _).mpr hl
    rw [forms_lockTime hforms] at this
    exact (Except.ok.inj this).symm
  have hs : Spec.stripped t = { checkedTx p with input := (checkedTx p).input.map fun x => { x with sequence := 0xFFFFFFFF } } := by
    obtain ⟨v, l, ti, o⟩ := t
    simp only at hv hlt ho hlen hx
    subst hv hlt ho
    unfold Spec.stripped checkedTx
    simp only [Tx.mk.injEq, true_and, and_true, List.map_map]
    apply List.ext_getElem
    · simp [hlen, h3]
    · intro k k1 k2
      simp only [List.length_map] at k1 k2
      simp only [List.getElem_map, Function.comp]
      have hk : k < js.length := by omega
      obtain ⟨e1, -, -, e4⟩ := hx k _ _ (List.getElem?_eq_getElem hk) (List.getElem?_eq_getElem k1)
      have hr := h4 k _ _ (List.getElem?_eq_getElem k2) (List.getElem?_eq_getElem hk)
      have hj : js[k].previousTxid = p.inputs[k].previousTxid ∧ js[k].spentOutputIndex = p.inputs[k].spentOutputIndex ∧
          js[k].sequence = none := by
        rcases inputResult_form hr with ⟨s, w, -, e⟩ | ⟨s, -, e⟩ <;> rw [e] <;> exact ⟨rfl, rfl, rfl⟩
      obtain ⟨j1, j2, j3⟩ := hj
      rw [e1, j1, j2]
      rcases e4 with e4 | ⟨-, e4⟩
      · rw [j3] at e4; cases e4
      · rw [e4]
  refine ⟨hn, t, ht, hs, ?_, ?_⟩
  · intro x hx
    obtain ⟨i, -, rfl⟩ := List.mem_map.mp hx
    rfl
  · intro hne heq
    rw [hs] at heq
    have := congrArg Tx.input heq
    simp only [checkedTx, List.map_map] at this
    cases hp : p.inputs with
    | nil => exact hne hp
    | cons i is => rw [hp] at this; simp at this

/-- C63 (what is left of it). If no input of the PSBT asks for a lock time or a sequence number, the checked transaction is
the one its signers signed. -/
theorem C63_signed_partial {p q : Psbt L} {debug : Bool} (hf : ∀ i ∈ p.inputs, ∃ u, FundedBy i u)
    (h : Finalizer.finalize M debug p = .ok q) (hs : ∀ i ∈ p.inputs, i.sequence = none ∧ i.minTime = none ∧ i.minHeight = none) :
    p.unsignedTx = .ok (checkedTx p) ∧ q.unsignedTx = .ok (checkedTx p) := by
  have h1 := (C40_unsigned_tx_partial hf h).mpr ⟨fun i hi => .inl (hs i hi).1, .fallback fun i hi hc => by
    obtain ⟨-, a, b⟩ := hs i hi
    rcases hc with hc | hc
    · exact hc a
    · exact hc b⟩
  obtain ⟨e1, e2, e3, e4, -⟩ := (C41_finalize_iff hf debug q).mp h
  obtain ⟨g, js, os⟩ := q
  simp only at e1 e2 e3 e4
  subst e1 e2
  have := forms_unsigned (forms_iff.mpr ⟨e3, e4⟩)
  exact ⟨by rw [← h1]; exact this, this⟩

-- The hypotheses can be met by a PSBT with an input (see also the examples of C40).
example : Finalizer.finalize FM true (eP [fIn] [3]) = .ok (fDone (eP [fIn] [3])) ∧
    fIn.sequence = none ∧ fIn.minTime = none ∧ fIn.minHeight = none := by decide +kernel

/-! ### C64 -/

/-- C64. The finalizer uses the signatures, keys, scripts and preimages the input holds, finds all of them, and uses
nothing else. -/
theorem C64_answers (i : Input L) : Answers M (held i) (i.satisfier M) where
  keySpend := rfl
  leafSig _ _ _ := Iff.rfl
  scripts := rfl
  sig _ _ := Iff.rfl
  hashSig kh pk sig h := by
    obtain ⟨⟨a, b⟩, hm, hp, he⟩ := findMap_some h
    cases he
    exact ⟨BMap.mem_iff_get.mp hm, beq_iff_eq.mp hp⟩
  hashSigAll pk sig h := findMap_ne (BMap.mem_iff_get.mpr h) (by simp)
  hashLeafSig kh leaf pk sig h := by
    obtain ⟨⟨⟨a, l⟩, b⟩, hm, hp, he⟩ := findMap_some h
    cases he
    simp only [Bool.and_eq_true, beq_iff_eq] at hp
    obtain ⟨h1, rfl⟩ := hp
    exact ⟨BMap.mem_iff_get.mp hm, h1⟩
  hashLeafSigAll pk leaf sig h := findMap_ne (BMap.mem_iff_get.mpr h) (by simp)
  hashKey kh pk h := by
    obtain ⟨a, hm, hp, he⟩ := findMap_some h
    subst he
    exact ⟨⟨a.1, List.mem_map.mpr ⟨a, hm, rfl⟩, rfl⟩, beq_iff_eq.mp hp⟩
  hashKeyAll k hk := by
    obtain ⟨a, hm, rfl⟩ := List.mem_map.mp hk
    exact findMap_ne hm (by simp)
  ripemd160 _ _ := preimage_iff
  sha256 _ _ := preimage_iff
  hash160 _ _ := preimage_iff
  hash256 _ _ := preimage_iff

example : (fIn.satisfier FM).rawPkhEcdsaSig (EL.hash160 fKey.bytes) = some (fKey, fSig) ∧ (fIn.satisfier FM).ecdsaSig fKey = some fSig ∧
    ({ fIn with sha256Preimages := BMap.empty.insert (Demo.rep 32 1) (List.replicate 32 2) }.satisfier FM).sha256 (Demo.rep 32 1) =
      some (Demo.rep 32 2) ∧
    ({ fIn with sha256Preimages := BMap.empty.insert (Demo.rep 32 1) (List.replicate 31 2) }.satisfier FM).sha256 (Demo.rep 32 1) =
      none := by decide +kernel

/-! ### C65 -/

/-- C65. An absolute lock the finalizer considers met is met in the unsigned transaction, if the transaction's lock time is
of the same unit and the input's sequence number is not 0xFFFFFFFF. -/
theorem C65_after_partial {p : Psbt L} {i : Input L} {t : Tx} {x : TxIn} {k : Nat} (ht : p.unsignedTx = .ok t)
    (hi : p.inputs[k]? = some i) (hx : t.input[k]? = some x) (n : AbsLock) (h : (i.satisfier M).after n = true)
    (hunit : (absOperand n).toNat < 500000000 ↔ t.lockTime.toNat < 500000000) (hseq : i.sequence ≠ some 0xFFFFFFFF) :
    CltvPasses (absOperand n) t.lockTime x.sequence := by
  obtain ⟨m, hm, rfl⟩ := unsignedTx_ok.mp ht
  simp only at hx hunit ⊢
  have hxs : x.sequence = i.sequence.getD 0 := by
    rw [List.getElem?_map, hi] at hx
    cases hx; rfl
  have hq : x.sequence.toNat ≠ 0xFFFFFFFF := by
    rw [hxs]
    cases hs : i.sequence with
    | none => simp
    | some s =>
      intro he
      apply hseq
      rw [hs]
      have : s = 0xFFFFFFFF := UInt32.toNat_inj.mp he
      rw [this]
  have hmem := List.mem_of_getElem? hi
  rw [C44_after_iff] at h
  refine ⟨hunit, ?_, hq⟩
  cases n with
  | blocks hh =>
    obtain ⟨m', e1, e2⟩ := h
    have hlt : hh.1.toNat < 500000000 := UInt32.lt_iff_toNat_lt.mp hh.2
    have hm3 := hunit.mp hlt
    rcases C17_satisfies_every_input hm i hmem (.inr (by rw [e1]; simp)) with ⟨-, h', g1, g2⟩ | ⟨g, -⟩
    · rw [e1] at g1; cases g1
      exact Nat.le_trans e2 (UInt32.le_iff_toNat_le.mp g2)
    · have := UInt32.le_iff_toNat_le.mp g
      simp at this; omega
  | seconds tt =>
    obtain ⟨m', e1, e2⟩ := h
    have hge : 500000000 ≤ tt.1.toNat := UInt32.le_iff_toNat_le.mp tt.2
    have hm3 : ¬ m.toNat < 500000000 := fun hc => by have := hunit.mpr hc; simp only [absOperand] at this; omega
    rcases C17_satisfies_every_input hm i hmem (.inl (by rw [e1]; simp)) with ⟨g, -⟩ | ⟨-, h', g1, g2⟩
    · have := UInt32.lt_iff_toNat_lt.mp g
      simp at this; omega
    · rw [e1] at g1; cases g1
      exact Nat.le_trans e2 (UInt32.le_iff_toNat_le.mp g2)

/-- C65. A relative lock the finalizer considers met is met in the unsigned transaction, if the transaction version is at
least 2. -/
theorem C65_older_partial {p : Psbt L} {i : Input L} {t : Tx} {x : TxIn} {k : Nat} (ht : p.unsignedTx = .ok t)
    (hi : p.inputs[k]? = some i) (hx : t.input[k]? = some x) (n : RelLock) (h : (i.satisfier M).older n = true)
    (hv : 2 ≤ p.global.txVersion.toNat) : CsvPasses (relOperand n) t.version x.sequence := by
  obtain ⟨m, hm, rfl⟩ := unsignedTx_ok.mp ht
  obtain ⟨s, hs, -, h2⟩ := (C44_older_iff i n).mp h
  have hxs : x.sequence = s := by
    rw [List.getElem?_map, hi] at hx
    cases hx; show i.sequence.getD 0 = s; rw [hs]; rfl
  rw [hxs]
  exact ⟨hv, h2⟩

/-- C65 fails for what is extracted after finalizing: there no timelock is ever met, neither absolute nor relative. -/
theorem C65_extracted_never {p q : Psbt L} {debug : Bool} (hf : ∀ i ∈ p.inputs, ∃ u, FundedBy i u)
    (h : Finalizer.finalize M debug p = .ok q) {t : Tx} (ht : Extractor.extractUnchecked q = .ok t) {x : TxIn} (hx : x ∈ t.input)
    (n : UInt32) : ¬ CltvPasses n t.lockTime x.sequence ∧ ¬ CsvPasses n t.version x.sequence := by
  obtain ⟨-, t', ht', hs, -⟩ := C63_checked_and_extracted hf h
  rw [ht] at ht'; cases ht'
  have : x.sequence = 0xFFFFFFFF := by
    have hm : ({ x with scriptSig := [], witness := [] } : TxIn) ∈ (Spec.stripped t).input := List.mem_map.mpr ⟨x, hx, rfl⟩
    rw [hs] at hm
    obtain ⟨y, -, e⟩ := List.mem_map.mp hm
    have := congrArg TxIn.sequence e
    exact this.symm
  rw [this]
  exact ⟨fun h => h.2.2 rfl, fun h => absurd h.2.1 (by decide)⟩

section Examples
/-- Spends the script `[1]`, which asks for height 100. -/
def fAfter : Input EL := { fWsh [1] with minHeight := some ⟨100, by decide⟩ }
/-- Spends the script `[2]`, which asks for 10 blocks. -/
def fOlder : Input EL := { fWsh [2] with sequence := some 10 }
def fTx (p : Psbt EL) : Tx := match p.unsignedTx with | .ok t => t | .error _ => ⟨0, 0, [], []⟩
-- The hypotheses of the three theorems are met.
example : (eP [fAfter, fOlder] [3]).unsignedTx = .ok (fTx (eP [fAfter, fOlder] [3])) ∧
    (fAfter.satisfier FM).after (.blocks ⟨100, by decide⟩) = true ∧ (fTx (eP [fAfter, fOlder] [3])).lockTime = 100 ∧
    (fOlder.satisfier FM).older (.blocks 10) = true ∧
    Finalizer.finalize FM true (eP [fAfter, fOlder] [3]) = .ok (fDone (eP [fAfter, fOlder] [3])) := by decide +kernel
/-- Allows a height or a time; another input may only have a time. -/
def fBoth : Input EL := { fAfter with minTime := some ⟨500000000, by decide⟩ }
def fTimed : Input EL := { fIn with minTime := some ⟨500000007, by decide⟩ }
end Examples

/-- C65 fails for absolute locks: the finalizer accepts a PSBT and satisfies a lock of 100 blocks, but `CHECKLOCKTIMEVERIFY`
fails in the unsigned transaction - because the input has sequence number 0xFFFFFFFF, or because the lock time is a time. -/
theorem C65_after_counterexample :
    (∃ (p : Psbt EL) (t : Tx) (x : TxIn) (i : Input EL), Finalizer.new p = .ok p ∧ p.unsignedTx = .ok t ∧ p.inputs[0]? = some i ∧
      t.input[0]? = some x ∧ (i.satisfier FM).after (.blocks ⟨100, by decide⟩) = true ∧ x.sequence = 0xFFFFFFFF ∧
      ¬ CltvPasses 100 t.lockTime x.sequence) ∧
    (∃ (p : Psbt EL) (t : Tx) (x : TxIn) (i : Input EL), Finalizer.new p = .ok p ∧ p.unsignedTx = .ok t ∧ p.inputs[0]? = some i ∧
      t.input[0]? = some x ∧ (i.satisfier FM).after (.blocks ⟨100, by decide⟩) = true ∧ x.sequence = 0 ∧
      ¬ CltvPasses 100 t.lockTime x.sequence) := by
  refine ⟨⟨eP [{ fAfter with sequence := some 0xFFFFFFFF }] [3], fTx (eP [{ fAfter with sequence := some 0xFFFFFFFF }] [3]),
    ⟨⟨Demo.rep 32 3, 0⟩, [], 0xFFFFFFFF, []⟩, { fAfter with sequence := some 0xFFFFFFFF }, by decide +kernel, by decide +kernel, rfl,
    by decide +kernel, by decide +kernel, rfl, fun h => h.2.2 rfl⟩,
    ⟨eP [fBoth, fTimed] [3], fTx (eP [fBoth, fTimed] [3]), ⟨⟨Demo.rep 32 3, 0⟩, [], 0, []⟩, fBoth, by decide +kernel, by decide +kernel,
    rfl, by decide +kernel, by decide +kernel, rfl, fun h => ?_⟩⟩
  have : (fTx (eP [fBoth, fTimed] [3])).lockTime = 500000007 := by decide +kernel
  rw [this] at h
  exact absurd (h.1.mp (by decide)) (by decide)

/-- C65 fails for relative locks: in a transaction of version 1 the finalizer considers the lock met. -/
theorem C65_older_counterexample : ∃ (p : Psbt EL) (t : Tx) (x : TxIn) (i : Input EL), Finalizer.new p = .ok p ∧ p.unsignedTx = .ok t ∧
    p.inputs[0]? = some i ∧ t.input[0]? = some x ∧ (i.satisfier FM).older (.blocks 10) = true ∧
    ¬ CsvPasses (relOperand (.blocks 10)) t.version x.sequence :=
  ⟨{ eP [fOlder] [3] with global := { Global.new EL with txVersion := 1 } },
    fTx { eP [fOlder] [3] with global := { Global.new EL with txVersion := 1 } }, ⟨⟨Demo.rep 32 3, 0⟩, [], 10, []⟩, fOlder,
    by decide +kernel, by decide +kernel, rfl, by decide +kernel, by decide +kernel, fun h => absurd h.1 (by decide +kernel)⟩

end Psbt.V2
