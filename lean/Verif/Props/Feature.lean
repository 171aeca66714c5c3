/- C122: programs with and without silent payment support can hand a PSBT v2 to each other. -/
import Verif.Lemmas.Feature
import Verif.Props.V2Sign
import Verif.Props.V2HandOver
import Verif.Props.V2Parallel
namespace Psbt.V2
open Psbt
open Psbt.Spec (plain plainPsbt plainInput plainOutput plainGlobal SameSilent SameUnknowns NoSilent)

section
variable {L : Lib} {n m : Nat}

theorem decodeN_to {ε α β : Type} {dec : Bytes → Except ε (β × Bytes)} {enc : α → Bytes} {f : α → β} {l : List α}
    (h : ∀ a ∈ l, ∀ r, dec (enc a ++ r) = .ok (f a, r)) (r : Bytes) :
    decodeN dec l.length (l.flatMap enc ++ r) = .ok (l.map f, r) := by
  induction l with
  | nil => rfl
  | cons a l ih =>
    simp only [List.flatMap_cons, List.append_assoc, List.length_cons, decodeN]
    rw [h a (by simp)]
    simp only [ok_bind]
    rw [ih fun b hb => h b (List.mem_cons_of_mem _ hb)]
    rfl

theorem decodeN_each {ε α β : Type} {dec : Bytes → Except ε (β × Bytes)} {enc : α → Bytes} {l : List α}
    (hr : ∀ a ∈ l, ∀ r y, dec (enc a ++ r) = .ok y → y.2 = r) {r : Bytes} {x : List β × Bytes}
    (h : decodeN dec l.length (l.flatMap enc ++ r) = .ok x) : ∀ a ∈ l, ∃ r y, dec (enc a ++ r) = .ok y := by
  induction l generalizing x with
  | nil => intro a ha; cases ha
  | cons a l ih =>
    simp only [List.flatMap_cons, List.append_assoc, List.length_cons, decodeN] at h
    rw [bind_ok] at h
    obtain ⟨y, h1, h2⟩ := h
    rw [bind_ok] at h2
    obtain ⟨z, h3, -⟩ := h2
    rw [hr a List.mem_cons_self _ _ h1] at h3
    intro b hb
    rcases List.mem_cons.mp hb with rfl | hb
    · exact ⟨_, _, h1⟩
    · exact ih (fun a ha => hr a (List.mem_cons_of_mem _ ha)) h3 b hb

theorem serialize_split (p : Psbt L) : p.serialize = MAGIC ++ 0xff :: (serializeMap p.global.getPairs ++
    (p.inputs.flatMap (fun i => serializeMap i.getPairs) ++ (p.outputs.flatMap (fun o => serializeMap o.getPairs) ++ []))) := by
  simp [Psbt.serialize, List.append_assoc]

theorem to_plain (hs : L.sp = true) {p : Psbt L} (h : Spec.WF p) (hn : n + 1 ≤ L.inputSize) (hm : m + 1 ≤ L.outputSize)
    (ho : ∀ o ∈ p.outputs, o.scriptPubkey ≠ []) : Psbt.deserialize (plain L n m) p.serialize = .ok (plainPsbt n m p) := by
  rw [deserialize_ok, serialize_split]
  refine ⟨_, _, p.outputs.flatMap (fun o => serializeMap o.getPairs) ++ [], [], rfl, global_to_plain hs h.global _, ?_, ?_, ?_, ?_⟩
  · show p.global.inputCount.toNat * (n + 1) < _
    rw [h.inputCount]
    exact Nat.lt_of_le_of_lt (Nat.mul_le_mul_left _ hn) h.inputMem
  · show decodeN _ p.global.inputCount.toNat _ = _
    rw [h.inputCount]
    exact decodeN_to (fun i hi r => input_to_plain hs (h.inputs i hi) r) _
  · show p.global.outputCount.toNat * (m + 1) < _
    rw [h.outputCount]
    exact Nat.lt_of_le_of_lt (Nat.mul_le_mul_left _ hm) h.outputMem
  · show decodeN _ p.global.outputCount.toNat _ = _
    rw [h.outputCount]
    exact decodeN_to (fun o hi r => output_to_plain hs (h.outputs o hi) (ho o hi) r) _

theorem from_plain (hs : L.sp = true) {p : Psbt L} (h : Spec.WF p) (ho : ∀ o ∈ p.outputs, o.scriptPubkey ≠ []) :
    Psbt.deserialize L (plainPsbt n m p).serialize = .ok p := by
  rw [deserialize_ok, serialize_split]
  refine ⟨_, _, (plainPsbt n m p).outputs.flatMap (fun o => serializeMap o.getPairs) ++ [], [], rfl, global_from_plain hs h.global _, ?_, ?_, ?_, ?_⟩
  · rw [h.inputCount]; exact h.inputMem
  · rw [h.inputCount]
    show decodeN _ _ ((p.inputs.map (plainInput n m)).flatMap _ ++ _) = _
    rw [List.flatMap_map]
    have := decodeN_to (f := _root_.id) (fun i hi r => input_from_plain (n := n) (m := m) hs (h.inputs i hi) r)
    simpa using this _
  · rw [h.outputCount]; exact h.outputMem
  · rw [h.outputCount]
    show decodeN _ _ ((p.outputs.map (plainOutput n m)).flatMap _ ++ _) = _
    rw [List.flatMap_map]
    have := decodeN_to (f := _root_.id) (fun o hi r => output_from_plain (n := n) (m := m) hs (h.outputs o hi) (ho o hi) r)
    simpa using this []

theorem output_script {o : Output L} (h : Spec.OutputWF o) : ∀ p ∈ o.getPairs, p.key.ty = 0x04 → p.value = o.scriptPubkey := by
  intro p hp
  have hq := (C60_output_pairs o p).mp hp
  generalize p.key.ty = t at *
  generalize p.key.key = k at *
  generalize p.value = v at *
  cases hq
  case script => exact fun _ => rfl
  case unknown hg => exact fun e => (h.unknowns _ _ hg (by rw [e]; cases L.sp <;> decide)).elim
  all_goals exact fun e => absurd e (by decide)

/-- C122. A PSBT that a program with silent payment support has read and writes is read by a program without it exactly if every
output has a script. -/
theorem C122_readable_iff (hs : L.sp = true) {b : Bytes} {p : Psbt L} (h : Psbt.deserialize L b = .ok p) (hn : n + 1 ≤ L.inputSize)
    (hm : m + 1 ≤ L.outputSize) :
    (∃ q, Psbt.deserialize (plain L n m) p.serialize = .ok q) ↔ ∀ o ∈ p.outputs, o.scriptPubkey ≠ [] := by
  have hw := wf_of_deserialize h
  refine ⟨?_, fun ho => ⟨_, to_plain hs hw hn hm ho⟩⟩
  rintro ⟨q, hq⟩ o ho e
  rw [deserialize_ok] at hq
  obtain ⟨d, r1, r2, r3, e0, h1, -, h3, -, h5⟩ := hq
  rw [serialize_split] at e0
  obtain rfl : d = _ := by
    have := List.append_cancel_left e0
    injection this with _ this
    exact this.symm
  rw [global_to_plain hs hw.global] at h1
  injection h1 with h1
  injection h1 with h1 h1'
  rw [← h1, ← h1'] at h3
  have h3' := decodeN_to (fun i hi r => input_to_plain (n := n) (m := m) hs (hw.inputs i hi) r)
    (p.outputs.flatMap (fun o => serializeMap o.getPairs) ++ [])
  rw [← hw.inputCount] at h3'
  rw [show (plainGlobal n m p.global).inputCount = p.global.inputCount from rfl, h3'] at h3
  injection h3 with h3
  injection h3 with _ h3
  rw [← h1, ← h3, show (plainGlobal n m p.global).outputCount = p.global.outputCount from rfl, hw.outputCount] at h5
  have hf : ∀ o ∈ p.outputs, ∀ x ∈ o.getPairs, PairFits x := fun o ho x hx => (pairFits_iff x).mpr ((hw.outputs o ho).sizes x hx)
  obtain ⟨r, ⟨y, r'⟩, hy⟩ := decodeN_each (fun o ho r y hy => (Output.decode_pairs (hf o ho) hy).1) h5 o ho
  rw [← mapBytes_fun] at hy
  obtain ⟨⟨x, hx, ht, hv⟩, hne⟩ := (C10_output_required (hw.outputs o ho).sizes hy).2.2 rfl
  exact hne (hv.symm.trans ((output_script (hw.outputs o ho) x hx ht).trans e))


/-- C122. What that program then has is the same PSBT, with the silent payment data among the unknown records; written again, the
program with silent payment support reads back what it had. -/
theorem C122_there_and_back (hs : L.sp = true) {b : Bytes} {p : Psbt L} (h : Psbt.deserialize L b = .ok p) (hn : n + 1 ≤ L.inputSize)
    (hm : m + 1 ≤ L.outputSize) {q : Psbt (plain L n m)} (hq : Psbt.deserialize (plain L n m) p.serialize = .ok q) :
    q = plainPsbt n m p ∧ Psbt.deserialize L q.serialize = .ok p := by
  have hw := wf_of_deserialize h
  have ho := (C122_readable_iff hs h hn hm).mp ⟨q, hq⟩
  rw [to_plain hs hw hn hm ho] at hq
  injection hq with hq
  subst hq
  exact ⟨rfl, from_plain hs hw ho⟩

/-! ### Changed by the program without silent payments -/

/-- The PSBT a program with silent payment support has, given the other fields and the silent payment data. -/
def liftGlobal (g : Global (plain L n m)) (x : Global L) : Global L where
  version := g.version
  txVersion := g.txVersion
  fallbackLockTime := g.fallbackLockTime
  txModifiableFlags := g.txModifiableFlags
  inputCount := g.inputCount
  outputCount := g.outputCount
  xpubs := g.xpubs
  spEcdhShares := x.spEcdhShares
  spDleqProofs := x.spDleqProofs
  proprietaries := g.proprietaries
  unknowns := x.unknowns

def liftInput (i : Input (plain L n m))
    (x : BMap L.compressed.T L.compressed.T × BMap L.compressed.T (FixedBytes 64) × BMap RawKey Bytes) : Input L where
  previousTxid := i.previousTxid
  spentOutputIndex := i.spentOutputIndex
  sequence := i.sequence
  minTime := i.minTime
  minHeight := i.minHeight
  nonWitnessUtxo := i.nonWitnessUtxo
  witnessUtxo := i.witnessUtxo
  partialSigs := Spec.mapTo (K := L.pubkey.T) (fun s : EcdsaSig (plain L n m) => (⟨s.der, s.ty⟩ : EcdsaSig L)) i.partialSigs
  sighashType := i.sighashType
  redeemScript := i.redeemScript
  witnessScript := i.witnessScript
  bip32Derivations := i.bip32Derivations
  finalScriptSig := i.finalScriptSig
  finalScriptWitness := i.finalScriptWitness
  ripemd160Preimages := i.ripemd160Preimages
  sha256Preimages := i.sha256Preimages
  hash160Preimages := i.hash160Preimages
  hash256Preimages := i.hash256Preimages
  tapKeySig := i.tapKeySig
  tapScriptSigs := i.tapScriptSigs
  tapScripts := i.tapScripts
  tapKeyOrigins := i.tapKeyOrigins
  tapInternalKey := i.tapInternalKey
  tapMerkleRoot := i.tapMerkleRoot
  spEcdhShares := x.1
  spDleqProofs := x.2.1
  proprietaries := i.proprietaries
  unknowns := x.2.2

def liftOutput (o : Output (plain L n m)) (x : Option Bytes × Option UInt32 × BMap RawKey Bytes) : Output L where
  amount := o.amount
  scriptPubkey := o.scriptPubkey
  redeemScript := o.redeemScript
  witnessScript := o.witnessScript
  bip32Derivations := o.bip32Derivations
  tapInternalKey := o.tapInternalKey
  tapTree := o.tapTree.map fun t => ⟨t.leaves, t.ok⟩
  tapKeyOrigins := o.tapKeyOrigins
  spV0Info := x.1
  spV0Label := x.2.1
  proprietaries := o.proprietaries
  unknowns := x.2.2

theorem mapTo_mapTo {K V W : Type} [OrdKey K] [DecidableEq K] (f : V → W) (g : W → V) (h : ∀ v, g (f v) = v) (b : BMap K V) :
    Spec.mapTo g (Spec.mapTo f b) = b := by
  apply BMap.ext'
  show List.map _ (List.map _ b.l) = b.l
  rw [List.map_map]
  exact (List.map_congr_left fun kv _ => by show (kv.1, g (f kv.2)) = kv; rw [h]).trans (List.map_id _)

theorem plain_liftGlobal {g : Global (plain L n m)} {x : Global L} (hw : Spec.GlobalWF g)
    (h : g.unknowns = (plainGlobal n m x).unknowns) : plainGlobal n m (liftGlobal g x) = g := by
  obtain ⟨h1, h2⟩ := hw.spOff rfl
  cases g
  simp only at h h1 h2
  subst h h1 h2
  rfl

theorem plain_liftInput {i : Input (plain L n m)} {x} (hw : Spec.InputWF i)
    (h : i.unknowns = Spec.withRecords x.2.2 (Spec.shareRecords 0x1D x.1 ++ Spec.proofRecords 0x1E x.2.1)) :
    plainInput n m (liftInput i x) = i := by
  obtain ⟨h1, h2⟩ := hw.spOff rfl
  have h3 : (plainInput n m (liftInput i x)).partialSigs = i.partialSigs :=
    mapTo_mapTo (K := L.pubkey.T) (fun s : EcdsaSig (plain L n m) => (⟨s.der, s.ty⟩ : EcdsaSig L)) (fun s => ⟨s.der, s.ty⟩) (fun _ => rfl) _
  cases i
  simp only at h h1 h2
  subst h h1 h2
  unfold plainInput liftInput at h3 ⊢
  simp only at h3 ⊢
  rw [h3]

theorem plain_liftOutput {o : Output (plain L n m)} {x} (hw : Spec.OutputWF o)
    (h : o.unknowns = Spec.withRecords x.2.2 (Spec.addressRecords x.1 x.2.1)) : plainOutput n m (liftOutput o x) = o := by
  obtain ⟨h1, h2⟩ := hw.spOff rfl
  have h3 : (plainOutput n m (liftOutput o x)).tapTree = o.tapTree := by
    show Option.map _ (Option.map _ o.tapTree) = _
    cases o.tapTree <;> rfl
  cases o
  simp only at h h1 h2
  subst h h1 h2
  unfold plainOutput liftOutput at h3 ⊢
  simp only at h3 ⊢
  rw [h3]

theorem lift_inputs {qs : List (Input (plain L n m))}
    {xs : List (BMap L.compressed.T L.compressed.T × BMap L.compressed.T (FixedBytes 64) × BMap RawKey Bytes)}
    (hw : ∀ i ∈ qs, Spec.InputWF i)
    (h : qs.map (fun i => i.unknowns) =
      xs.map fun x => Spec.withRecords x.2.2 (Spec.shareRecords 0x1D x.1 ++ Spec.proofRecords 0x1E x.2.1)) :
    (List.zipWith liftInput qs xs).map (plainInput n m) = qs ∧
    (List.zipWith liftInput qs xs).map (fun i => (i.spEcdhShares, i.spDleqProofs, i.unknowns)) = xs := by
  induction qs generalizing xs with
  | nil =>
    cases xs with
    | nil => exact ⟨rfl, rfl⟩
    | cons _ _ => cases h
  | cons i qs ih =>
    cases xs with
    | nil => cases h
    | cons x xs =>
      simp only [List.map_cons, List.cons.injEq] at h
      obtain ⟨h1, h2⟩ := ih (fun i hi => hw i (List.mem_cons_of_mem _ hi)) h.2
      constructor
      · simp only [List.zipWith_cons_cons, List.map_cons]
        rw [plain_liftInput (hw i List.mem_cons_self) h.1, h1]
      · simp only [List.zipWith_cons_cons, List.map_cons]
        rw [h2]
        rfl

theorem lift_outputs {qs : List (Output (plain L n m))} {xs : List (Option Bytes × Option UInt32 × BMap RawKey Bytes)}
    (hw : ∀ i ∈ qs, Spec.OutputWF i)
    (h : qs.map (fun i => i.unknowns) = xs.map fun x => Spec.withRecords x.2.2 (Spec.addressRecords x.1 x.2.1)) :
    (List.zipWith liftOutput qs xs).map (plainOutput n m) = qs ∧
    (List.zipWith liftOutput qs xs).map (fun i => (i.spV0Info, i.spV0Label, i.unknowns)) = xs := by
  induction qs generalizing xs with
  | nil =>
    cases xs with
    | nil => exact ⟨rfl, rfl⟩
    | cons _ _ => cases h
  | cons i qs ih =>
    cases xs with
    | nil => cases h
    | cons x xs =>
      simp only [List.map_cons, List.cons.injEq] at h
      obtain ⟨h1, h2⟩ := ih (fun i hi => hw i (List.mem_cons_of_mem _ hi)) h.2
      constructor
      · simp only [List.zipWith_cons_cons, List.map_cons]
        rw [plain_liftOutput (hw i List.mem_cons_self) h.1, h1]
      · simp only [List.zipWith_cons_cons, List.map_cons]
        rw [h2]
        rfl

/-- A PSBT of the program without silent payments, with the silent payment data found among its unknown records. -/
theorem lift (hs : L.sp = true) {q : Psbt (plain L n m)} (hw : Spec.WF q) {g : Global L}
    {xs : List (BMap L.compressed.T L.compressed.T × BMap L.compressed.T (FixedBytes 64) × BMap RawKey Bytes)}
    {ys : List (Option Bytes × Option UInt32 × BMap RawKey Bytes)}
    (hg : q.global.unknowns = (plainGlobal n m g).unknowns)
    (hgc : Clear g.unknowns 0x07 0x08 ∧ (g.spEcdhShares = .empty ↔ g.spDleqProofs = .empty))
    (hx : q.inputs.map (fun i => i.unknowns) =
      xs.map fun x => Spec.withRecords x.2.2 (Spec.shareRecords 0x1D x.1 ++ Spec.proofRecords 0x1E x.2.1))
    (hxc : ∀ x ∈ xs, Clear x.2.2 0x1D 0x1E ∧ (x.1 = .empty ↔ x.2.1 = .empty))
    (hy : q.outputs.map (fun i => i.unknowns) = ys.map fun x => Spec.withRecords x.2.2 (Spec.addressRecords x.1 x.2.1))
    (hyc : ∀ y ∈ ys, Clear y.2.2 0x09 0x0A ∧ (∀ v, y.1 = some v → v.length = 66) ∧ (y.2.1 ≠ none → y.1 ≠ none))
    (hn : q.inputs.length * L.inputSize < 2 ^ 63) (hm : q.outputs.length * L.outputSize < 2 ^ 63) :
    ∃ p : Psbt L, Psbt.deserialize L q.serialize = .ok p ∧ plainPsbt n m p = q ∧
      p.global.spEcdhShares = g.spEcdhShares ∧ p.global.spDleqProofs = g.spDleqProofs ∧ p.global.unknowns = g.unknowns ∧
      p.inputs.map (fun i => (i.spEcdhShares, i.spDleqProofs, i.unknowns)) = xs ∧
      p.outputs.map (fun i => (i.spV0Info, i.spV0Label, i.unknowns)) = ys := by
  obtain ⟨i1, i2⟩ := lift_inputs hw.inputs hx
  obtain ⟨o1, o2⟩ := lift_outputs hw.outputs hy
  have g1 := plain_liftGlobal hw.global hg
  generalize List.zipWith liftInput q.inputs xs = is at i1 i2
  generalize List.zipWith liftOutput q.outputs ys = os at o1 o2
  have e : plainPsbt n m (⟨liftGlobal q.global g, is, os⟩ : Psbt L) = q := by
    show (⟨_, _, _⟩ : Psbt (plain L n m)) = q
    rw [g1, i1, o1]
  have il : is.length = q.inputs.length := by rw [← i1, List.length_map]
  have ol : os.length = q.outputs.length := by rw [← o1, List.length_map]
  have hout : ∀ o ∈ os, Spec.OutputWF o ∧ o.scriptPubkey ≠ [] := fun o ho =>
    (outputWF_iff (n := n) (m := m) hs).mpr ⟨hw.outputs _ (o1 ▸ List.mem_map.mpr ⟨o, ho, rfl⟩),
      hyc (o.spV0Info, o.spV0Label, o.unknowns) (o2 ▸ List.mem_map.mpr ⟨o, ho, rfl⟩)⟩
  have hp : Spec.WF (⟨liftGlobal q.global g, is, os⟩ : Psbt L) :=
    ⟨(globalWF_iff (n := n) (m := m) hs).mpr ⟨g1.symm ▸ hw.global, hgc⟩,
      fun i hi => (inputWF_iff (n := n) (m := m) hs).mpr ⟨hw.inputs _ (i1 ▸ List.mem_map.mpr ⟨i, hi, rfl⟩),
        hxc (i.spEcdhShares, i.spDleqProofs, i.unknowns) (i2 ▸ List.mem_map.mpr ⟨i, hi, rfl⟩)⟩,
      fun o ho => (hout o ho).1, hw.inputCount.trans il.symm, hw.outputCount.trans ol.symm, by rw [il]; exact hn, by rw [ol]; exact hm⟩
  have hd := from_plain (n := n) (m := m) hs hp fun o ho => (hout o ho).2
  rw [e] at hd
  exact ⟨_, hd, e, rfl, rfl, rfl, i2, o2⟩

/-- C122. A program without silent payment support can work on the PSBT: as long as it keeps the unknown records, whatever it
writes is read by the program with silent payment support, with all it changed and with the silent payment data as it was. -/
theorem C122_returned (hs : L.sp = true) {b c : Bytes} {p : Psbt L} (hp : Psbt.deserialize L b = .ok p) {q : Psbt (plain L n m)}
    (hq : Psbt.deserialize (plain L n m) c = .ok q) (hu : SameUnknowns q (plainPsbt n m p)) :
    ∃ p', Psbt.deserialize L q.serialize = .ok p' ∧ plainPsbt n m p' = q ∧ SameSilent p' p := by
  have hw := wf_of_deserialize hp
  have hx := hu.inputs
  have hy := hu.outputs
  unfold plainPsbt at hx hy
  simp only [List.map_map] at hx hy
  have hin : q.inputs.length = p.inputs.length := by simpa using congrArg List.length hx
  have hon : q.outputs.length = p.outputs.length := by simpa using congrArg List.length hy
  obtain ⟨p', h1, h2, h3, h4, h5, h6, h7⟩ := lift hs (wf_of_deserialize hq) (g := p.global)
    (xs := p.inputs.map fun i => (i.spEcdhShares, i.spDleqProofs, i.unknowns))
    (ys := p.outputs.map fun o => (o.spV0Info, o.spV0Label, o.unknowns)) hu.global ((globalWF_iff (n := n) (m := m) hs).mp hw.global).2
    (by rw [hx, List.map_map]; rfl)
    (fun x hx => by
      obtain ⟨i, hi, rfl⟩ := List.mem_map.mp hx
      exact ((inputWF_iff (n := n) (m := m) hs).mp (hw.inputs i hi)).2)
    (by rw [hy, List.map_map]; rfl)
    (fun x hx => by
      obtain ⟨o, ho, rfl⟩ := List.mem_map.mp hx
      have h := hw.outputs o ho
      exact ⟨fun k v hg => (types_output.mp (hs ▸ h.unknowns k v hg)).2, h.info, h.spOn hs⟩)
    (by rw [hin]; exact hw.inputMem) (by rw [hon]; exact hw.outputMem)
  exact ⟨p', h1, h2, ⟨⟨h3, h4, h5⟩, h6, h7⟩⟩

/-- C122. So it can sign: the program with silent payment support gets the signatures, and has its silent payment data. -/
theorem C122_signed (hs : L.sp = true) {b : Bytes} {p : Psbt L} (hp : Psbt.deserialize L b = .ok p) {q r : Psbt (plain L n m)}
    (hq : Psbt.deserialize (plain L n m) p.serialize = .ok q) (hn : n + 1 ≤ L.inputSize) (hm : m + 1 ≤ L.outputSize)
    {S : SigLib (plain L n m)} {k : Provider S} {used} (h : Signer.sign S q k = .ok (r, used))
    (hr : Psbt.deserialize (plain L n m) r.serialize = .ok r) :
    ∃ p', Psbt.deserialize L r.serialize = .ok p' ∧ plainPsbt n m p' = r ∧ SameSilent p' p := by
  refine C122_returned hs hp hr ?_
  have he := (C33_signer h).1
  obtain rfl := (C122_there_and_back hs hp hn hm hq).1
  have h1 := congrArg (fun x => x.global.unknowns) he
  have h2 := congrArg (fun x => x.inputs.map fun i => i.unknowns) he
  have h3 := congrArg (fun x => x.outputs.map fun i => i.unknowns) he
  unfold Spec.erase at h1 h2 h3
  simp only [List.map_map] at h1 h2 h3
  exact ⟨h1, h2, h3⟩

/-! ### Made by the program without silent payments -/

theorem flatMap_bytes_congr {A : Type} {f g : A → Bytes} {l : List A} (h : ∀ a ∈ l, f a = g a) : l.flatMap f = l.flatMap g := by
  induction l with
  | nil => rfl
  | cons a l ih =>
    rw [List.flatMap_cons, List.flatMap_cons, h a List.mem_cons_self, ih fun b hb => h b (List.mem_cons_of_mem _ hb)]

theorem plainInput_same (i : Input L) (h1 : i.spEcdhShares = .empty) (h2 : i.spDleqProofs = .empty) :
    (plainInput n m i).getPairs = i.getPairs := by
  unfold Input.getPairs
  simp only [List.flatten_cons, List.flatten_nil, List.append_nil]
  have e : emitSp L PSBT_IN_SP_ECDH_SHARE Foreign.T.bytes i.spEcdhShares = [] := by rw [h1]; unfold emitSp; split <;> rfl
  have d : emitSp L PSBT_IN_SP_DLEQ Subtype.val i.spDleqProofs = [] := by rw [h2]; unfold emitSp; split <;> rfl
  have u : (plainInput n m i).unknowns = i.unknowns := by unfold plainInput; simp only; rw [h1, h2]; rfl
  have t : emitMap PSBT_IN_PARTIAL_SIG (pubkeyCodec (plain L n m)) (ecdsaSigCodec (plain L n m)) (plainInput n m i).partialSigs =
    emitMap PSBT_IN_PARTIAL_SIG (pubkeyCodec L) (ecdsaSigCodec L) i.partialSigs := emitMap_sigs _ _
  rw [e, d, u, t]
  rfl

theorem plainOutput_same (o : Output L) (h1 : o.spV0Info = none) (h2 : o.spV0Label = none) :
    (plainOutput n m o).getPairs = o.getPairs := by
  unfold Output.getPairs
  simp only [List.flatten_cons, List.flatten_nil, List.append_nil]
  have e : emitSpInfo L o.spV0Info = [] := by rw [h1]; unfold emitSpInfo; split <;> rfl
  have d : emitSpLabel L o.spV0Label = [] := by rw [h2]; unfold emitSpLabel; split <;> rfl
  have u : (plainOutput n m o).unknowns = o.unknowns := by unfold plainOutput; simp only; rw [h1, h2]; rfl
  have t : emitOpt PSBT_OUT_TAP_TREE (tapTreeCodec (plain L n m)) (plainOutput n m o).tapTree =
    emitOpt PSBT_OUT_TAP_TREE (tapTreeCodec L) o.tapTree := emitOpt_tree _ _
  rw [e, d, u, t]
  rfl

theorem plainGlobal_same (g : Global L) (h1 : g.spEcdhShares = .empty) (h2 : g.spDleqProofs = .empty) :
    (plainGlobal n m g).getPairs = g.getPairs := by
  unfold Global.getPairs
  simp only [List.flatten_cons, List.flatten_nil, List.append_nil]
  have e : emitSp L PSBT_GLOBAL_SP_ECDH_SHARE Foreign.T.bytes g.spEcdhShares = [] := by rw [h1]; unfold emitSp; split <;> rfl
  have d : emitSp L PSBT_GLOBAL_SP_DLEQ Subtype.val g.spDleqProofs = [] := by rw [h2]; unfold emitSp; split <;> rfl
  have u : (plainGlobal n m g).unknowns = g.unknowns := by unfold plainGlobal; simp only; rw [h1, h2]; rfl
  rw [e, d, u]
  rfl

/-- C122. A PSBT read by a program without silent payment support, with no record of the types silent payments use, is the same to
a program with it: it has no silent payment data, and writes the same bytes. -/
theorem C122_no_silent_payments (hs : L.sp = true) {c : Bytes} {q : Psbt (plain L n m)} (hq : Psbt.deserialize (plain L n m) c = .ok q)
    (hu : NoSilent q) (hn : q.inputs.length * L.inputSize < 2 ^ 63) (hm : q.outputs.length * L.outputSize < 2 ^ 63) :
    ∃ p, Psbt.deserialize L q.serialize = .ok p ∧ plainPsbt n m p = q ∧ p.serialize = q.serialize ∧
      p.global.spEcdhShares = .empty ∧ p.global.spDleqProofs = .empty ∧
      (∀ i ∈ p.inputs, i.spEcdhShares = .empty ∧ i.spDleqProofs = .empty) ∧
      ∀ o ∈ p.outputs, o.spV0Info = none ∧ o.spV0Label = none := by
  obtain ⟨p, h1, h2, h3, h4, -, h6, h7⟩ := lift hs (wf_of_deserialize hq)
    (g := { Global.new L with unknowns := q.global.unknowns })
    (xs := q.inputs.map fun i => (.empty, .empty, i.unknowns))
    (ys := q.outputs.map fun o => (none, none, o.unknowns)) rfl ⟨hu.global, Iff.rfl.trans (by constructor <;> exact fun _ => rfl)⟩
    (by rw [List.map_map]; rfl)
    (fun x hx => by
      obtain ⟨i, hi, rfl⟩ := List.mem_map.mp hx
      exact ⟨hu.inputs i hi, fun _ => rfl, fun _ => rfl⟩)
    (by rw [List.map_map]; rfl)
    (fun x hx => by
      obtain ⟨o, ho, rfl⟩ := List.mem_map.mp hx
      exact ⟨hu.outputs o ho, fun _ h => (by cases h), fun h => (h rfl).elim⟩) hn hm
  have hi : ∀ i ∈ p.inputs, i.spEcdhShares = .empty ∧ i.spDleqProofs = .empty := by
    intro i hi
    have := h6 ▸ List.mem_map.mpr ⟨i, hi, rfl⟩
    obtain ⟨_, _, e⟩ := List.mem_map.mp this
    injection e with e1 e2
    injection e2 with e2 _
    exact ⟨e1.symm, e2.symm⟩
  have ho : ∀ o ∈ p.outputs, o.spV0Info = none ∧ o.spV0Label = none := by
    intro o ho
    have := h7 ▸ List.mem_map.mpr ⟨o, ho, rfl⟩
    obtain ⟨_, _, e⟩ := List.mem_map.mp this
    injection e with e1 e2
    injection e2 with e2 _
    exact ⟨e1.symm, e2.symm⟩
  refine ⟨p, h1, h2, ?_, h3, h4, hi, ho⟩
  rw [← h2]
  unfold Psbt.serialize plainPsbt
  simp only [List.flatMap_map]
  rw [plainGlobal_same _ h3 h4]
  congr 1
  · congr 1
    exact flatMap_bytes_congr fun i h => by rw [plainInput_same i (hi i h).1 (hi i h).2]
  · exact flatMap_bytes_congr fun o h => by rw [plainOutput_same o (ho o h).1 (ho o h).2]

end

/-! ### The hypotheses are met -/

abbrev FL : Lib := Demo.lib true
/-- Two inputs ready to be signed, with shares and proofs in the global map and in the inputs, addresses and labels in the outputs,
and records of unknown types everywhere. -/
def fP : Psbt FL :=
  ⟨liftGlobal (n := 1023) (m := 511) paP.global
      { Global.new FL with
        spEcdhShares := BMap.empty.insert (Demo.val 33 (by decide) 2) (Demo.val 33 (by decide) 3)
        spDleqProofs := BMap.empty.insert (Demo.val 33 (by decide) 2) (Demo.rep 64 4)
        unknowns := (BMap.empty.insert ⟨0x09, [1]⟩ [2]).insert ⟨0xEE, [1]⟩ [2] },
    paP.inputs.map fun i => liftInput (n := 1023) (m := 511) i
      ((BMap.empty.insert (Demo.val 33 (by decide) 5) (Demo.val 33 (by decide) 6)).insert (Demo.val 33 (by decide) 2) (Demo.val 33 (by decide) 3),
        BMap.empty.insert (Demo.val 33 (by decide) 2) (Demo.rep 64 4), BMap.empty.insert ⟨0x1C, [1]⟩ [2]),
    paP.outputs.map fun o => liftOutput (n := 1023) (m := 511) o (some (List.replicate 66 7), some 9, BMap.empty.insert ⟨0x08, [1]⟩ [2])⟩
theorem fP_read : Psbt.deserialize FL fP.serialize = .ok fP := by decide +kernel
theorem fP_scripts : ∀ o ∈ fP.outputs, o.scriptPubkey ≠ [] := by decide +kernel
def fQ : Psbt (plain FL 1023 511) := plainPsbt 1023 511 fP
theorem fQ_read : Psbt.deserialize (plain FL 1023 511) fP.serialize = .ok fQ :=
  to_plain rfl (wf_of_deserialize fP_read) (by decide) (by decide) fP_scripts
example : fP.global.spEcdhShares ≠ .empty ∧ fP.inputs.length = 2 ∧ (fP.outputs.all fun o => decide (o.spV0Info ≠ none)) = true ∧
    fP.outputs ≠ [] := by decide +kernel
-- The program without silent payments writes the records in another order.
example : fQ.serialize ≠ fP.serialize := by decide +kernel
abbrev FS : SigLib (plain FL 1023 511) := SS
def fR : Psbt (plain FL 1023 511) := match Signer.sign FS fQ sKeys with | .ok (r, _) => r | _ => fQ
-- It signs, and what it has then can be read by both.
example : (∃ u, Signer.sign FS fQ sKeys = .ok (fR, u)) ∧ fR ≠ fQ ∧ Psbt.deserialize (plain FL 1023 511) fR.serialize = .ok fR := by
  refine ⟨⟨_, rfl⟩, by decide +kernel, by decide +kernel⟩
example : SameUnknowns fR (plainPsbt 1023 511 fP) := ⟨by decide +kernel, by decide +kernel, by decide +kernel⟩
-- An output with a silent payment address and no script yet: the program without silent payments refuses the PSBT.
def fNoScript : Psbt FL := { fP with outputs := fP.outputs.map fun o => { o with scriptPubkey := [] } }
example : Psbt.deserialize FL fNoScript.serialize = .ok fNoScript ∧
    Psbt.deserialize (plain FL 1023 511) fNoScript.serialize = .error (.err (.decodeOutput .missingScriptPubkey)) := by
  constructor <;> decide +kernel
-- A PSBT without silent payment data.
example : NoSilent (L := plain FL 1023 511) paP ∧ Psbt.deserialize (plain FL 1023 511) (Psbt.serialize paP) = .ok paP := by
  refine ⟨⟨?_, ?_, ?_⟩, by decide +kernel⟩
  · intro k v h; exact (BMap.get_empty_ne h).elim
  · intro i hi k v h
    rw [(by decide +kernel : ∀ i ∈ paP.inputs, i.unknowns = .empty) i hi] at h
    exact (BMap.get_empty_ne h).elim
  · intro o ho k v h
    rw [(by decide +kernel : ∀ o ∈ paP.outputs, o.unknowns = .empty) o ho] at h
    exact (BMap.get_empty_ne h).elim

end Psbt.V2
