/- Operations commute with leaving out the records of Spec/Ignored.lean. -/
import Verif.Spec.Ignored
import Verif.Model.V0.Checks
namespace Psbt
open Spec (SameResult)

theorem same_of_map {ε α : Type} {f : α → α} {E : ε → ε → Prop} {R : α → α → Prop} {x y : Out ε α} (hE : ∀ e, E e e)
    (hR : ∀ a b, f a = f b → R a b) (h : x.map f = y.map f) : SameResult E R x y := by
  cases x with
  | error e => cases y with
    | error e' =>
      simp only [Except.map, Except.error.injEq] at h
      subst h
      cases e with
      | err e => exact .err (hE e)
      | panic s => exact .panic s
    | ok b => cases h
  | ok a => cases y with
    | error e' => cases h
    | ok b =>
      simp only [Except.map, Except.ok.injEq] at h
      exact .ok (hR _ _ h)

namespace V2
open _root_.Psbt.Spec (core coreInput coreOutput coreGlobal)
variable {L : Lib}

theorem core_inputs (p : Psbt L) (n : Nat) : (core p).inputs[n]? = p.inputs[n]?.map coreInput := by simp [core]

theorem checkedInput_core (p : Psbt L) (n : Nat) : (core p).checkedInput n = (p.checkedInput n).map coreInput := by
  have hl : (core p).inputs.length = p.inputs.length := by simp [core]
  have hg : (core p).global.inputCount = p.global.inputCount := rfl
  unfold Psbt.checkedInput Psbt.checkInputIndex
  rw [hl, hg, core_inputs]
  cases h : p.inputs[n]? <;> split <;> first | rfl | (split <;> rfl)

theorem outputType_core (p : Psbt L) (n : Nat) : (core p).outputType n = p.outputType n := by
  unfold Psbt.outputType
  rw [checkedInput_core]
  rcases p.checkedInput n with (e | s) | i <;> rfl

theorem signingAlgorithm_core (p : Psbt L) (n : Nat) : (core p).signingAlgorithm n = p.signingAlgorithm n := by
  unfold Psbt.signingAlgorithm; rw [outputType_core]

theorem sighashEcdsa_core (p : Psbt L) (n : Nat) (tx : Tx) : (core p).sighashEcdsa n tx = p.sighashEcdsa n tx := by
  unfold Psbt.sighashEcdsa
  rw [signingAlgorithm_core, checkedInput_core, outputType_core]
  rcases p.checkedInput n with (e | s) | i <;> rfl

variable (S : SigLib L)

/-- `core` of the PSBT in a result. -/
def coreFst {β : Type} (x : Psbt L × β) : Psbt L × β := (core x.1, x.2)

theorem signWith_core (p : Psbt L) (k : Provider S) (n : Nat) (res : Except SignErr (Hash32 × EcdsaTy)) :
    (core p).signWith S k n res = (p.signWith S k n res).map coreFst := by
  unfold Psbt.signWith
  rw [core_inputs]
  cases h : p.inputs[n]? with
  | none => rfl
  | some i =>
    have e : signLoop S k res (coreInput i).bip32Derivations.l (coreInput i).partialSigs [] =
        signLoop S k res i.bip32Derivations.l i.partialSigs [] := rfl
    simp only [Option.map_some]
    rw [e]
    cases hl : signLoop S k res i.bip32Derivations.l i.partialSigs [] with
    | error e => rfl
    | ok x =>
      rcases x with ⟨sigs, used⟩
      cases res with
      | error e => rfl
      | ok m =>
        rcases m with ⟨m, ty⟩
        have e2 : (p.inputs.set n { i with partialSigs := sigs }).map coreInput =
          (p.inputs.map coreInput).set n (coreInput { i with partialSigs := sigs }) := List.map_set
        simp only [Except.map, coreFst, Except.ok.injEq, Prod.mk.injEq, and_true]
        simp only [core, Psbt.clearTxModifiable, e2]
        congr 1
        repeat' split
        all_goals rfl

theorem bip32SignEcdsa_core (p : Psbt L) (k : Provider S) (n : Nat) (tx : Tx) :
    (core p).bip32SignEcdsa S k n tx = (p.bip32SignEcdsa S k n tx).map coreFst := by
  unfold Psbt.bip32SignEcdsa
  rw [sighashEcdsa_core]
  rcases p.sighashEcdsa n tx with (e | s) | m
  · exact signWith_core S p k n _
  · rfl
  · exact signWith_core S p k n _

def coreSigning (s : Signing L) : Signing L := { s with psbt := core s.psbt }

theorem signStep_core (k : Provider S) (tx : Tx) (s : Signing L) (n : Nat) :
    signStep S k tx (coreSigning s) n = (signStep S k tx s n).map coreSigning := by
  unfold signStep
  simp only [coreSigning, signingAlgorithm_core, bip32SignEcdsa_core]
  rcases s.psbt.signingAlgorithm n with (e | m) | (_ | _)
  · rfl
  · rfl
  · rcases s.psbt.bip32SignEcdsa S k n tx with (e | m) | ⟨p, (e | v)⟩ <;> rfl
  · rfl

theorem signAll_core (k : Provider S) (tx : Tx) (ns : List Nat) : ∀ s : Signing L,
    signAll S k tx (coreSigning s) ns = (signAll S k tx s ns).map coreSigning := by
  induction ns with
  | nil => exact fun _ => rfl
  | cons n ns ih =>
    intro s
    unfold signAll
    rw [signStep_core]
    cases signStep S k tx s n with
    | error e => rfl
    | ok s => exact ih s

theorem sign_core (p : Psbt L) (tx : Tx) (k : Provider S) : (core p).sign S tx k = (p.sign S tx k).map coreFst := by
  unfold Psbt.sign
  have e : (⟨core p, .empty, .empty⟩ : Signing L) = coreSigning ⟨p, .empty, .empty⟩ := rfl
  have hg : (core p).global.inputCount = p.global.inputCount := rfl
  rw [e, signAll_core, hg]
  cases signAll S k tx ⟨p, .empty, .empty⟩ (List.range p.global.inputCount.toNat) <;> rfl

theorem all_map {α β : Type} (f : α → β) (g : β → Bool) (l : List α) : (l.map f).all g = l.all (g ∘ f) := List.all_map
theorem any_map {α β : Type} (f : α → β) (g : β → Bool) (l : List α) : (l.map f).any g = l.any (g ∘ f) := List.any_map

theorem determineLockTime_core (p : Psbt L) : (core p).determineLockTime = p.determineLockTime := by
  unfold Psbt.determineLockTime
  simp only [core, all_map, any_map, List.map_map]
  rfl

theorem unsignedTx_core (p : Psbt L) : (core p).unsignedTx = p.unsignedTx := by
  unfold Psbt.unsignedTx
  rw [determineLockTime_core]
  simp only [core, List.map_map]
  rfl

theorem id_core (p : Psbt L) : (core p).id = p.id := by unfold Psbt.id; rw [unsignedTx_core]

theorem signer_core (p : Psbt L) (k : Provider S) : Signer.sign S (core p) k = (Signer.sign S p k).map coreFst := by
  unfold Signer.sign
  have e : Signer.unsignedTx (core p) = Signer.unsignedTx p := by unfold Signer.unsignedTx; rw [unsignedTx_core]
  rw [e]
  rcases Signer.unsignedTx p with (e | s) | tx
  · cases e
  · rfl
  · simp only [sign_core]
    rcases p.sign S tx k with (e | s) | ⟨q, (e | u)⟩
    · cases e
    · rfl
    · rfl
    · rfl

theorem fundingUtxos_core (p : Psbt L) : (core p).fundingUtxos = p.fundingUtxos := by
  unfold Psbt.fundingUtxos
  simp only [core, List.map_map]
  rfl

theorem fee_core (p : Psbt L) : (core p).fee = p.fee := by
  unfold Psbt.fee
  rw [fundingUtxos_core]
  simp only [core, List.map_map]
  rfl

theorem isFinalized_core (p : Psbt L) : (core p).isFinalized = p.isFinalized := by
  unfold Psbt.isFinalized
  simp only [core, all_map]
  rfl

theorem extractUnchecked_core (p : Psbt L) : Extractor.extractUnchecked (core p) = Extractor.extractUnchecked p := by
  unfold Extractor.extractUnchecked
  rw [isFinalized_core, determineLockTime_core]
  simp only [core, List.map_map]
  rfl

theorem extractWithLimit_core (p : Psbt L) (m : UInt64) : Extractor.extractWithLimit (core p) m = Extractor.extractWithLimit p m := by
  unfold Extractor.extractWithLimit
  rw [fee_core, extractUnchecked_core]

theorem extractor_core (p : Psbt L) : Extractor.new (core p) = (Extractor.new p).map core := by
  unfold Extractor.new
  rw [determineLockTime_core]
  have e : ((core p).inputs.any fun i => !i.isFinalized) = p.inputs.any fun i => !i.isFinalized := by
    simp only [core, any_map]; rfl
  rw [e]
  split
  · rfl
  · rcases p.determineLockTime with (e | s) | n <;> rfl

theorem checkFunded_core (l : List (Input L)) : checkFunded (l.map coreInput) = checkFunded l := by
  induction l with
  | nil => rfl
  | cons i l ih =>
    simp only [List.map_cons, checkFunded, ih]
    rfl

theorem checkPartialSigs_core (l : List (Input L)) : ∀ n, checkPartialSigsFrom n (l.map coreInput) = checkPartialSigsFrom n l := by
  induction l with
  | nil => exact fun _ => rfl
  | cons i l ih =>
    intro n
    simp only [List.map_cons, checkPartialSigsFrom, ih]
    rfl

theorem finalizerNew_core (p : Psbt L) : Finalizer.new (core p) = (Finalizer.new p).map core := by
  unfold Finalizer.new Psbt.checkPartialSigsSighashType
  have e : (core p).inputs = p.inputs.map coreInput := rfl
  rw [e, checkFunded_core, determineLockTime_core, checkPartialSigs_core]
  cases checkFunded p.inputs with
  | error e => rfl
  | ok _ =>
    rcases p.determineLockTime with (e | s) | n
    · rfl
    · rfl
    · simp only
      cases checkPartialSigsFrom 0 p.inputs <;> rfl

variable (M : MsLib L)

theorem finalScripts_core (p : Psbt L) (i : Input L) :
    Finalizer.finalScripts M (core p) (coreInput i) = Finalizer.finalScripts M p i := by
  unfold Finalizer.finalScripts Finalizer.getDescriptor
  have e : ((core p).inputs.flatMap fun j => j.bip32Derivations.l.map Prod.fst) =
      p.inputs.flatMap fun j => j.bip32Derivations.l.map Prod.fst := by
    simp only [core, List.flatMap_map]; rfl
  rw [e]
  rfl

theorem finalizeInput_core (p : Psbt L) (i : Input L) :
    Finalizer.finalizeInput M (core p) (coreInput i) = Finalizer.finalizeInput M p i := by
  unfold Finalizer.finalizeInput
  rw [finalScripts_core]
  rfl

theorem finalizeInputs_core (p : Psbt L) (l : List (Input L)) : ∀ n,
    Finalizer.finalizeInputs M (core p) n (l.map coreInput) = Finalizer.finalizeInputs M p n l := by
  induction l with
  | nil => exact fun _ => rfl
  | cons i l ih =>
    intro n
    simp only [List.map_cons, Finalizer.finalizeInputs, ih, finalizeInput_core]

theorem interpFrom_core (tx : Tx) (us : List TxOut) (l : List (Input L)) : ∀ n,
    interpCheckFrom M tx us n (l.map coreInput) = interpCheckFrom M tx us n l := by
  induction l with
  | nil => exact fun _ => rfl
  | cons i l ih =>
    intro n
    simp only [List.map_cons, interpCheckFrom, ih]
    rfl

theorem interpreterCheck_core (debug : Bool) (p : Psbt L) : (core p).interpreterCheck M debug = p.interpreterCheck M debug := by
  unfold Psbt.interpreterCheck
  have e : (core p).inputs = p.inputs.map coreInput := rfl
  have e2 : (p.inputs.map coreInput).map Input.fundingExpect = p.inputs.map Input.fundingExpect := by
    simp only [List.map_map]; rfl
  rw [isFinalized_core, unsignedTx_core, e, e2]
  simp only [interpFrom_core]

theorem finalize_core (debug : Bool) (p : Psbt L) : (Finalizer.finalize M debug (core p)).map core =
    (Finalizer.finalize M debug p).map core := by
  unfold Finalizer.finalize
  have e : (core p).inputs = p.inputs.map coreInput := rfl
  rw [e, finalizeInputs_core]
  cases Finalizer.finalizeInputs M p 0 p.inputs with
  | error e => rfl
  | ok ins =>
    have e2 (q : Psbt L) : (core (⟨p.global, ins, p.outputs⟩ : Psbt L)) = core ⟨(core p).global, ins, (core p).outputs⟩ := by
      simp only [core, List.map_map]
      rfl
    simp only [bind, Except.bind]
    rw [← interpreterCheck_core, ← e2 p, interpreterCheck_core]
    rcases (⟨p.global, ins, p.outputs⟩ : Psbt L).interpreterCheck M debug with (e | s) | _
    · rfl
    · rfl
    · exact congrArg Except.ok (e2 p).symm

end V2

namespace V0
open _root_.Psbt.Spec.V0 (core coreInput)
variable {L : Lib}

theorem core_inputs (p : Psbt L) (n : Nat) : (core p).inputs[n]? = p.inputs[n]?.map coreInput := by simp [core]
theorem core_length (p : Psbt L) : (core p).inputs.length = p.inputs.length := by simp [core]
theorem core_tx (p : Psbt L) : (core p).unsignedTx = p.unsignedTx := rfl

theorem checkedInput_core (p : Psbt L) (n : Nat) : (core p).checkedInput n = (p.checkedInput n).map coreInput := by
  unfold Psbt.checkedInput
  rw [core_length, core_tx, core_inputs]
  cases h : p.inputs[n]? <;> split <;> first | rfl | (split <;> rfl)

theorem spendUtxo_core (p : Psbt L) (n : Nat) : (core p).spendUtxo n = p.spendUtxo n := by
  unfold Psbt.spendUtxo
  rw [checkedInput_core, core_tx]
  rcases p.checkedInput n with (e | s) | i <;> rfl

theorem outputType_core (p : Psbt L) (n : Nat) : (core p).outputType n = p.outputType n := by
  unfold Psbt.outputType
  rw [checkedInput_core, spendUtxo_core]
  rcases p.checkedInput n with (e | s) | i <;> rfl

theorem signingAlgorithm_core (p : Psbt L) (n : Nat) : (core p).signingAlgorithm n = p.signingAlgorithm n := by
  unfold Psbt.signingAlgorithm; rw [outputType_core]

theorem sighashEcdsa_core (p : Psbt L) (n : Nat) (tx : Tx) : (core p).sighashEcdsa n tx = p.sighashEcdsa n tx := by
  unfold Psbt.sighashEcdsa
  rw [signingAlgorithm_core, checkedInput_core, outputType_core, spendUtxo_core]
  rcases p.checkedInput n with (e | s) | i <;> rfl

theorem spendUtxos_core (p : Psbt L) (ns : List Nat) : (core p).spendUtxos ns = p.spendUtxos ns := by
  induction ns with
  | nil => rfl
  | cons n ns ih => simp only [Psbt.spendUtxos, spendUtxo_core, ih]

theorem sighashTaproot_core (p : Psbt L) (n : Nat) (tx : Tx) : (core p).sighashTaproot n tx = p.sighashTaproot n tx := by
  funext leaf
  unfold Psbt.sighashTaproot
  rw [signingAlgorithm_core, checkedInput_core, outputType_core, spendUtxos_core, core_length]
  rcases p.checkedInput n with (e | s) | i <;> rfl

variable (S : SigLib L)

/-- `core` of the PSBT in a result. -/
def coreFst {β : Type} (x : Psbt L × β) : Psbt L × β := (core x.1, x.2)

theorem core_set (p : Psbt L) (n : Nat) (i : Input L) :
    core { p with inputs := p.inputs.set n i } = { core p with inputs := (core p).inputs.set n (coreInput i) } := by
  simp only [core, List.map_set]

theorem signWith_core (p : Psbt L) (k : Provider S) (n : Nat) (res : Except SignErr (Hash32 × EcdsaTy)) :
    (core p).signWith S k n res = (p.signWith S k n res).map coreFst := by
  unfold Psbt.signWith
  rw [core_inputs]
  cases h : p.inputs[n]? with
  | none => rfl
  | some i =>
    have e : V2.signLoop S k res (coreInput i).bip32Derivation.l (coreInput i).partialSigs [] =
        V2.signLoop S k res i.bip32Derivation.l i.partialSigs [] := rfl
    simp only [Option.map_some]
    rw [e]
    cases hl : V2.signLoop S k res i.bip32Derivation.l i.partialSigs [] with
    | error e => rfl
    | ok x =>
      rcases x with ⟨sigs, used⟩
      simp only [Except.map, coreFst, core_set]
      rfl

theorem bip32SignEcdsa_core (p : Psbt L) (k : Provider S) (n : Nat) (tx : Tx) :
    (core p).bip32SignEcdsa S k n tx = (p.bip32SignEcdsa S k n tx).map coreFst := by
  unfold Psbt.bip32SignEcdsa
  rw [sighashEcdsa_core]
  rcases p.sighashEcdsa n tx with (e | s) | m
  · exact signWith_core S p k n _
  · rfl
  · exact signWith_core S p k n _

theorem schnorrLoop_core (k : Provider S) (msg : Option Hash32 → Out SignErr (Hash32 × TapTy)) (i : Input L)
    (ds : List (L.xonly.T × List Hash32 × KeySource)) : ∀ sig sigs used,
    schnorrLoop S k msg (coreInput i) ds sig sigs used = schnorrLoop S k msg i ds sig sigs used := by
  induction ds with
  | nil => exact fun _ _ _ => rfl
  | cons d ds ih =>
    rcases d with ⟨x, lhs, ks⟩
    intro sig sigs used
    simp only [schnorrLoop, ih]
    rfl

theorem bip32SignSchnorr_core (p : Psbt L) (k : Provider S) (n : Nat) (tx : Tx) :
    (core p).bip32SignSchnorr S k n tx = (p.bip32SignSchnorr S k n tx).map coreFst := by
  unfold Psbt.bip32SignSchnorr
  rw [checkedInput_core, sighashTaproot_core]
  rcases p.checkedInput n with (e | s) | i
  · rfl
  · rfl
  · have e : (coreInput i).tapKeyOrigins = i.tapKeyOrigins ∧ (coreInput i).tapKeySig = i.tapKeySig ∧
        (coreInput i).tapScriptSigs = i.tapScriptSigs := ⟨rfl, rfl, rfl⟩
    simp only [Except.map, schnorrLoop_core, e]
    rcases schnorrLoop S k (p.sighashTaproot n tx) i i.tapKeyOrigins.l i.tapKeySig i.tapScriptSigs [] with (e | s) | ⟨a, b, u⟩
    · rfl
    · rfl
    · simp only [coreFst, core_set]
      rfl

def coreSigning (s : Signing L) : Signing L := { s with psbt := core s.psbt }

theorem signStep_core (k : Provider S) (tx : Tx) (s : Signing L) (n : Nat) :
    signStep S k tx (coreSigning s) n = (signStep S k tx s n).map coreSigning := by
  unfold signStep
  simp only [coreSigning, signingAlgorithm_core, bip32SignEcdsa_core, bip32SignSchnorr_core]
  rcases s.psbt.signingAlgorithm n with (e | m) | (_ | _)
  · rfl
  · rfl
  · rcases s.psbt.bip32SignEcdsa S k n tx with (e | m) | ⟨p, (e | v)⟩ <;> rfl
  · rcases s.psbt.bip32SignSchnorr S k n tx with (e | m) | ⟨p, (e | v)⟩ <;> rfl

theorem signAll_core (k : Provider S) (tx : Tx) (ns : List Nat) : ∀ s : Signing L,
    signAll S k tx (coreSigning s) ns = (signAll S k tx s ns).map coreSigning := by
  induction ns with
  | nil => exact fun _ => rfl
  | cons n ns ih =>
    intro s
    unfold signAll
    rw [signStep_core]
    cases signStep S k tx s n with
    | error e => rfl
    | ok s => exact ih s

theorem sign_core (p : Psbt L) (k : Provider S) : (core p).sign S k = (p.sign S k).map coreFst := by
  unfold Psbt.sign
  have e : (⟨core p, .empty, .empty⟩ : Signing L) = coreSigning ⟨p, .empty, .empty⟩ := rfl
  rw [e, signAll_core, core_tx, core_length]
  cases signAll S k p.unsignedTx ⟨p, .empty, .empty⟩ (List.range p.inputs.length) <;> rfl

theorem fundingZip_core (ts : List TxIn) : ∀ l : List (Input L), fundingZip ts (l.map coreInput) = fundingZip ts l := by
  induction ts with
  | nil => intro l; cases l <;> rfl
  | cons t ts ih =>
    intro l
    cases l with
    | nil => rfl
    | cons i l => simp only [List.map_cons, fundingZip, ih]; rfl

theorem fee_core (p : Psbt L) : (core p).fee = p.fee := by
  unfold Psbt.fee Psbt.fundingUtxos
  rw [core_length, core_tx]
  simp only [core, fundingZip_core]

theorem fillInputs_core (ts : List TxIn) : ∀ l : List (Input L), fillInputs ts (l.map coreInput) = fillInputs ts l := by
  induction ts with
  | nil => intro l; cases l <;> rfl
  | cons t ts ih =>
    intro l
    cases l with
    | nil => rfl
    | cons i l => simp only [List.map_cons, fillInputs, ih]; rfl

theorem extractUnchecked_core (p : Psbt L) : (core p).extractUnchecked = p.extractUnchecked := by
  unfold Psbt.extractUnchecked
  simp only [core, fillInputs_core]

theorem getUtxo_core (p : Psbt L) (n : Nat) : (core p).getUtxo n = p.getUtxo n := by
  unfold Psbt.getUtxo
  rw [core_inputs, core_tx]
  cases p.inputs[n]? <;> rfl

theorem getScriptPubkey_core (p : Psbt L) (n : Nat) : (core p).getScriptPubkey n = p.getScriptPubkey n := by
  unfold Psbt.getScriptPubkey; rw [getUtxo_core]

theorem prevoutsFrom_core (p : Psbt L) (ns : List Nat) : (core p).prevoutsFrom ns = p.prevoutsFrom ns := by
  induction ns with
  | nil => rfl
  | cons n ns ih => simp only [Psbt.prevoutsFrom, getUtxo_core, ih]

theorem prevouts_core (p : Psbt L) : (core p).prevouts = p.prevouts := by
  unfold Psbt.prevouts; rw [core_length, prevoutsFrom_core]

theorem sanityFrom_core (l : List (Input L)) : ∀ n, sanityFrom n (l.map coreInput) = sanityFrom n l := by
  induction l with
  | nil => exact fun _ => rfl
  | cons i l ih =>
    intro n
    simp only [List.map_cons, sanityFrom, ih]
    rfl

theorem sanityCheck_core (p : Psbt L) : (core p).sanityCheck = p.sanityCheck := by
  unfold Psbt.sanityCheck
  rw [core_length, core_tx]
  simp only [core, sanityFrom_core]

variable (M : MsLib L)

theorem getDescriptor_core (p : Psbt L) (n : Nat) (i : Input L) :
    (core p).getDescriptor M n (coreInput i) = p.getDescriptor M n i := by
  unfold Psbt.getDescriptor
  have e : ((core p).inputs.flatMap fun j => j.bip32Derivation.l.map Prod.fst) =
      p.inputs.flatMap fun j => j.bip32Derivation.l.map Prod.fst := by
    simp only [core, List.flatMap_map]; rfl
  rw [e, getScriptPubkey_core]
  rfl

theorem interpInpCheck_core (p : Psbt L) (n : Nat) (us : List TxOut) (w : List Bytes) (s : Bytes) :
    (core p).interpInpCheck M n us w s = p.interpInpCheck M n us w s := by
  unfold Psbt.interpInpCheck
  rw [getScriptPubkey_core, core_tx]

theorem satisfyInput_core (p : Psbt L) (n : Nat) (mall : Bool) : (core p).satisfyInput M n mall = p.satisfyInput M n mall := by
  unfold Psbt.satisfyInput
  have e : ((core p).inputs.flatMap fun j => j.tapKeyOrigins.l.map Prod.fst) =
      p.inputs.flatMap fun j => j.tapKeyOrigins.l.map Prod.fst := by
    simp only [core, List.flatMap_map]; rfl
  rw [getScriptPubkey_core, core_inputs, e]
  cases p.inputs[n]? with
  | none => rfl
  | some i =>
    have e2 : (core p).satisfier M n (coreInput i) = p.satisfier M n i := rfl
    simp only [Option.map_some, e2, getDescriptor_core]

theorem finalizeInputHelper_core (p : Psbt L) (n : Nat) (mall : Bool) :
    (core p).finalizeInputHelper M n mall = p.finalizeInputHelper M n mall := by
  unfold Psbt.finalizeInputHelper
  rw [satisfyInput_core, prevouts_core]
  simp only [interpInpCheck_core]

theorem finalizeInput_core (p : Psbt L) (n : Nat) (mall : Bool) :
    (core p).finalizeInput M n mall = (p.finalizeInput M n mall).map core := by
  unfold Psbt.finalizeInput
  rw [finalizeInputHelper_core, core_inputs]
  rcases p.finalizeInputHelper M n mall with (e | s) | ⟨w, s⟩
  · rfl
  · rfl
  · cases p.inputs[n]? with
    | none => rfl
    | some i =>
      simp only [Option.map_some, bind, Except.bind, Except.map, core_set]
      rfl

theorem finalizeEach_core (mall : Bool) (ns : List Nat) : ∀ p : Psbt L,
    (core p).finalizeEach M mall ns = (p.finalizeEach M mall ns).map coreFst := by
  induction ns with
  | nil => exact fun _ => rfl
  | cons n ns ih =>
    intro p
    simp only [Psbt.finalizeEach, finalizeInput_core]
    rcases p.finalizeInput M n mall with (e | s) | q
    · simp only [Except.map, ih]
      rcases p.finalizeEach M mall ns with (e | s) | x <;> rfl
    · rfl
    · exact ih q

theorem finalizeWhile_core (mall : Bool) (ns : List Nat) : ∀ p : Psbt L,
    (core p).finalizeWhile M mall ns = (p.finalizeWhile M mall ns).map coreFst := by
  induction ns with
  | nil => exact fun _ => rfl
  | cons n ns ih =>
    intro p
    simp only [Psbt.finalizeWhile, finalizeInput_core]
    rcases p.finalizeInput M n mall with (e | s) | q
    · rfl
    · rfl
    · exact ih q

theorem finalizeMut_core (mall : Bool) (p : Psbt L) : (core p).finalizeMut M mall = (p.finalizeMut M mall).map coreFst := by
  unfold Psbt.finalizeMut; rw [core_length, finalizeEach_core]

theorem finalizeHelper_core (mall : Bool) (p : Psbt L) :
    (core p).finalizeHelper M mall = (p.finalizeHelper M mall).map coreFst := by
  unfold Psbt.finalizeHelper
  rw [sanityCheck_core, core_length, finalizeWhile_core]
  cases p.sanityCheck <;> rfl

theorem finalizeInp_core (p : Psbt L) (n : Nat) : (core p).finalizeInp M n = (p.finalizeInp M n).map core := by
  unfold Psbt.finalizeInp
  rw [core_length, finalizeInput_core]
  split <;> rfl

theorem finalizeInpMall_core (p : Psbt L) (n : Nat) : (core p).finalizeInpMall M n = (p.finalizeInpMall M n).map core :=
  finalizeInp_core M p n

theorem extractFrom_core (l : List (Input L)) : ∀ n (ts : List TxIn), extractFrom n ts (l.map coreInput) = extractFrom n ts l := by
  induction l with
  | nil => exact fun _ _ => rfl
  | cons i l ih =>
    intro n ts
    cases ts with
    | nil => rfl
    | cons t ts => simp only [List.map_cons, extractFrom, ih]; rfl

theorem interpFrom_core (p : Psbt L) (us : List TxOut) (l : List (Input L)) : ∀ n,
    (core p).interpFrom M us n (l.map coreInput) = p.interpFrom M us n l := by
  induction l with
  | nil => exact fun _ => rfl
  | cons i l ih =>
    intro n
    simp only [List.map_cons, Psbt.interpFrom, ih, interpInpCheck_core]
    rfl

theorem interpreterCheck_core (p : Psbt L) : (core p).interpreterCheck M = p.interpreterCheck M := by
  unfold Psbt.interpreterCheck
  have e : (core p).inputs = p.inputs.map coreInput := rfl
  rw [prevouts_core, e]
  simp only [interpFrom_core]

theorem extract_core (p : Psbt L) : (core p).extract M = p.extract M := by
  unfold Psbt.extract
  have e : (core p).inputs = p.inputs.map coreInput := rfl
  rw [sanityCheck_core, core_tx, e, extractFrom_core, interpreterCheck_core]

theorem sighashMsg_core (p : Psbt L) (n : Nat) (tx : Tx) (leaf : Option Hash32) :
    (core p).sighashMsg n tx leaf = p.sighashMsg n tx leaf := by
  unfold Psbt.sighashMsg
  rw [core_length, core_inputs, prevouts_core, getUtxo_core]
  cases p.inputs[n]? <;> rfl

theorem checkInput_core (p : Psbt L) (n : Nat) (i : Input L) : (core p).checkInput n (coreInput i) = p.checkInput n i := by
  unfold Psbt.checkInput Psbt.checkSpend Psbt.checkTxid
  rw [outputType_core, core_tx]
  rfl

theorem checkFrom_core (p : Psbt L) (l : List (Input L)) : ∀ n, (core p).checkFrom n (l.map coreInput) = p.checkFrom n l := by
  induction l with
  | nil => exact fun _ => rfl
  | cons i l ih =>
    intro n
    simp only [List.map_cons, Psbt.checkFrom, ih, checkInput_core]

theorem signerChecks_core (p : Psbt L) : (core p).signerChecks = p.signerChecks := by
  unfold Psbt.signerChecks
  exact checkFrom_core p p.inputs 0

end V0
end Psbt
