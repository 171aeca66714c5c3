/- The signing loop, input by input. -/
import Verif.Spec.Sign
import Verif.Props.V2Sighash
namespace Psbt.V2
open Psbt

variable {L : Lib} {S : SigLib L}

/-- An input without its partial signatures. -/
def eraseI (i : Input L) : Input L := { i with partialSigs := .empty }

theorem checkedInput_erase (p : Psbt L) (n : Nat) :
    (Spec.erase p).checkedInput n = (match p.checkedInput n with | .ok i => .ok (eraseI i) | .error e => .error e) := by
  unfold Psbt.checkedInput Psbt.checkInputIndex Spec.erase
  simp only [List.length_map, List.getElem?_map]
  split
  · rfl
  · split
    · rfl
    · cases p.inputs[n]? <;> rfl

theorem outputType_erase (p : Psbt L) (n : Nat) : (Spec.erase p).outputType n = p.outputType n := by
  unfold Psbt.outputType
  rw [checkedInput_erase]
  cases p.checkedInput n with
  | ok i => rfl
  | error e => rfl

theorem signingAlgorithm_erase (p : Psbt L) (n : Nat) : (Spec.erase p).signingAlgorithm n = p.signingAlgorithm n := by
  unfold Psbt.signingAlgorithm
  rw [outputType_erase]

theorem sighashEcdsa_erase (p : Psbt L) (n : Nat) (tx : Tx) : (Spec.erase p).sighashEcdsa n tx = p.sighashEcdsa n tx := by
  unfold Psbt.sighashEcdsa
  rw [signingAlgorithm_erase, checkedInput_erase, outputType_erase]
  cases p.checkedInput n with
  | ok i => rfl
  | error e => rfl

theorem findKey_eq (k : Provider S) (pk : L.secpPk.T) (ks : KeySource) :
    findKey S k pk ks = (Spec.answer (k (.bip32 ks))).or (Spec.answer (k (.pubkey (S.ofSecp pk)))) := by
  unfold findKey Spec.answer
  generalize k (.bip32 ks) = a
  generalize k (.pubkey (S.ofSecp pk)) = b
  cases a with
  | error e => cases b with
    | error _ => rfl
    | ok b => cases b <;> rfl
  | ok a => cases a with
    | some _ => rfl
    | none => cases b with
      | error _ => rfl
      | ok b => cases b <;> rfl

theorem signLoop_eq {ε : Type} (k : Provider S) (res : Except ε (Hash32 × EcdsaTy)) (ds : List (L.secpPk.T × KeySource))
    (sigs : BMap L.pubkey.T (EcdsaSig L)) (used : List L.pubkey.T) :
    signLoop S k res ds sigs used =
      match ds.filterMap (fun d => (Spec.answer (k (.bip32 d.2))).or (Spec.answer (k (.pubkey (S.ofSecp d.1))))), res with
      | [], _ => .ok (sigs, used)
      | _ :: _, .error e => .error e
      | keys, .ok (m, ty) => .ok (Spec.addSigs S m ty keys sigs, used ++ keys.map S.pub) := by
  induction ds generalizing sigs used with
  | nil => rfl
  | cons d ds ih =>
    obtain ⟨pk, ks⟩ := d
    rw [signLoop, findKey_eq]
    cases e : (Spec.answer (k (.bip32 ks))).or (Spec.answer (k (.pubkey (S.ofSecp pk)))) with
    | none =>
      simp only [List.filterMap_cons, e]
      exact ih _ _
    | some sk =>
      simp only [List.filterMap_cons, e]
      cases res with
      | error e => rfl
      | ok mt =>
        obtain ⟨m, ty⟩ := mt
        simp only
        rw [ih]
        generalize ds.filterMap _ = keys
        cases keys with
        | nil => rfl
        | cons a l => simp [Spec.addSigs]

theorem signLoop_none {k : Provider S} {i : Input L} {ε : Type} (h : Spec.keysFor S k i = []) (res : Except ε (Hash32 × EcdsaTy))
    (sigs : BMap L.pubkey.T (EcdsaSig L)) : signLoop S k res i.bip32Derivations.l sigs [] = .ok (sigs, []) := by
  rw [signLoop_eq]
  unfold Spec.keysFor at h
  rw [h]

theorem signLoop_err {k : Provider S} {i : Input L} {ε : Type} (h : Spec.keysFor S k i ≠ []) (e : ε)
    (sigs : BMap L.pubkey.T (EcdsaSig L)) : signLoop S k (.error e) i.bip32Derivations.l sigs [] = .error e := by
  rw [signLoop_eq]
  unfold Spec.keysFor at h
  generalize i.bip32Derivations.l.filterMap _ = keys at h
  cases keys with
  | nil => exact absurd rfl h
  | cons a l => rfl

theorem signLoop_ok {ε : Type} (k : Provider S) (i : Input L) (m : Hash32) (ty : EcdsaTy) (sigs : BMap L.pubkey.T (EcdsaSig L)) :
    signLoop (ε := ε) S k (.ok (m, ty)) i.bip32Derivations.l sigs [] =
      .ok (Spec.addSigs S m ty (Spec.keysFor S k i) sigs, (Spec.keysFor S k i).map S.pub) := by
  rw [signLoop_eq]
  unfold Spec.keysFor
  generalize i.bip32Derivations.l.filterMap _ = keys
  cases keys with
  | nil => rfl
  | cons a l => rfl

theorem set_eq_modify {α : Type} {l : List α} {n : Nat} {a : α} (h : l[n]? = some a) (f : α → α) :
    l.set n (f a) = l.modify n f := by
  apply List.ext_getElem?
  intro j
  rw [List.getElem?_modify, List.getElem?_set]
  have hl := (List.getElem?_eq_some_iff.mp h).1
  by_cases hj : n = j
  · subst hj; simp [h, hl, (List.getElem?_eq_some_iff.mp h).2]
  · simp [hj]

theorem modify_congr {α : Type} {l : List α} {n : Nat} {a : α} (h : l[n]? = some a) {f g : α → α} (e : f a = g a) :
    l.modify n f = l.modify n g := by
  rw [← set_eq_modify h, ← set_eq_modify h, e]

/-- What the loop of `sign` does with one input. -/
inductive Outcome (S : SigLib L) where
  | skip
  | panic (s : String)
  | fail (e : SignErr)
  | signed (m : Hash32) (ty : EcdsaTy) (keys : List S.SK)

/-- The outcome for input `n`, read off the PSBT signing started with. -/
def outcome (S : SigLib L) (k : Provider S) (tx : Tx) (p : Psbt L) (n : Nat) : Outcome S :=
  match p.signingAlgorithm n with
  | .error (.panic s) => .panic s
  | .ok .ecdsa =>
    match p.inputs[n]? with
    | none => .panic "index out of bounds"
    | some i =>
      match p.sighashEcdsa n tx with
      | .error (.panic s) => .panic s
      | .error (.err e) => if (Spec.keysFor S k i).isEmpty then .panic "at this stage we know its ok" else .fail e
      | .ok (m, ty) => .signed m ty (Spec.keysFor S k i)
  | _ => .skip

/-- The flags after a signature with type `ty`. -/
def clearFlags (f : UInt8) (ty : UInt8) : UInt8 :=
  let f := if !(ty == 0x81 || ty == 0x82 || ty == 0x83) then f &&& ~~~ INPUTS_MODIFIABLE else f
  let f := if !(ty == 0x02 || ty == 0x82) then f &&& ~~~ OUTPUTS_MODIFIABLE else f
  if ty == 0x03 || ty == 0x83 then f ||| SIGHASH_SINGLE else f

theorem clearTxModifiable_eq (p : Psbt L) (ty : UInt8) :
    p.clearTxModifiable ty = { p with global := { p.global with txModifiableFlags := clearFlags p.global.txModifiableFlags ty } } := by
  unfold Psbt.clearTxModifiable clearFlags
  cases (ty == 0x81 || ty == 0x82 || ty == 0x83) <;> cases (ty == 0x02 || ty == 0x82) <;> cases (ty == 0x03 || ty == 0x83) <;> rfl

/-- The PSBT after one input got its outcome. -/
def applyOutcome (p : Psbt L) (n : Nat) : Outcome S → Psbt L
  | .signed m ty keys =>
    { p with
      global := { p.global with txModifiableFlags := clearFlags p.global.txModifiableFlags ty.1 }
      inputs := p.inputs.modify n fun i => { i with partialSigs := Spec.addSigs S m ty keys i.partialSigs } }
  | _ => p

/-- The loop state after one input got its outcome. -/
def applyState (s : Signing L) (n : Nat) (o : Outcome S) : Signing L where
  psbt := applyOutcome s.psbt n o
  used := match o with | .signed _ _ keys => s.used.insert n (keys.map S.pub) | _ => s.used
  errors := match o with | .fail e => s.errors.insert n e | _ => s.errors

theorem signStep_eq (k : Provider S) (tx : Tx) (s : Signing L) (n : Nat) :
    signStep S k tx s n =
      match outcome S k tx s.psbt n with
      | .panic m => .error (.panic m)
      | o => .ok (applyState s n o) := by
  unfold signStep outcome
  cases ha : s.psbt.signingAlgorithm n with
  | error e => cases e <;> rfl
  | ok a =>
    cases a with
    | schnorr => rfl
    | ecdsa =>
      simp only
      unfold Psbt.bip32SignEcdsa Psbt.signWith
      cases hi : s.psbt.inputs[n]? with
      | none => cases s.psbt.sighashEcdsa n tx with
        | error e =>
          cases e with
          | err e => rfl
          | panic m =>
            exfalso
            unfold Psbt.signingAlgorithm at ha
            cases ho : s.psbt.outputType n with
            | error e => rw [ho] at ha; cases ha
            | ok t =>
              obtain ⟨i, u, h1, h2, h3⟩ := (C36_output_type_iff _ n t).mp ho
              rw [h1.1] at hi; cases hi
        | ok mt => rfl
      | some i =>
        cases hs : s.psbt.sighashEcdsa n tx with
        | error e =>
          cases e with
          | panic m => rfl
          | err e =>
            by_cases hk : Spec.keysFor S k i = []
            · simp only [signLoop_none hk, hk, List.isEmpty_nil, if_true]
            · simp only [signLoop_err hk, List.isEmpty_iff, hk, if_false]
              rfl
        | ok mt =>
          obtain ⟨m, ty⟩ := mt
          simp only [signLoop_ok, clearTxModifiable_eq, applyState, applyOutcome]
          rw [set_eq_modify hi fun j => { j with partialSigs := Spec.addSigs S m ty (Spec.keysFor S k i) j.partialSigs }]

theorem outcome_erase (k : Provider S) (tx : Tx) (p : Psbt L) (n : Nat) : outcome S k tx (Spec.erase p) n = outcome S k tx p n := by
  unfold outcome
  rw [signingAlgorithm_erase, sighashEcdsa_erase]
  have : (Spec.erase p).inputs[n]? = p.inputs[n]?.map eraseI := by simp [Spec.erase, List.getElem?_map]; rfl
  rw [this]
  cases p.inputs[n]? with
  | none => rfl
  | some i => rfl

theorem erase_apply (p : Psbt L) (n : Nat) (o : Outcome S) : Spec.erase (applyOutcome p n o) = Spec.erase p := by
  cases o with
  | signed m ty keys =>
    unfold applyOutcome Spec.erase
    simp only
    congr 1
    apply List.ext_getElem?
    intro j
    simp only [List.getElem?_map, List.getElem?_modify]
    cases p.inputs[j]? with
    | none => rfl
    | some i => by_cases h : n = j <;> simp [h]
  | _ => rfl

/-- The loop of `sign`, when it gets to its end, applies the outcomes determined by the PSBT it started with. -/
theorem signAll_ok (k : Provider S) (tx : Tx) (p : Psbt L) (ns : List Nat) (s : Signing L)
    (hs : Spec.erase s.psbt = Spec.erase p) :
    ((∀ n ∈ ns, ∀ m, outcome S k tx p n ≠ .panic m) ∧
      signAll S k tx s ns = .ok (ns.foldl (fun s n => applyState s n (outcome S k tx p n)) s)) ∨
    ∃ n ∈ ns, ∃ m, outcome S k tx p n = .panic m ∧ signAll S k tx s ns = .error (.panic m) := by
  induction ns generalizing s with
  | nil => exact .inl ⟨by simp, rfl⟩
  | cons n ns ih =>
    have ho : outcome S k tx s.psbt n = outcome S k tx p n := by rw [← outcome_erase, hs, outcome_erase]
    have step : (∀ m, outcome S k tx p n ≠ .panic m) →
        signStep S k tx s n = .ok (applyState s n (outcome S k tx p n)) := by
      intro h
      rw [signStep_eq, ho]
      cases e : outcome S k tx p n with
      | panic m => exact absurd e (h m)
      | _ => rfl
    by_cases hp : ∃ m, outcome S k tx p n = .panic m
    · obtain ⟨m, hm⟩ := hp
      refine .inr ⟨n, by simp, m, hm, ?_⟩
      rw [signAll, signStep_eq, ho, hm]
    · have hno : ∀ m, outcome S k tx p n ≠ .panic m := fun m h => hp ⟨m, h⟩
      rw [signAll, step hno]
      rcases ih (applyState s n (outcome S k tx p n)) ((erase_apply _ _ _).trans hs) with ⟨h1, h2⟩ | ⟨j, hj, m, h1, h2⟩
      · refine .inl ⟨?_, h2⟩
        intro j hj m hm
        rcases List.mem_cons.mp hj with rfl | hj
        · exact hno m hm
        · exact h1 j hj m hm
      · exact .inr ⟨j, by simp [hj], m, h1, h2⟩

section Fold
variable (f : Nat → Outcome S)

theorem fold_erase (ns : List Nat) (s : Signing L) :
    Spec.erase (ns.foldl (fun s n => applyState s n (f n)) s).psbt = Spec.erase s.psbt := by
  induction ns generalizing s with
  | nil => rfl
  | cons n ns ih => rw [List.foldl_cons, ih]; exact erase_apply _ _ _

/-- Keys reported for an outcome. -/
def Outcome.used : Outcome S → Option (List L.pubkey.T)
  | .signed _ _ keys => some (keys.map S.pub)
  | _ => none
/-- Error reported for an outcome. -/
def Outcome.err : Outcome S → Option SignErr
  | .fail e => some e
  | _ => none
/-- Signatures after an outcome. -/
def Outcome.sigs (sigs : BMap L.pubkey.T (EcdsaSig L)) : Outcome S → BMap L.pubkey.T (EcdsaSig L)
  | .signed m ty keys => Spec.addSigs S m ty keys sigs
  | _ => sigs
/-- Flags after an outcome. -/
def Outcome.flags (fl : UInt8) : Outcome S → UInt8
  | .signed _ ty _ => clearFlags fl ty.1
  | _ => fl

theorem apply_used (s : Signing L) (n j : Nat) (o : Outcome S) :
    (applyState s n o).used.get j = if j = n then o.used.or (s.used.get j) else s.used.get j := by
  cases o <;> simp only [applyState, Outcome.used, Option.none_or, ite_self, Option.some_or]
  rw [BMap.get_insert]

theorem apply_err (s : Signing L) (n j : Nat) (o : Outcome S) :
    (applyState s n o).errors.get j = if j = n then o.err.or (s.errors.get j) else s.errors.get j := by
  cases o <;> simp only [applyState, Outcome.err, Option.none_or, ite_self, Option.some_or]
  rw [BMap.get_insert]

theorem fold_used (ns : List Nat) (s : Signing L) (j : Nat) :
    (ns.foldl (fun s n => applyState s n (f n)) s).used.get j = if j ∈ ns then (f j).used.or (s.used.get j) else s.used.get j := by
  induction ns generalizing s with
  | nil => simp
  | cons n ns ih =>
    rw [List.foldl_cons, ih, apply_used]
    by_cases h1 : j = n
    · subst h1
      cases (f j).used <;> simp
    · simp [h1]

theorem fold_err (ns : List Nat) (s : Signing L) (j : Nat) :
    (ns.foldl (fun s n => applyState s n (f n)) s).errors.get j = if j ∈ ns then (f j).err.or (s.errors.get j) else s.errors.get j := by
  induction ns generalizing s with
  | nil => simp
  | cons n ns ih =>
    rw [List.foldl_cons, ih, apply_err]
    by_cases h1 : j = n
    · subst h1
      cases (f j).err <;> simp
    · simp [h1]

theorem apply_inputs (p : Psbt L) (n j : Nat) (o : Outcome S) :
    (applyOutcome p n o).inputs[j]? = p.inputs[j]?.map fun i => if n = j then { i with partialSigs := o.sigs i.partialSigs } else i := by
  cases o with
  | signed m ty keys => simp only [applyOutcome, List.getElem?_modify, Outcome.sigs]; rfl
  | _ =>
    simp only [applyOutcome, Outcome.sigs]
    cases p.inputs[j]? <;> simp

theorem fold_inputs (ns : List Nat) (hn : ns.Nodup) (s : Signing L) (j : Nat) :
    (ns.foldl (fun s n => applyState s n (f n)) s).psbt.inputs[j]? =
      s.psbt.inputs[j]?.map fun i => if j ∈ ns then { i with partialSigs := (f j).sigs i.partialSigs } else i := by
  induction ns generalizing s with
  | nil => simp only [List.foldl_nil, List.not_mem_nil, if_false, Option.map_id']
  | cons n ns ih =>
    obtain ⟨h1, h2⟩ := List.nodup_cons.mp hn
    rw [List.foldl_cons, ih h2]
    simp only [applyState, apply_inputs]
    cases s.psbt.inputs[j]? with
    | none => rfl
    | some i =>
      by_cases hj : n = j
      · subst hj; simp [h1]
      · have : ¬ j = n := fun h => hj h.symm
        simp [hj, this]

theorem fold_flags (ns : List Nat) (s : Signing L) :
    (ns.foldl (fun s n => applyState s n (f n)) s).psbt.global.txModifiableFlags =
      ns.foldl (fun fl n => (f n).flags fl) s.psbt.global.txModifiableFlags := by
  induction ns generalizing s with
  | nil => rfl
  | cons n ns ih =>
    rw [List.foldl_cons, List.foldl_cons, ih]
    congr 1
    cases f n <;> rfl

theorem fold_bits (ns : List Nat) (fl : UInt8) (b : Nat) :
    (ns.foldl (fun fl n => (f n).flags fl) fl).toNat.testBit b = true ↔
      (b = 0 ∧ fl.toNat.testBit b = true ∧ ∀ n ∈ ns, ∀ m ty keys, f n = .signed m ty keys → ty.1 = 0x81 ∨ ty.1 = 0x82 ∨ ty.1 = 0x83) ∨
      (b = 1 ∧ fl.toNat.testBit b = true ∧ ∀ n ∈ ns, ∀ m ty keys, f n = .signed m ty keys → ty.1 = 0x02 ∨ ty.1 = 0x82) ∨
      (b = 2 ∧ (fl.toNat.testBit b = true ∨ ∃ n ∈ ns, ∃ m ty keys, f n = .signed m ty keys ∧ (ty.1 = 0x03 ∨ ty.1 = 0x83))) ∨
      (2 < b ∧ fl.toNat.testBit b = true) := by
  induction ns generalizing fl with
  | nil =>
    simp only [List.foldl_nil, List.not_mem_nil, false_implies, implies_true, and_true, false_and, exists_false, or_false]
    constructor
    · intro h
      have : b = 0 ∨ b = 1 ∨ b = 2 ∨ 2 < b := by omega
      rcases this with h' | h' | h' | h'
      · exact .inl ⟨h', h⟩
      · exact .inr (.inl ⟨h', h⟩)
      · exact .inr (.inr (.inl ⟨h', h⟩))
      · exact .inr (.inr (.inr ⟨h', h⟩))
    · rintro (h | h | h | h) <;> exact h.2
  | cons n ns ih =>
    rw [List.foldl_cons, ih]
    have keep : (∀ m ty keys, f n ≠ .signed m ty keys) → (f n).flags fl = fl := by
      intro h
      cases e : f n with
      | signed m ty keys => exact absurd e (h m ty keys)
      | _ => rfl
    by_cases hsig : ∃ m ty keys, f n = .signed m ty keys
    · obtain ⟨m, ty, keys, e⟩ := hsig
      have hb : ((f n).flags fl).toNat.testBit b =
          (if b = 0 then (ty.1 == 0x81 || ty.1 == 0x82 || ty.1 == 0x83) && fl.toNat.testBit b
           else if b = 1 then (ty.1 == 0x02 || ty.1 == 0x82) && fl.toNat.testBit b
           else if b = 2 then (ty.1 == 0x03 || ty.1 == 0x83) || fl.toNat.testBit b
           else fl.toNat.testBit b) := by
        have := flag_clearTx (⟨{ Global.new L with txModifiableFlags := fl }, [], []⟩ : Psbt L) ty.1 b
        rw [clearTxModifiable_eq] at this
        rw [e]
        exact this
      have hu : ∀ m' ty' keys', f n = .signed m' ty' keys' → ty' = ty := by
        intro m' ty' keys' e'; rw [e] at e'; cases e'; rfl
      rw [hb]
      simp only [List.mem_cons]
      constructor
      · rintro (⟨rfl, h1, h2⟩ | ⟨rfl, h1, h2⟩ | ⟨rfl, h1⟩ | ⟨h0, h1⟩)
        · simp only [if_true, Bool.and_eq_true, Bool.or_eq_true, beq_iff_eq, or_assoc] at h1
          refine .inl ⟨rfl, h1.2, ?_⟩
          rintro j (rfl | hj) m' ty' keys' e'
          · rw [hu _ _ _ e']; exact h1.1
          · exact h2 j hj _ _ _ e'
        · simp only [Nat.one_ne_zero, if_false, if_true, Bool.and_eq_true, Bool.or_eq_true, beq_iff_eq] at h1
          refine .inr (.inl ⟨rfl, h1.2, ?_⟩)
          rintro j (rfl | hj) m' ty' keys' e'
          · rw [hu _ _ _ e']; exact h1.1
          · exact h2 j hj _ _ _ e'
        · simp only [show ¬ (2 : Nat) = 0 by decide, show ¬ (2 : Nat) = 1 by decide, if_false, if_true, Bool.or_eq_true, beq_iff_eq] at h1
          refine .inr (.inr (.inl ⟨rfl, ?_⟩))
          rcases h1 with (h1 | h1) | ⟨j, hj, h1⟩
          · exact .inr ⟨n, .inl rfl, m, ty, keys, e, h1⟩
          · exact .inl h1
          · exact .inr ⟨j, .inr hj, h1⟩
        · rw [if_neg (by omega), if_neg (by omega), if_neg (by omega)] at h1
          exact .inr (.inr (.inr ⟨h0, h1⟩))
      · rintro (⟨rfl, h1, h2⟩ | ⟨rfl, h1, h2⟩ | ⟨rfl, h1⟩ | ⟨h0, h1⟩)
        · refine .inl ⟨rfl, ?_, fun j hj => h2 j (.inr hj)⟩
          have := h2 n (.inl rfl) m ty keys e
          simp only [if_true, Bool.and_eq_true, Bool.or_eq_true, beq_iff_eq, or_assoc]
          exact ⟨this, h1⟩
        · refine .inr (.inl ⟨rfl, ?_, fun j hj => h2 j (.inr hj)⟩)
          have := h2 n (.inl rfl) m ty keys e
          simp only [Nat.one_ne_zero, if_false, if_true, Bool.and_eq_true, Bool.or_eq_true, beq_iff_eq]
          exact ⟨this, h1⟩
        · refine .inr (.inr (.inl ⟨rfl, ?_⟩))
          simp only [show ¬ (2 : Nat) = 0 by decide, show ¬ (2 : Nat) = 1 by decide, if_false, if_true, Bool.or_eq_true, beq_iff_eq]
          rcases h1 with h1 | ⟨j, rfl | hj, h1⟩
          · exact .inl (.inr h1)
          · obtain ⟨m', ty', keys', e', h1⟩ := h1
            rw [hu _ _ _ e'] at h1
            exact .inl (.inl h1)
          · exact .inr ⟨j, hj, h1⟩
        · refine .inr (.inr (.inr ⟨h0, ?_⟩))
          rw [if_neg (by omega), if_neg (by omega), if_neg (by omega)]
          exact h1
    · have hno : ∀ m ty keys, f n ≠ .signed m ty keys := fun m ty keys e => hsig ⟨m, ty, keys, e⟩
      rw [keep hno]
      simp only [List.mem_cons, forall_eq_or_imp, exists_eq_or_imp]
      have h1 : ∀ P : Hash32 → EcdsaTy → List S.SK → Prop, (∀ m ty keys, f n = .signed m ty keys → P m ty keys) ↔ True :=
        fun P => ⟨fun _ => trivial, fun _ m ty keys e => absurd e (hno m ty keys)⟩
      have h2 : ∀ P : EcdsaTy → Prop, (∃ m ty keys, f n = .signed m ty keys ∧ P ty) ↔ False :=
        fun P => ⟨fun ⟨m, ty, keys, e, _⟩ => hno m ty keys e, False.elim⟩
      simp only [h1 fun _ ty _ => ty.1 = 0x81 ∨ ty.1 = 0x82 ∨ ty.1 = 0x83, h1 fun _ ty _ => ty.1 = 0x02 ∨ ty.1 = 0x82,
        h2 fun ty => ty.1 = 0x03 ∨ ty.1 = 0x83, true_and, false_or]

end Fold

end Psbt.V2
