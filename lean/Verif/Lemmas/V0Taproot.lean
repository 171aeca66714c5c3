/- Taproot signature messages of a PSBT v0, and that no message depends on the signatures. -/
import Verif.Lemmas.V0Sighash
namespace Psbt.V0
open Psbt

variable {L : Lib}

theorem tapTy_cases (t : TapTy) :
    t.1 = 0x00 ∨ t.1 = 0x01 ∨ t.1 = 0x02 ∨ t.1 = 0x03 ∨ t.1 = 0x81 ∨ t.1 = 0x82 ∨ t.1 = 0x83 := by
  obtain ⟨t, h⟩ := t
  simp only [tapStandard, Bool.or_eq_true, beq_iff_eq, or_assoc] at h
  simpa using h

theorem tapHashTy_iff {n : UInt32} {t : TapTy} : Psbt.taprootHashTy n = some t ↔ n = t.1.toUInt32 := by
  unfold Psbt.taprootHashTy
  constructor
  · intro h
    split at h
    · cases h
    · rename_i hn
      split at h
      · cases h
        simp only
        apply UInt32.toNat_inj.mp
        have : ¬ 255 < n.toNat := fun h => hn (UInt32.lt_iff_toNat_lt.mpr h)
        simp only [UInt8.toNat_toUInt32, UInt32.toNat_toUInt8]
        omega
      · cases h
  · rintro rfl
    obtain ⟨t, ht⟩ := t
    have e : t.toUInt32.toUInt8 = t := by simp
    have hn : ¬ t.toUInt32 > 0xff := by
      intro h
      have := UInt32.lt_iff_toNat_lt.mp h
      have h2 := t.toNat_lt
      simp only [UInt8.toNat_toUInt32] at this
      have h3 : (0xff : UInt32).toNat = 255 := rfl
      omega
    simp only
    rw [if_neg hn, dif_pos (by rw [e]; exact ht)]
    simp only [e]

theorem inputTapHashTy_iff {i : Input L} {t : TapTy} : i.taprootHashTy = some t ↔ Spec.V0.DeclaredTapType i t := by
  unfold Input.taprootHashTy Spec.V0.DeclaredTapType
  cases i.sighashType with
  | none =>
    simp only [Option.some.injEq, true_and, reduceCtorEq, or_false]
    exact ⟨fun h => h ▸ rfl, fun h => Subtype.ext h.symm⟩
  | some n =>
    simp only [tapHashTy_iff, reduceCtorEq, false_and, false_or, Option.some.injEq]

theorem not_dangling {p : Psbt L} (hr : Spec.V0.IndicesInRange p) {n : Nat} {t : TxIn} {i : Input L} (h : Spec.V0.HasInput p n t i) :
    ¬ Dangling t i := by
  rintro ⟨tx, h1, h2, h3⟩
  have := hr n t i tx h.1 h.2 h1 h2
  rw [List.getElem?_eq_none_iff] at h3
  omega

theorem indicesInRange_iff {p : Psbt L} : Spec.V0.IndicesInRange p ↔ ∀ n t i, Spec.V0.HasInput p n t i → ¬ Dangling t i := by
  constructor
  · intro h n t i hi; exact not_dangling h hi
  · intro h n t i tx h1 h2 h3 h4
    rcases Nat.lt_or_ge t.previousOutput.vout.toNat tx.output.length with hl | hl
    · exact hl
    · exact absurd ⟨tx, h3, h4, List.getElem?_eq_none_iff.mpr hl⟩ (h n t i ⟨h1, h2⟩)

theorem spendUtxo_no_panic {p : Psbt L} (hr : Spec.V0.IndicesInRange p) (n : Nat) (s : String) : p.spendUtxo n ≠ .error (.panic s) := by
  intro h
  obtain ⟨-, t, i, h1, h2⟩ := spendUtxo_panic.mp h
  exact not_dangling hr h1 h2

/-- The output spent by input `n`, if known. -/
def utxo? (p : Psbt L) (n : Nat) : Option TxOut := match p.spendUtxo n with | .ok u => some u | .error _ => none

theorem spendUtxos_eq {p : Psbt L} (hr : Spec.V0.IndicesInRange p) (ns : List Nat) : p.spendUtxos ns = .ok (ns.map (utxo? p)) := by
  induction ns with
  | nil => rfl
  | cons n ns ih =>
    rw [Psbt.spendUtxos, List.map_cons]
    cases e : p.spendUtxo n with
    | ok u => simp only [ih, ok_bind, utxo?, e]
    | error f =>
      cases f with
      | panic s => exact absurd e (spendUtxo_no_panic hr n s)
      | err f => simp only [ih, ok_bind, utxo?, e]

theorem utxo?_some {p : Psbt L} {n : Nat} {u : TxOut} : utxo? p n = some u ↔ ∃ t i, Spec.V0.HasInput p n t i ∧ Spec.V0.FundedBy t i u := by
  unfold utxo?
  constructor
  · intro h
    split at h
    · rename_i v e
      cases h
      have e' := e
      unfold Psbt.spendUtxo at e
      rw [bind_ok] at e
      obtain ⟨i, h1, -⟩ := e
      obtain ⟨t, h1⟩ := checkedInput_ok.mp h1
      exact ⟨t, i, h1, (spendUtxo_ok h1).mp e'⟩
    · cases h
  · rintro ⟨t, i, h1, h2⟩
    rw [(spendUtxo_ok h1).mpr h2]

theorem funding_iff {ts : List TxIn} {is : List (Input L)} {us : List TxOut} :
    Spec.V0.Funding ts is us ↔ ts.length = us.length ∧ is.length = us.length ∧
      ∀ (n : Nat) u, us[n]? = some u → ∃ t i, ts[n]? = some t ∧ is[n]? = some i ∧ Spec.V0.FundedBy t i u := by
  constructor
  · intro h
    induction h with
    | nil => simp
    | cons h1 h2 ih =>
      refine ⟨by simp [ih.1], by simp [ih.2.1], ?_⟩
      rintro (_ | n) u hu
      · simp only [List.getElem?_cons_zero, Option.some.injEq] at hu ⊢
        subst hu; exact ⟨_, _, rfl, rfl, h1⟩
      · simp only [List.getElem?_cons_succ] at hu ⊢
        exact ih.2.2 n u hu
  · rintro ⟨h1, h2, h3⟩
    induction us generalizing ts is with
    | nil =>
      cases ts with
      | cons _ _ => simp at h1
      | nil => cases is with
        | cons _ _ => simp at h2
        | nil => exact .nil
    | cons u us ih =>
      cases ts with
      | nil => simp at h1
      | cons t ts => cases is with
        | nil => simp at h2
        | cons i is =>
          obtain ⟨t', i', e1, e2, hf⟩ := h3 0 u rfl
          simp only [List.getElem?_cons_zero, Option.some.injEq] at e1 e2
          subst e1; subst e2
          refine .cons hf (ih (by simpa using h1) (by simpa using h2) fun n u hu => ?_)
          have := h3 (n + 1) u (by simpa using hu)
          simpa using this

theorem filterMap_map_some {α : Type} (l : List α) : (l.map some).filterMap (fun u => u) = l := by
  induction l with
  | nil => rfl
  | cons a l ih => simp [ih]

theorem all_isSome_iff {α : Type} {l : List (Option α)} : l.all Option.isSome = true ↔ ∃ us : List α, l = us.map some := by
  induction l with
  | nil => simp
  | cons a l ih =>
    simp only [List.all_cons, Bool.and_eq_true, ih]
    constructor
    · rintro ⟨h, us, rfl⟩
      obtain ⟨b, rfl⟩ := Option.isSome_iff_exists.mp h
      exact ⟨b :: us, rfl⟩
    · rintro ⟨us, h⟩
      cases us with
      | nil => cases h
      | cons u us => cases h; exact ⟨rfl, us, rfl⟩

theorem utxos_iff {p : Psbt L} {us : List TxOut} (hl : us.length = p.unsignedTx.input.length) :
    (List.range p.inputs.length).map (utxo? p) = us.map some ↔ Spec.V0.Funding p.unsignedTx.input p.inputs us := by
  rw [funding_iff]
  constructor
  · intro h
    have hl2 : p.inputs.length = us.length := by simpa using congrArg List.length h
    refine ⟨hl.symm, hl2, fun n u hu => ?_⟩
    have hn := (List.getElem?_eq_some_iff.mp hu).1
    have := congrArg (·[n]?) h
    simp only [List.getElem?_map, hu, Option.map_some, List.getElem?_range (show n < p.inputs.length by omega)] at this
    obtain ⟨t, i, h1, h2⟩ := utxo?_some.mp (Option.some.inj this)
    exact ⟨t, i, h1.1, h1.2, h2⟩
  · rintro ⟨h1, h2, h3⟩
    apply List.ext_getElem?
    intro n
    simp only [List.getElem?_map]
    rcases Nat.lt_or_ge n us.length with hn | hn
    · obtain ⟨t, i, e1, e2, hf⟩ := h3 n us[n] (List.getElem?_eq_getElem hn)
      rw [List.getElem?_range (by omega), List.getElem?_eq_getElem hn]
      simp only [Option.map_some]
      rw [utxo?_some.mpr ⟨t, i, ⟨e1, e2⟩, hf⟩]
    · rw [List.getElem?_eq_none_iff.mpr (by simp; omega), List.getElem?_eq_none_iff.mpr hn]
      rfl

theorem tapSighash_all_length {tx : Tx} {n : Nat} {us : List TxOut} {leaf : Option Hash32} {ty : TapTy} {m : Hash32}
    (h : tapSighash L tx n (.all us) leaf ty = .ok m) : us.length = tx.input.length := by
  unfold tapSighash tapPreimage at h
  by_cases he : us.length = tx.input.length
  · exact he
  · simp only [ne_eq, he, not_false_eq_true, decide_true, if_true] at h
    cases h

/-- The message for a given type. -/
def tapMessage (p : Psbt L) (n : Nat) (tx : Tx) (leaf : Option Hash32) (ty : TapTy) : Out SignErr (Hash32 × TapTy) := do
  let q ← prevouts n ty ((List.range p.inputs.length).map (utxo? p))
  match tapSighash L tx n q leaf ty with
  | .ok h => .ok (h, ty)
  | .error e => .error (.err (.taproot e))

/-- The part of `sighash_taproot` after the lookups. -/
theorem sighashTaproot_eq {p : Psbt L} {n : Nat} {tx : Tx} {t : TxIn} {i : Input L} {u : TxOut} {leaf : Option Hash32}
    (hr : Spec.V0.IndicesInRange p) (hi : Spec.V0.HasInput p n t i) (hu : Spec.V0.FundedBy t i u) (ht : Spec.P2tr u.scriptPubkey) :
    p.sighashTaproot n tx leaf = match i.taprootHashTy with
      | none => .error (.err .invalidSighashType)
      | some ty => tapMessage p n tx leaf ty := by
  have ho := (outputType_iff p n .tr).mpr ⟨t, i, u, hi, hu, .tr ht⟩
  unfold Psbt.sighashTaproot Psbt.signingAlgorithm
  rw [ho, checkedInput_ok.mpr ⟨t, hi⟩]
  simp only [ok_bind, OutputType.signingAlgorithm, ne_eq, not_true_eq_false, if_false, spendUtxos_eq hr]
  cases i.taprootHashTy <;> rfl

theorem sighashTaproot_pre {p : Psbt L} {n : Nat} {tx : Tx} {leaf : Option Hash32} {r : Hash32 × TapTy}
    (h : p.sighashTaproot n tx leaf = .ok r) :
    ∃ t i u, Spec.V0.HasInput p n t i ∧ Spec.V0.FundedBy t i u ∧ Spec.P2tr u.scriptPubkey := by
  unfold Psbt.sighashTaproot at h
  rw [bind_ok] at h
  obtain ⟨a, -, h⟩ := h
  split at h
  · cases h
  · rw [bind_ok] at h
    obtain ⟨i, -, h⟩ := h
    rw [bind_ok] at h
    obtain ⟨ty, h2, h⟩ := h
    cases ty with
    | tr =>
      obtain ⟨t, i, u, h1, h2, h3⟩ := (outputType_iff p n .tr).mp h2
      cases h3 with
      | tr h3 => exact ⟨t, i, u, h1, h2, h3⟩
    | _ => cases h

theorem acp_iff (ty : TapTy) : ty.1.toUInt32 &&& 0x80 ≠ 0 ↔ ty.1 = 0x81 ∨ ty.1 = 0x82 ∨ ty.1 = 0x83 := by
  rcases tapTy_cases ty with h | h | h | h | h | h | h <;> rw [h] <;> decide

theorem sighashTaproot_iff {p : Psbt L} (hr : Spec.V0.IndicesInRange p) {n : Nat} {leaf : Option Hash32} {m : Hash32} {ty : TapTy} :
    p.sighashTaproot n p.unsignedTx leaf = .ok (m, ty) ↔ Spec.V0.TapSigns p n leaf m ty := by
  constructor
  · intro h
    obtain ⟨t, i, u, h1, h2, h3⟩ := sighashTaproot_pre h
    rw [sighashTaproot_eq hr h1 h2 h3] at h
    cases ht : i.taprootHashTy with
    | none => simp only [ht] at h; cases h
    | some ty' =>
      simp only [ht] at h
      unfold tapMessage at h
      rw [bind_ok] at h
      obtain ⟨q, hq, h⟩ := h
      cases hs : tapSighash L p.unsignedTx n q leaf ty' with
      | error e => rw [hs] at h; cases h
      | ok m' =>
        simp only [hs] at h
        cases h
        refine ⟨t, i, u, h1, h2, h3, inputTapHashTy_iff.mp ht, ?_⟩
        unfold prevouts at hq
        split at hq
        · rename_i ha
          refine .inl ⟨(acp_iff ty).mp ha, ?_⟩
          have hn := (List.getElem?_eq_some_iff.mp h1.2).1
          rw [List.getElem?_map, List.getElem?_range hn] at hq
          rw [Option.map_some, utxo?_some.mpr ⟨t, i, h1, h2⟩] at hq
          cases hq; exact hs
        · rename_i ha
          split at hq
          · rename_i hall
            obtain ⟨us, hus⟩ := all_isSome_iff.mp hall
            cases hq
            rw [hus, filterMap_map_some] at hs
            refine .inr ⟨?_, us, (utxos_iff (tapSighash_all_length hs)).mp hus, hs⟩
            rw [acp_iff] at ha
            rcases tapTy_cases ty with h | h | h | h | h | h | h <;> simp_all
          · cases hq
  · rintro ⟨t, i, u, h1, h2, h3, h4, h5⟩
    rw [sighashTaproot_eq hr h1 h2 h3, inputTapHashTy_iff.mpr h4]
    simp only
    unfold tapMessage prevouts
    rcases h5 with ⟨ha, h5⟩ | ⟨ha, us, hf, h5⟩
    · rw [if_pos ((acp_iff ty).mpr ha)]
      have hn := (List.getElem?_eq_some_iff.mp h1.2).1
      rw [List.getElem?_map, List.getElem?_range hn, Option.map_some, utxo?_some.mpr ⟨t, i, h1, h2⟩]
      simp only [ok_bind, h5]
    · rw [if_neg (by rw [acp_iff]; rcases ha with h | h | h | h <;> rw [h] <;> decide)]
      have hus := (utxos_iff (tapSighash_all_length h5)).mpr hf
      rw [hus, if_pos (all_isSome_iff.mpr ⟨us, rfl⟩), filterMap_map_some]
      simp only [ok_bind, h5]

theorem sighashTaproot_no_panic {p : Psbt L} (hr : Spec.V0.IndicesInRange p) {n : Nat} {tx : Tx} {leaf : Option Hash32} (s : String) :
    p.sighashTaproot n tx leaf ≠ .error (.panic s) := by
  intro h
  by_cases hp : ∃ t i u, Spec.V0.HasInput p n t i ∧ Spec.V0.FundedBy t i u ∧ Spec.P2tr u.scriptPubkey
  · obtain ⟨t, i, u, h1, h2, h3⟩ := hp
    rw [sighashTaproot_eq hr h1 h2 h3] at h
    cases ht : i.taprootHashTy with
    | none => simp only [ht] at h; cases h
    | some ty =>
      simp only [ht] at h
      unfold tapMessage at h
      cases hq : prevouts n ty ((List.range p.inputs.length).map (utxo? p)) with
      | ok q =>
        simp only [hq, ok_bind] at h
        cases hs : tapSighash L tx n q leaf ty <;> simp only [hs] at h <;> cases h
      | error e =>
        rw [hq] at h
        cases h
        unfold prevouts at hq
        have hn := (List.getElem?_eq_some_iff.mp h1.2).1
        split at hq
        · rw [List.getElem?_map, List.getElem?_range hn, Option.map_some, utxo?_some.mpr ⟨t, i, h1, h2⟩] at hq
          cases hq
        · split at hq <;> cases hq
  · unfold Psbt.sighashTaproot at h
    cases e : p.outputType n with
    | error f =>
      cases f with
      | panic s' =>
        obtain ⟨-, t, i, h1, h2⟩ := outputType_panic.mp e
        exact not_dangling hr h1 h2
      | err f => unfold Psbt.signingAlgorithm at h; rw [e] at h; cases h
    | ok ty =>
      obtain ⟨t, i, u, h1, h2, h3⟩ := (outputType_iff p n ty).mp e
      unfold Psbt.signingAlgorithm at h
      rw [e, checkedInput_ok.mpr ⟨t, h1⟩] at h
      cases ty with
      | tr => cases h3 with | tr h3 => exact hp ⟨t, i, u, h1, h2, h3⟩
      | _ => cases h

/-! ### No message depends on the signatures -/

theorem hasInput_erase {p : Psbt L} {n : Nat} : (Spec.V0.erase p).inputs[n]? = p.inputs[n]?.map Spec.V0.eraseInput := by
  simp [Spec.V0.erase, List.getElem?_map]

theorem checkedInput_erase (p : Psbt L) (n : Nat) :
    (Spec.V0.erase p).checkedInput n = (match p.checkedInput n with | .ok i => .ok (Spec.V0.eraseInput i) | .error e => .error e) := by
  unfold Psbt.checkedInput
  rw [hasInput_erase]
  rw [show (Spec.V0.erase p).unsignedTx = p.unsignedTx from rfl,
    show (Spec.V0.erase p).inputs.length = p.inputs.length by simp [Spec.V0.erase]]
  by_cases h1 : n ≥ p.inputs.length
  · rw [if_pos h1, if_pos h1]
  · rw [if_neg h1, if_neg h1]
    by_cases h2 : n ≥ p.unsignedTx.input.length
    · simp only [if_pos h2]
    · simp only [if_neg h2]
      cases p.inputs[n]? <;> rfl

theorem spendUtxo_erase (p : Psbt L) (n : Nat) : (Spec.V0.erase p).spendUtxo n = p.spendUtxo n := by
  unfold Psbt.spendUtxo
  rw [checkedInput_erase]
  cases p.checkedInput n with
  | ok i => rfl
  | error e => rfl

theorem outputType_erase (p : Psbt L) (n : Nat) : (Spec.V0.erase p).outputType n = p.outputType n := by
  unfold Psbt.outputType
  rw [checkedInput_erase, spendUtxo_erase]
  cases p.checkedInput n with
  | ok i => rfl
  | error e => rfl

theorem signingAlgorithm_erase (p : Psbt L) (n : Nat) : (Spec.V0.erase p).signingAlgorithm n = p.signingAlgorithm n := by
  unfold Psbt.signingAlgorithm
  rw [outputType_erase]

theorem sighashEcdsa_erase (p : Psbt L) (n : Nat) (tx : Tx) : (Spec.V0.erase p).sighashEcdsa n tx = p.sighashEcdsa n tx := by
  unfold Psbt.sighashEcdsa
  rw [signingAlgorithm_erase, checkedInput_erase, outputType_erase, spendUtxo_erase]
  cases p.checkedInput n with
  | ok i => rfl
  | error e => rfl

theorem spendUtxos_erase (p : Psbt L) (ns : List Nat) : (Spec.V0.erase p).spendUtxos ns = p.spendUtxos ns := by
  induction ns with
  | nil => rfl
  | cons n ns ih => rw [Psbt.spendUtxos, Psbt.spendUtxos, spendUtxo_erase, ih]

theorem sighashTaproot_erase (p : Psbt L) (n : Nat) (tx : Tx) (leaf : Option Hash32) :
    (Spec.V0.erase p).sighashTaproot n tx leaf = p.sighashTaproot n tx leaf := by
  unfold Psbt.sighashTaproot
  rw [signingAlgorithm_erase, checkedInput_erase, outputType_erase, spendUtxos_erase]
  have : (Spec.V0.erase p).inputs.length = p.inputs.length := by simp [Spec.V0.erase]
  rw [this]
  cases p.checkedInput n with
  | ok i => rfl
  | error e => rfl

end Psbt.V0
