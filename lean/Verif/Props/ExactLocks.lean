/- C24: exactly when combining keeps the unique id; C65: exactly when a timelock the v2 finalizer considers met is met. -/
import Verif.Props.V2Combine
import Verif.Props.V2Satisfy
import Verif.Lemmas.Encoding
import Verif.Spec.Hash
namespace Psbt.V2
open Psbt.Spec (CltvPasses CsvPasses absOperand relOperand)
variable {L : Lib} {M : MsLib L}

theorem id_eq (p : Psbt L) : p.id = p.determineLockTime.map fun n => L.sha256d (encTxLegacy (Spec.idTx p n)) := by
  unfold Psbt.id Psbt.unsignedTx
  cases p.determineLockTime with
  | error e => rfl
  | ok n =>
    show Except.ok (txid L _) = Except.ok _
    unfold txid Spec.idTx
    simp only [List.map_map]
    rfl

/-- C24, exactly: combining keeps the unique id of the first if and only if it keeps its lock time, unless the transactions with these
two lock times have the same id. -/
theorem C24_id_iff_partial {p q r : Psbt L} (h : p.combine q = .ok r)
    (hc : ∀ m n, p.determineLockTime = .ok m → r.determineLockTime = .ok n →
      ¬ Spec.Collides L.sha256d [Spec.unsignedTxBytes (Spec.idTx p m)] [Spec.unsignedTxBytes (Spec.idTx p n)]) :
    r.id = p.id ↔ r.determineLockTime = p.determineLockTime := by
  obtain ⟨-, -, -, ⟨-, hv, -⟩, hio, hoo⟩ := C24_agreement_partial h
  have hx : ∀ n, Spec.idTx r n = Spec.idTx p n := by
    intro n
    have : (r.inputs.map fun i => (⟨i.outPoint, [], 0, []⟩ : TxIn)) = p.inputs.map fun i => ⟨i.outPoint, [], 0, []⟩ := by
      have := congrArg (List.map fun o => (⟨o, [], 0, []⟩ : TxIn)) hio
      simpa only [List.map_map, Function.comp_def] using this
    unfold Spec.idTx
    have ho : (r.outputs.map fun o => (⟨o.amount, o.scriptPubkey⟩ : TxOut)) = p.outputs.map fun o => ⟨o.amount, o.scriptPubkey⟩ := hoo
    simp only [hv, ho]
    simp only [Input.outPoint] at this
    rw [this]
  rw [id_eq, id_eq]
  simp only [hx]
  constructor
  · intro he
    cases e1 : p.determineLockTime with
    | error a =>
      cases e2 : r.determineLockTime with
      | error b => rw [e1, e2] at he; cases he; rfl
      | ok n => rw [e1, e2] at he; cases he
    | ok m =>
      cases e2 : r.determineLockTime with
      | error b => rw [e1, e2] at he; cases he
      | ok n =>
        rw [e1, e2] at he
        have he := Except.ok.inj he
        rw [← unsignedTxBytes_fun] at he
        have hb := Spec.Collides.free (hc m n e1 e2) (List.mem_singleton.mpr rfl) (List.mem_singleton.mpr rfl) he.symm
        rw [unsignedTxBytes_fun] at hb
        unfold encTxLegacy Spec.idTx at hb
        have := List.append_inj_right' hb (by rfl)
        have h1 := decU32_enc m []
        have h2 := decU32_enc n []
        simp only at this
        rw [this, h2] at h1
        simpa using h1
  · intro he; rw [he]

/-- C65, exactly: an absolute lock the finalizer considers met is met in the unsigned transaction if and only if the transaction's lock
time is of the same unit and the input's sequence number is not 0xFFFFFFFF. -/
theorem C65_after_iff_partial {p : Psbt L} {i : Input L} {t : Tx} {x : TxIn} {k : Nat} (ht : p.unsignedTx = .ok t)
    (hi : p.inputs[k]? = some i) (hx : t.input[k]? = some x) (n : AbsLock) (h : (i.satisfier M).after n = true) :
    CltvPasses (absOperand n) t.lockTime x.sequence ↔
      ((absOperand n).toNat < 500000000 ↔ t.lockTime.toNat < 500000000) ∧ i.sequence ≠ some 0xFFFFFFFF := by
  constructor
  · rintro ⟨h1, -, h3⟩
    refine ⟨h1, fun hs => h3 ?_⟩
    obtain ⟨m, -, rfl⟩ := unsignedTx_ok.mp ht
    simp only [List.getElem?_map, hi, Option.map_some, Option.some.injEq] at hx
    subst hx
    simp only [Input.unsignedTxIn, hs]
    rfl
  · rintro ⟨h1, h2⟩
    exact C65_after_partial ht hi hx n h h1 h2

/-- C65, exactly: a relative lock the finalizer considers met is met in the unsigned transaction if and only if the transaction version is
at least 2. -/
theorem C65_older_iff_partial {p : Psbt L} {i : Input L} {t : Tx} {x : TxIn} {k : Nat} (ht : p.unsignedTx = .ok t)
    (hi : p.inputs[k]? = some i) (hx : t.input[k]? = some x) (n : RelLock) (h : (i.satisfier M).older n = true) :
    CsvPasses (relOperand n) t.version x.sequence ↔ 2 ≤ p.global.txVersion.toNat := by
  refine ⟨fun hp => ?_, C65_older_partial ht hi hx n h⟩
  obtain ⟨m, -, rfl⟩ := unsignedTx_ok.mp ht
  exact hp.1

section Examples
-- Combining with a PSBT that asks for a height changes the lock time, and therefore the unique id.
def idP (h : Option Height) : Psbt Demo.mixLib :=
  ⟨{ Global.new _ with inputCount := 1, outputCount := 1 }, [{ Input.new _ ⟨Demo.rep 32 7, 1⟩ with minHeight := h }], [Output.new _ ⟨5, [9]⟩]⟩
example : (idP none).combine (idP (some h1)) = .ok (idP (some h1)) ∧ (idP (some h1)).id ≠ (idP none).id := by
  have h : (idP none).combine (idP (some h1)) = .ok (idP (some h1)) := rfl
  refine ⟨h, fun he => ?_⟩
  have e1 : (idP none).determineLockTime = .ok 0 := rfl
  have e2 : (idP (some h1)).determineLockTime = .ok 11 := rfl
  have := (C24_id_iff_partial h ?_).mp he
  · rw [e1, e2] at this; revert this; decide
  · intro m n f1 f2
    rw [e1] at f1; rw [e2] at f2; cases f1; cases f2
    decide +kernel
-- Locks that the finalizer considers met: both are met in this transaction; in the one of version 1 the relative one is not.
example : ∃ (p : Psbt EL) (t : Tx) (x y : TxIn), p.unsignedTx = .ok t ∧ t.input = [x, y] ∧
    CltvPasses (absOperand (.blocks ⟨100, by decide⟩)) t.lockTime x.sequence ∧ CsvPasses (relOperand (.blocks 10)) t.version y.sequence := by
  have ht : (eP [fAfter, fOlder] [3]).unsignedTx = .ok (fTx (eP [fAfter, fOlder] [3])) := by decide +kernel
  have hl : (fTx (eP [fAfter, fOlder] [3])).lockTime = 100 := by decide +kernel
  refine ⟨_, _, _, _, ht, rfl, (C65_after_iff_partial (M := FM) (i := fAfter) (k := 0) ht rfl rfl _ (by decide +kernel)).mpr ⟨?_, by decide⟩,
    (C65_older_iff_partial (M := FM) (i := fOlder) (k := 1) ht rfl rfl _ (by decide +kernel)).mpr (by decide)⟩
  rw [hl]; decide
end Examples

end Psbt.V2
