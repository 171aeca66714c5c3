/- C107: what is extracted passes the checks every node makes first. -/
import Verif.Spec.Basic
import Verif.Props.V2Lifecycle
import Verif.Props.V0HandOver
namespace Psbt
open Psbt

namespace V2
variable {L : Lib} {S : SigLib L} {M : MsLib L}

theorem funding_unique {is : List (Input L)} {us vs : List TxOut} (h : Spec.Funding is us) (h' : Spec.Funding is vs) : us = vs := by
  induction h generalizing vs with
  | nil => cases h'; rfl
  | cons h1 _ ih =>
    cases h' with
    | cons g1 g2 => rw [fundedBy_unique h1 g1, ih g2]

/-- C107, partially: a transaction extracted from a PSBT v2 that the constructor built passes the checks exactly if the inputs and outputs
passed to the constructor do so; no role looks at this. -/
theorem C107_v2_partial {p q : Psbt L} {is : List (Input L)} {os : List (Output L)} (hb : Spec.Built .psbt p is os)
    (h : Spec.Worked S M p q) {t : Tx} (ht : Extractor.extractUnchecked q = .ok t ∨ Extractor.extractTx q = .ok t ∨
      ∃ max, Extractor.extractWithLimit q max = .ok t) :
    Spec.Acceptable (t.input.map TxIn.previousOutput) t.output ↔
      Spec.Acceptable (is.map fun i => ⟨i.previousTxid, i.spentOutputIndex⟩) (os.map fun o => ⟨o.amount, o.scriptPubkey⟩) := by
  obtain ⟨-, h1, h2⟩ := C83_end_to_end_partial hb h ht
  rw [h1, h2]

/-- C107, partially: if the fee is known and the outputs being spent add up to no more than there can be, then so do those that are paid. -/
theorem C107_v2_money_partial {p : Psbt L} {us : List TxOut} {f : UInt64} {t : Tx} (hf : p.fee = .ok f) (hu : Spec.Funding p.inputs us)
    (hm : Spec.total (us.map TxOut.value) ≤ Spec.maxMoney) (ht : Extractor.extractUnchecked p = .ok t) :
    Spec.total (t.output.map TxOut.value) ≤ Spec.maxMoney := by
  obtain ⟨us', h1, -, -, h4⟩ := (C30_fee_iff p f).mp hf
  cases funding_unique hu h1
  obtain ⟨-, n, ts, -, -, rfl⟩ := extractUnchecked_ok.mp ht
  have : Spec.total ((p.outputs.map Output.txOut).map TxOut.value) = Spec.totalOut p := by
    unfold Spec.totalOut
    rw [List.map_map]
    rfl
  simp only [this]
  omega

/-! ### An output spent twice -/

/-- An input that spends an output of 1000 satoshi, and an output of 1500. -/
def dblIn : Input EL := eIn 1000
def dblOut : Output EL := Output.new EL ⟨1500, [0x51]⟩
/-- The constructor is given the input twice. -/
def dbl1 : Psbt EL := ok! (Creator.new EL) (Constructor.input (Creator.constructorModifiable (Creator.new EL)) dblIn)
def dbl2 : Psbt EL := ok! dbl1 (Constructor.input dbl1 dblIn)
def dbl3 : Psbt EL := ok! dbl2 (Constructor.output dbl2 dblOut)
def dbl4 : Psbt EL := ok! dbl3 (Constructor.psbt dbl3)
/-- The inputs get their final scripts. -/
def dbl5 : Psbt EL := { dbl4 with inputs := (dbl4.inputs.set 0 (eFin dblIn)).set 1 (eFin dblIn) }

theorem dbl_built : Spec.Built .psbt dbl4 [dblIn, dblIn] [dblOut] :=
  .constructorPsbt (m := .modifiable) (.output (is := [dblIn, dblIn]) (os := []) (by decide)
    (.input (is := [dblIn]) (by decide) (.input (is := []) (by decide) (.constructorModifiable .new) rfl) rfl) rfl) rfl

theorem dbl_worked : Spec.Worked SS FM dbl4 dbl5 :=
  .setInput (q := { dbl4 with inputs := dbl4.inputs.set 0 (eFin dblIn) }) (n := 1) (i := dblIn) (j := eFin dblIn)
    (.setInput (n := 0) (i := dblIn) (j := eFin dblIn) .refl rfl rfl rfl) rfl rfl rfl

/-- C107 fails: the constructor takes an input that spends what another input spends already, `fee` counts the coin twice, and
extraction, which finds the fee acceptable, returns a transaction that no node accepts, and which pays more than the coin is worth. -/
theorem C107_v2_counterexample : ∃ (p q : Psbt EL) (i : Input EL) (o : Output EL) (t : Tx) (u : TxOut), Spec.Built .psbt p [i, i] [o] ∧
    Spec.Worked SS FM p q ∧ Spec.FundedBy i u ∧ q.fee = .ok 500 ∧ Extractor.extractTx q = .ok t ∧
    u.value < o.amount ∧ ¬ Spec.Acceptable (t.input.map TxIn.previousOutput) t.output := by
  refine ⟨dbl4, dbl5, dblIn, dblOut, ok! ⟨0, 0, [], []⟩ (Extractor.extractUnchecked dbl5), ⟨1000, [1]⟩, dbl_built, dbl_worked, .witness rfl,
    by decide +kernel, ?_, by decide, fun h => ?_⟩
  · refine (C32_with_limit_iff _ _).mpr ⟨by decide +kernel, 500, by decide +kernel, by decide +kernel⟩
  · exact absurd h.distinct (by decide +kernel)

-- The hypotheses of the two theorems are met, by a transaction that passes the checks.
example : Spec.Built .psbt ho4 [hoIn] [hoOut] ∧ Spec.Worked SS FM ho4 (fDone lc3) ∧ (Extractor.extractUnchecked (fDone lc3)).isOk = true ∧
    Spec.Acceptable ([hoIn].map fun i => ⟨i.previousTxid, i.spentOutputIndex⟩) ([hoOut].map fun o => ⟨o.amount, o.scriptPubkey⟩) ∧
    ∃ f us, (fDone lc3).fee = .ok f ∧ Spec.Funding (fDone lc3).inputs us ∧ Spec.total (us.map TxOut.value) ≤ Spec.maxMoney := by
  refine ⟨lc_built, lc_worked, by decide +kernel, ⟨by simp, by simp, by decide +kernel, by decide +kernel, ?_⟩, ?_⟩
  · intro o ho
    simp only [List.map_cons, List.map_nil, List.mem_singleton] at ho
    subst ho
    unfold Spec.nullOutPoint
    decide +kernel
  · have hf : (fDone lc3).fee = .ok (ok! 0 (fDone lc3).fee) := by decide +kernel
    obtain ⟨us, h1, h2, h3, h4⟩ := (C30_fee_iff _ _).mp hf
    refine ⟨_, us, hf, h1, ?_⟩
    rw [h4]
    decide +kernel

end V2

namespace V0
variable {L : Lib} {S : SigLib L} {M : MsLib L} {U : UpdLib L}

/-- C107, partially: the same for a PSBT v0, which begins with a transaction. -/
theorem C107_v0_partial {tx : Tx} {p q : Psbt L} (hc : Psbt.fromUnsignedTx L tx = .ok p) (h : Spec.V0.History S M U p q) {t : Tx}
    (ht : q.extract M = .ok t ∨ t = q.extractUnchecked ∨ q.extractTx = .ok t ∨ ∃ max, q.extractWithLimit max = .ok t) :
    Spec.Acceptable (t.input.map TxIn.previousOutput) t.output ↔ Spec.Acceptable (tx.input.map TxIn.previousOutput) tx.output := by
  obtain ⟨h1, h2, h3, h4⟩ := C82_end_to_end hc h
  have : Spec.V0.SameSpend t tx := by
    rcases ht with ht | rfl | ht | ⟨max, ht⟩
    · exact h1 t ht
    · exact h2
    · exact h3 t ht
    · exact h4 max t ht
  obtain ⟨-, -, e1, e2⟩ := this
  have e3 := congrArg (List.map Prod.fst) e2
  simp only [List.map_map] at e3
  have e4 : t.input.map TxIn.previousOutput = tx.input.map TxIn.previousOutput := e3
  rw [e1, e4]

/-- C107, partially: the same for the amounts. -/
theorem C107_v0_money_partial {p : Psbt L} {us : List TxOut} {f : UInt64} (hf : p.fee = .ok f)
    (hu : Spec.V0.Funding p.unsignedTx.input p.inputs us) (hm : Spec.total (us.map TxOut.value) ≤ Spec.maxMoney) :
    Spec.total (p.extractUnchecked.output.map TxOut.value) ≤ Spec.maxMoney := by
  obtain ⟨us', h1, -, -, h4⟩ := (C49_fee_iff p f).mp hf
  cases funding_unique hu h1
  show Spec.total (p.unsignedTx.output.map TxOut.value) ≤ _
  omega

/-- A transaction that spends an output twice. -/
def dblTx : Tx := ⟨2, 0, [⟨⟨Demo.rep 32 1, 0⟩, [], 0xFFFFFFFF, []⟩, ⟨⟨Demo.rep 32 1, 0⟩, [], 0xFFFFFFFF, []⟩], [⟨1500, [0x51]⟩]⟩
def dblP : Psbt DL := V2.ok! ⟨dblTx, 0, .empty, .empty, .empty, [], []⟩ (Psbt.fromUnsignedTx DL dblTx)
/-- The inputs get their UTXOs and final scripts. -/
def dblQ : Psbt DL := { dblP with inputs := (dblP.inputs.set 0 (eFin (eW 1000))).set 1 (eFin (eW 1000)) }

/-- C107 fails for PSBT v0 in the same way. -/
theorem C107_v0_counterexample : ∃ (tx t : Tx) (p q : Psbt DL), Psbt.fromUnsignedTx DL tx = .ok p ∧
    (∃ i, q = { p with inputs := [i, i] } ∧ i.witnessUtxo = some ⟨1000, [1]⟩) ∧ q.fee = .ok 500 ∧ q.extractTx = .ok t ∧
    (∃ o, t.output = [o] ∧ 1000 < o.value) ∧ ¬ Spec.Acceptable (t.input.map TxIn.previousOutput) t.output := by
  refine ⟨dblTx, dblQ.extractUnchecked, dblP, dblQ, by decide +kernel, ⟨eFin (eW 1000), by decide +kernel, by decide +kernel⟩, by decide +kernel, ?_, ⟨_, rfl, by decide +kernel⟩,
    fun h => ?_⟩
  · exact (C49_with_limit_iff _ _ _).mpr ⟨rfl, 500, by decide +kernel, by decide +kernel⟩
  · exact absurd h.distinct (by decide +kernel)

end V0
end Psbt
