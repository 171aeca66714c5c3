/- C108: the two versions treat the same PSBT in the same way. -/
import Verif.Spec.BothVersions
import Verif.Props.V2LockTime
import Verif.Props.V2Extract
import Verif.Props.V0Extract
namespace Psbt.Both
open Psbt Psbt.Spec

variable {L : Lib}

/-! ### Lists -/

theorem pointwise_nil {α β : Type} {R : α → β → Prop} {bs : List β} (h : Pointwise R [] bs) : bs = [] :=
  List.length_eq_zero_iff.mp h.1.symm

theorem pointwise_cons {α β : Type} {R : α → β → Prop} {a : α} {as : List α} {bs : List β} (h : Pointwise R (a :: as) bs) :
    ∃ b bs', bs = b :: bs' ∧ R a b ∧ Pointwise R as bs' := by
  cases bs with
  | nil => exact absurd h.1 (by simp)
  | cons b bs =>
    refine ⟨b, bs, rfl, h.2 0 a b rfl rfl, by simpa using h.1, fun n x y hx hy => h.2 (n + 1) x y (by simpa using hx) (by simpa using hy)⟩

theorem pointwise_map {α β γ : Type} {R : α → β → Prop} {f : α → γ} {g : β → γ} (hR : ∀ a b, R a b → f a = g b) :
    ∀ {as : List α} {bs : List β}, Pointwise R as bs → as.map f = bs.map g
  | [], _, h => by rw [pointwise_nil h]; rfl
  | a :: as, _, h => by
    obtain ⟨b, bs', rfl, h1, h2⟩ := pointwise_cons h
    simp only [List.map_cons, hR a b h1, pointwise_map hR h2]

theorem pointwise_some {α β : Type} {R : α → β → Prop} {as : List α} {bs : List β} (h : Pointwise R as bs) {n : Nat} {a : α}
    (ha : as[n]? = some a) : ∃ b, bs[n]? = some b ∧ R a b := by
  obtain ⟨hl, -⟩ := List.getElem?_eq_some_iff.mp ha
  have hl' : n < bs.length := by have := h.1; omega
  exact ⟨bs[n], List.getElem?_eq_getElem hl', h.2 n a _ ha (List.getElem?_eq_getElem hl')⟩

theorem pointwise_some' {α β : Type} {R : α → β → Prop} {as : List α} {bs : List β} (h : Pointwise R as bs) {n : Nat} {b : β}
    (hb : bs[n]? = some b) : ∃ a, as[n]? = some a ∧ R a b := by
  obtain ⟨hl, -⟩ := List.getElem?_eq_some_iff.mp hb
  have hl' : n < as.length := by have := h.1; omega
  exact ⟨as[n], List.getElem?_eq_getElem hl', h.2 n _ b (List.getElem?_eq_getElem hl') hb⟩

theorem pointwise_set {α β : Type} {R : α → β → Prop} {as : List α} {bs : List β} (h : Pointwise R as bs) (n : Nat) {a : α} {b : β}
    (hr : R a b) : Pointwise R (as.set n a) (bs.set n b) := by
  refine ⟨by simpa using h.1, fun m x y hx hy => ?_⟩
  rw [List.getElem?_set] at hx hy
  have hl := h.1
  by_cases e : n = m
  · subst e
    simp only [if_true] at hx hy
    split at hx
    · split at hy
      · cases hx; cases hy; exact hr
      · cases hy
    · cases hx
  · rw [if_neg e] at hx hy
    exact h.2 m x y hx hy

/-! ### Transactions -/

section
variable {p : V0.Psbt L} {q : V2.Psbt L}

theorem txOuts_same (h : SameButTapSigs p q) : p.unsignedTx.output = q.outputs.map V2.Output.txOut := by
  have := pointwise_map (f := id) (g := V2.Output.txOut) (fun (o : TxOut) (r : V2.Output L) hr => by
    obtain ⟨h1, h2⟩ := hr
    cases o
    simp only at h1 h2
    subst h1 h2
    rfl) h.txOut
  simpa using this

/-- C108, partially: if the v2 PSBT has all sequence numbers, its unsigned transaction is that of the v0 PSBT. -/
theorem C108_unsigned_tx_partial (h : SameButTapSigs p q) (hs : ∀ j ∈ q.inputs, j.sequence ≠ none) : q.unsignedTx = .ok p.unsignedTx := by
  unfold V2.Psbt.unsignedTx
  rw [(V2.C17_lock_time_iff q _).mpr h.lockTime]
  show Except.ok _ = _
  have h1 : p.unsignedTx.input = q.inputs.map V2.Input.unsignedTxIn := by
    have hp : Pointwise (fun (t : TxIn) (j : V2.Input L) => t = j.unsignedTxIn) p.unsignedTx.input q.inputs := by
      refine ⟨h.txIn.1, fun n t j ht hj => ?_⟩
      obtain ⟨a, b, c, d, e⟩ := h.txIn.2 n t j ht hj
      obtain ⟨⟨tid, vo⟩, ss, sq, w⟩ := t
      simp only at a b c d e
      rcases c with c | ⟨c, -⟩
      · unfold V2.Input.unsignedTxIn V2.Input.outPoint
        rw [c, a, b, d, e]
        rfl
      · exact absurd c (hs j (List.mem_of_getElem? hj))
    have := pointwise_map (f := id) (g := V2.Input.unsignedTxIn) (fun _ _ e => e) hp
    simpa using this
  rw [← h1, ← txOuts_same h, ← h.txVersion]

/-! ### Fees -/

theorem funded_same {t : TxIn} {i : V0.Input L} {j : V2.Input L} (ht : SameTxIn t j) (hi : SameInputRecords i j) (u : TxOut) :
    Spec.V0.FundedBy t i u ↔ Spec.FundedBy j u := by
  constructor
  · intro h
    cases h with
    | witness h => exact .witness (by rw [← hi.witnessUtxo, h])
    | nonWitness h1 h2 h3 => exact .nonWitness (by rw [← hi.witnessUtxo, h1]) (by rw [← hi.nonWitnessUtxo, h2]) (by rw [← ht.index, h3])
  · intro h
    cases h with
    | witness h => exact .witness (by rw [hi.witnessUtxo, h])
    | nonWitness h1 h2 h3 => exact .nonWitness (by rw [hi.witnessUtxo, h1]) (by rw [hi.nonWitnessUtxo, h2]) (by rw [ht.index, h3])

theorem funding_same : ∀ {ts : List TxIn} {is : List (V0.Input L)} {js : List (V2.Input L)}, Pointwise SameTxIn ts js →
    Pointwise SameInputRecords is js → ∀ us, Spec.V0.Funding ts is us ↔ Spec.Funding js us
  | [], is, js, ht, hi, us => by
    cases pointwise_nil ht
    cases List.length_eq_zero_iff.mp hi.1
    constructor <;> (intro h; cases h; constructor)
  | t :: ts, is, js, ht, hi, us => by
    obtain ⟨j, js, rfl, h1, h2⟩ := pointwise_cons ht
    cases is with
    | nil => exact absurd hi.1 (by simp)
    | cons i is =>
      obtain ⟨_, _, e, h3, h4⟩ := pointwise_cons hi
      cases e
      constructor
      · intro h
        cases h with
        | cons g1 g2 => exact .cons ((funded_same h1 h3 _).mp g1) ((funding_same h2 h4 _).mp g2)
      · intro h
        cases h with
        | cons g1 g2 => exact .cons ((funded_same h1 h3 _).mpr g1) ((funding_same h2 h4 _).mpr g2)

/-- C108. The fee is the same. -/
theorem C108_fee (h : SameButTapSigs p q) (f : UInt64) : p.fee = .ok f ↔ q.fee = .ok f := by
  rw [V0.C49_fee_iff, V2.C30_fee_iff]
  have e : Spec.totalOut q = Spec.total (p.unsignedTx.output.map TxOut.value) := by
    rw [txOuts_same h, List.map_map]
    rfl
  simp only [funding_same h.txIn h.inputs, e]

/-! ### Extraction -/

theorem fill_same : ∀ {ts : List TxIn} {is : List (V0.Input L)} {js : List (V2.Input L)}, Pointwise SameTxIn ts js →
    Pointwise SameInputRecords is js → js.all V2.Input.isFinalized = true → js.map V2.Input.signedTxIn = (V0.fillInputs ts is).map .ok
  | [], is, js, ht, hi, _ => by
    cases pointwise_nil ht
    cases List.length_eq_zero_iff.mp hi.1
    rfl
  | t :: ts, is, js, ht, hi, hf => by
    obtain ⟨j, js, rfl, h1, h2⟩ := pointwise_cons ht
    cases is with
    | nil => exact absurd hi.1 (by simp)
    | cons i is =>
      obtain ⟨_, _, e, h3, h4⟩ := pointwise_cons hi
      cases e
      rw [List.all_cons, Bool.and_eq_true] at hf
      unfold V0.fillInputs
      rw [List.map_cons, List.map_cons, fill_same h2 h4 hf.2]
      congr 1
      have hj := (V2.isFinalized_iff j).mp hf.1
      obtain ⟨s, hs⟩ := Option.ne_none_iff_exists'.mp hj.1
      obtain ⟨w, hw⟩ := Option.ne_none_iff_exists'.mp hj.2
      unfold V2.Input.signedTxIn
      rw [h3.finalScriptSig, h3.finalScriptWitness, hs, hw]
      obtain ⟨a, b, c, d, e⟩ := h1
      obtain ⟨⟨tid, vo⟩, ss, sq, wi⟩ := t
      simp only at a b c d e
      subst a b
      rcases c with c | ⟨c, c'⟩
      · rw [c]; rfl
      · rw [c, c']; rfl

/-- C108. Extraction of the v2 PSBT, which needs every input to have both a script and a witness, returns the transaction that extraction of
the v0 PSBT returns. -/
theorem C108_extract (h : SameButTapSigs p q) (t : Tx) : V2.Extractor.extractUnchecked q = .ok t ↔
    (∀ j ∈ q.inputs, j.finalScriptSig ≠ none ∧ j.finalScriptWitness ≠ none) ∧ t = p.extractUnchecked := by
  have hall : q.isFinalized = true ↔ ∀ j ∈ q.inputs, j.finalScriptSig ≠ none ∧ j.finalScriptWitness ≠ none := by
    unfold V2.Psbt.isFinalized
    rw [List.all_eq_true]
    exact forall₂_congr fun j _ => V2.isFinalized_iff j
  rw [V2.extractUnchecked_ok, hall]
  refine and_congr_right fun hf => ?_
  have hf' := hall.mpr hf
  have e := fill_same h.txIn h.inputs hf'
  have e2 : p.extractUnchecked = ⟨q.global.txVersion, p.unsignedTx.lockTime, V0.fillInputs p.unsignedTx.input p.inputs, q.outputs.map V2.Output.txOut⟩ := by
    unfold V0.Psbt.extractUnchecked
    rw [← txOuts_same h, ← h.txVersion]
  have hl := (V2.C17_lock_time_iff q _).mpr h.lockTime
  rw [e2]
  constructor
  · rintro ⟨n, ts, h1, h2, rfl⟩
    rw [hl] at h1
    cases h1
    rw [e] at h2
    have : V0.fillInputs p.unsignedTx.input p.inputs = ts := by
      have := congrArg (List.filterMap Except.toOption) h2
      simpa [List.filterMap_map, Function.comp_def, Except.toOption] using this
    rw [this]
  · rintro rfl
    exact ⟨_, _, hl, e, rfl⟩

/-- C108. The same with the check of the fee rate. -/
theorem C108_extract_with_limit (h : SameButTapSigs p q) (max : UInt64) (t : Tx) : V2.Extractor.extractWithLimit q max = .ok t ↔
    (∀ j ∈ q.inputs, j.finalScriptSig ≠ none ∧ j.finalScriptWitness ≠ none) ∧ p.extractWithLimit max = .ok t := by
  rw [V2.C32_with_limit_iff, V0.C49_with_limit_iff, C108_extract h]
  simp only [C108_fee h, and_assoc]

end
end Psbt.Both
