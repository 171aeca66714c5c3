/- C113: the identifier of a transaction is known before it is signed. -/
import Verif.Spec.TxId
import Verif.Props.V0HandOver
import Verif.Props.V2Satisfy
namespace Psbt
open Psbt.Spec

variable {L : Lib}

/-- A transaction without its witnesses. -/
def witnessless (t : Tx) : Tx := { t with input := t.input.map TxIn.stripped }

theorem enc_witnessless (t : Tx) : encTxLegacy (witnessless t) = encTxLegacy t := by
  unfold encTxLegacy witnessless encList
  simp only [List.length_map, List.flatMap_map]
  rfl

theorem witnessless_eq_iff {t u : Tx} : witnessless t = witnessless u ↔ SameBody t u := by
  have key : ∀ l m : List TxIn, l.map TxIn.stripped = m.map TxIn.stripped ↔
      l.map (fun i => (i.previousOutput, i.scriptSig, i.sequence)) = m.map fun i => (i.previousOutput, i.scriptSig, i.sequence) := by
    intro l
    induction l with
    | nil => intro m; cases m <;> simp
    | cons a l ih =>
      intro m
      cases m with
      | nil => simp
      | cons b m => simp only [List.map_cons, List.cons.injEq, ih, TxIn.stripped, TxIn.mk.injEq, Prod.mk.injEq, and_true]
  unfold witnessless SameBody
  simp only [Tx.mk.injEq, key]
  constructor
  · rintro ⟨a, b, c, d⟩; exact ⟨a, b, d, c⟩
  · rintro ⟨a, b, d, c⟩; exact ⟨a, b, c, d⟩

/-- C113. Witnesses do not change the identifier. -/
theorem C113_witnesses {t u : Tx} (h : SameBody t u) : Spec.txid L t = Spec.txid L u := by
  unfold Spec.txid
  rw [unsignedTxBytes_fun, ← enc_witnessless t, ← enc_witnessless u, witnessless_eq_iff.mpr h]

theorem sameBody_of_bytes {t u : Tx} (ht : Countable t) (hu : Countable u) (h : unsignedTxBytes t = unsignedTxBytes u) : SameBody t u := by
  rw [unsignedTxBytes_fun, ← enc_witnessless t, ← enc_witnessless u] at h
  have small : ∀ {t : Tx}, Countable t → (witnessless t).Small ∧ ∀ i ∈ (witnessless t).input, i.witness = [] := by
    rintro t ⟨h1, h2, h3, h4⟩
    refine ⟨⟨by simpa [witnessless] using h1, h2, ?_, h4⟩, ?_⟩
    · intro i hi
      obtain ⟨j, hj, rfl⟩ := List.mem_map.mp hi
      exact ⟨h3 j hj, by simp [TxIn.stripped], by simp [TxIn.stripped]⟩
    · intro i hi
      obtain ⟨j, -, rfl⟩ := List.mem_map.mp hi
      rfl
  have d1 := decTxLegacy_enc (small ht).1 (small ht).2 []
  have d2 := decTxLegacy_enc (small hu).1 (small hu).2 []
  rw [h, d2] at d1
  have e : witnessless u = witnessless t := by injection d1 with d1; injection d1
  exact witnessless_eq_iff.mp e.symm

/-- C113. Everything else does change it, unless the two transactions are a collision of the double SHA-256. -/
theorem C113_commits {t u : Tx} (ht : Countable t) (hu : Countable u) (h : Spec.txid L t = Spec.txid L u) :
    SameBody t u ∨ SameId L [t] [u] := by
  by_cases e : unsignedTxBytes t = unsignedTxBytes u
  · exact .inl (sameBody_of_bytes ht hu e)
  · exact .inr ⟨_, List.mem_cons_self, _, List.mem_cons_self, e, h⟩

namespace V0
open Psbt.Spec.V0
variable {S : SigLib L} {M : MsLib L} {U : UpdLib L}

theorem fill_same {ts : List TxIn} {is : List (Input L)} (hl : is.length = ts.length) (hs : ∀ x ∈ ts, x.scriptSig = []) :
    (fillInputs ts is).map (fun i => (i.previousOutput, i.scriptSig, i.sequence)) = ts.map (fun i => (i.previousOutput, i.scriptSig, i.sequence)) ↔
      ∀ i ∈ is, i.finalScriptSig = none ∨ i.finalScriptSig = some [] := by
  induction ts generalizing is with
  | nil =>
    cases is with
    | nil => simp [fillInputs]
    | cons i is => cases hl
  | cons t ts ih =>
    cases is with
    | nil => cases hl
    | cons i is =>
      have ih := ih (is := is) (by simpa using hl) fun x hx => hs x (List.mem_cons_of_mem _ hx)
      have h0 := hs t List.mem_cons_self
      simp only [fillInputs, List.map_cons, List.cons.injEq, Prod.mk.injEq, true_and, and_true, ih, List.forall_mem_cons, h0]
      refine and_congr ?_ Iff.rfl
      cases i.finalScriptSig <;> simp

theorem out_eq {q : Psbt L} {t : Tx} (hu : ∀ t ∈ q.unsignedTx.input, t.scriptSig = [] ∧ t.witness = []) (h : Extracts M q t) :
    t = q.extractUnchecked := by
  cases h with
  | checked h => exact C69_unchecked hu h
  | unchecked => rfl
  | limited max h => exact ((C49_with_limit_iff ..).mp h).1
  | default h => exact ((C49_with_limit_iff ..).mp h).1

/-- C113. A PSBT v0 goes through any number of calls. What is extracted in the end, in whichever way, has the body of the
transaction it had at the beginning exactly if no input has a final script sig (other than an empty one). -/
theorem C113_extracted_iff {p q : Psbt L} (hc : Reachable S M U p) (h : History S M U p q) {t : Tx}
    (ht : Extracts M q t) : SameBody t p.unsignedTx ↔ ∀ i ∈ q.inputs, i.finalScriptSig = none ∨ i.finalScriptSig = some [] := by
  obtain ⟨h1, h2, -⟩ := C82_history h
  have hp := HandSound.reachable hc
  have e2 := hp.inputCount
  have e3 := hp.unsigned
  rw [← h1] at e2 e3 ⊢
  rw [out_eq e3 ht]
  unfold SameBody Psbt.extractUnchecked
  simp only [true_and]
  exact fill_same (h2.trans e2) fun x hx => (e3 x hx).1

/-- C113. So the identifier is known from the beginning if no input has such a script; otherwise it is another one, or the two
transactions are a collision of the double SHA-256. -/
theorem C113_known {p q : Psbt L} (hc : Reachable S M U p) (h : History S M U p q) {t : Tx}
    (ht : Extracts M q t) :
    ((∀ i ∈ q.inputs, i.finalScriptSig = none ∨ i.finalScriptSig = some []) → Spec.txid L t = Spec.txid L p.unsignedTx) ∧
    (Countable p.unsignedTx → Countable t → (∃ i ∈ q.inputs, ∃ s, i.finalScriptSig = some s ∧ s ≠ []) → Spec.txid L t ≠ Spec.txid L p.unsignedTx ∨ SameId L [t] [p.unsignedTx]) := by
  have hi := C113_extracted_iff hc h ht
  refine ⟨fun hn => C113_witnesses (hi.mpr hn), fun c1 c2 ⟨i, hm, s, hs, hne⟩ => ?_⟩
  by_cases e : Spec.txid L t = Spec.txid L p.unsignedTx
  · rcases C113_commits c2 c1 e with hb | hb
    · rcases hi.mp hb i hm with g | g
      · rw [hs] at g; cases g
      · rw [hs] at g; cases g; exact absurd rfl hne
    · exact .inr hb
  · exact .inl e

theorem native_empty {q : Psbt L} (hM : NoScriptSig M) {n : Nat} {t : TxIn} {i : Input L} {s : Bytes} {w : List Bytes}
    (hi : HasInput q n t i) (hn : ∀ u, FundedBy t i u → Native u.scriptPubkey) (hv : Verdict M q n s w none) : s = [] := by
  obtain ⟨t', i', u, us, h1, h2, -, h4⟩ := hv
  obtain rfl : t' = t := Option.some.inj (h1.1.symm.trans hi.1)
  obtain rfl : i' = i := Option.some.inj (h1.2.symm.trans hi.2)
  exact hM _ (hn u h2) h4

/-- C113. If every input spends a native segwit output, then what a finalizer makes of the PSBT, and what `extract` lets pass,
has the identifier the unsigned transaction had, whoever signs and whatever the scripts are. -/
theorem C113_native {p q : Psbt L} (hM : NoScriptSig M) (hc : Reachable S M U p) (h : History S M U p q)
    (hn : ∀ (n : Nat) t i u, HasInput q n t i → FundedBy t i u → Native u.scriptPubkey) :
    (∀ t, q.extract M = .ok t → Spec.txid L t = Spec.txid L p.unsignedTx) ∧
    (∀ mall r, Sound q → q.finalizeMut M mall = .ok (r, []) → ∀ t, Extracts M r t → Spec.txid L t = Spec.txid L p.unsignedTx) := by
  have hlen : q.inputs.length = q.unsignedTx.input.length := by
    obtain ⟨h1, h2, -⟩ := C82_history h
    rw [h1, h2, (HandSound.reachable hc).inputCount]
  have has : ∀ {n : Nat} {i}, q.inputs[n]? = some i → ∃ t, HasInput q n t i := fun {n i} hi => by
    have hl := (List.getElem?_eq_some_iff.mp hi).1
    exact ⟨_, List.getElem?_eq_getElem (hlen ▸ hl), hi⟩
  constructor
  · intro t ht
    refine (C113_known hc h (.checked ht)).1 fun i hi => ?_
    obtain ⟨n, hi⟩ := List.getElem?_of_mem hi
    obtain ⟨x, hx⟩ := has hi
    obtain ⟨-, -, -, h4, -⟩ := extract_ok.mp ht
    have := native_empty hM hx (fun u hu => hn n x i u hx hu) (h4 n i hi)
    cases hf : i.finalScriptSig with
    | none => exact .inl rfl
    | some s => rw [hf] at this; cases this; exact .inr rfl
  · intro mall r hs hr t ht
    refine (C113_known hc (.step (o := q) h (.finalizeMut hr)) ht).1 fun j hj => ?_
    obtain ⟨n, hj⟩ := List.getElem?_of_mem hj
    have hl : n < q.inputs.length := by rw [← (same_of_mut hs hr).length]; exact (List.getElem?_eq_some_iff.mp hj).1
    obtain ⟨s, w, h1, h2⟩ := C67_ok hs hr n _ (List.getElem?_eq_getElem hl)
    obtain ⟨x, hx⟩ := has (List.getElem?_eq_getElem hl)
    have := native_empty hM hx (fun u hu => hn n x _ u hx hu) h2
    cases hj.symm.trans h1
    subst this
    exact .inl rfl

end V0

namespace V2
variable {M : MsLib L}

/-- C113 in PSBT v2. The extracted transaction has the body of the unsigned one exactly if all final script sigs are empty and
all sequence numbers are given. -/
theorem C113_extracted_iff {q : Psbt L} {t u : Tx} (ht : Extractor.extractUnchecked q = .ok t) (hu : q.unsignedTx = .ok u) :
    SameBody t u ↔ ∀ i ∈ q.inputs, i.finalScriptSig = some [] ∧ i.sequence ≠ none := by
  obtain ⟨-, n, ts, hn, h1, rfl⟩ := extractUnchecked_ok.mp ht
  obtain ⟨m, hm, rfl⟩ := unsignedTx_ok.mp hu
  cases hn.symm.trans hm
  unfold SameBody
  simp only [true_and]
  clear ht hu hn hm
  generalize q.inputs = is at h1
  induction is generalizing ts with
  | nil => cases ts <;> simp at h1 ⊢
  | cons i is ih =>
    cases ts with
    | nil => simp at h1
    | cons x ts =>
      simp only [List.map_cons, List.cons.injEq] at h1
      have ih := ih ts h1.2
      simp only [List.map_cons, List.cons.injEq, ih, List.forall_mem_cons]
      refine and_congr ?_ Iff.rfl
      obtain ⟨g1, g2, g3, g4⟩ := signedTxIn_ok.mp h1.1
      simp only [Prod.mk.injEq, Input.unsignedTxIn, g1, g2, Input.outPoint, true_and, Option.some.injEq]
      refine and_congr Iff.rfl ?_
      rcases g4 with g4 | ⟨g4, g5⟩
      · simp [g4]
      · rw [g4, g5]; simp

/-- C113 in PSBT v2. If all inputs spend native segwit outputs, what is finalized and extracted has the body of the unsigned
transaction exactly if all sequence numbers are 0xFFFFFFFF, and the lock time is the fallback lock time: the finalizer drops both. -/
theorem C113_finalized_iff {p q : Psbt L} {debug : Bool} (hM : NoScriptSig M) (hf : ∀ i ∈ p.inputs, ∃ u, FundedBy i u)
    (hn : ∀ i ∈ p.inputs, ∀ u, FundedBy i u → Native u.scriptPubkey) (h : Finalizer.finalize M debug p = .ok q) {t u : Tx}
    (ht : Extractor.extractUnchecked q = .ok t) (hu : p.unsignedTx = .ok u) :
    SameBody t u ↔ (∀ i ∈ p.inputs, i.sequence = some 0xFFFFFFFF) ∧ LockTime p (p.global.fallbackLockTime.getD 0) := by
  obtain ⟨-, t', ht', hs, -, -⟩ := C63_checked_and_extracted hf h
  obtain rfl : t' = t := Except.ok.inj (ht'.symm.trans ht)
  obtain ⟨e1, e2, e3, e4, -, us, -, e5⟩ := (C41_finalize_iff hf debug q).mp h
  obtain ⟨m, hm, rfl⟩ := unsignedTx_ok.mp hu
  obtain ⟨-, n, ts, hl, h1, rfl⟩ := extractUnchecked_ok.mp ht
  unfold Spec.stripped checkedTx at hs
  simp only [Tx.mk.injEq, List.map_map] at hs
  obtain ⟨s1, s2, s3, s4⟩ := hs
  have hsig : ∀ x ∈ ts, x.scriptSig = [] := by
    intro x hx
    obtain ⟨k, hk⟩ := List.getElem?_of_mem hx
    have hq : (q.inputs.map Input.signedTxIn)[k]? = some (.ok x) := by rw [h1, List.getElem?_map, hk]; rfl
    rw [List.getElem?_map] at hq
    cases hj : q.inputs[k]? with
    | none => rw [hj] at hq; cases hq
    | some j =>
      rw [hj] at hq
      obtain ⟨-, g2, -, -⟩ := signedTxIn_ok.mp (Option.some.inj hq)
      obtain ⟨v, s, w, f1, f2, -, f4⟩ := e5 k j hj
      rw [f2] at g2; cases g2
      have hlt : k < p.inputs.length := by rw [← e3]; exact (List.getElem?_eq_some_iff.mp hj).1
      have hr := e4 k _ _ (List.getElem?_eq_getElem hlt) hj
      refine hM _ (hn p.inputs[k] (List.getElem_mem hlt) v ?_) f4
      rcases inputResult_form hr with ⟨s, w, -, e⟩ | ⟨s, -, e⟩ <;> rw [e] at f1 <;> cases f1
      all_goals first
        | (rename_i a; exact .witness a)
        | (rename_i a b c; exact .nonWitness a b c)
  have key : ts.map (fun i => (i.previousOutput, i.scriptSig, i.sequence)) =
      p.inputs.map fun i => (⟨i.previousTxid, i.spentOutputIndex⟩, [], 0xFFFFFFFF) := by
    have hz := congrArg (List.map fun i : TxIn => (i.previousOutput, i.scriptSig, i.sequence)) s3
    simp only [List.map_map, Function.comp_def] at hz
    rw [← hz]
    exact List.map_congr_left fun x hx => by rw [hsig x hx]
  unfold SameBody
  simp only [e1, s1, key, List.map_map]
  rw [← C17_lock_time_iff, hm]
  have hin : p.inputs.map (fun i => ((⟨i.previousTxid, i.spentOutputIndex⟩ : OutPoint), ([] : Bytes), (0xFFFFFFFF : UInt32))) =
      p.inputs.map ((fun i : TxIn => (i.previousOutput, i.scriptSig, i.sequence)) ∘ Input.unsignedTxIn) ↔
      ∀ i ∈ p.inputs, i.sequence = some 0xFFFFFFFF := by
    rw [List.map_inj_left]
    refine forall_congr' fun i => forall_congr' fun _ => ?_
    simp only [Function.comp_def, Input.unsignedTxIn, Input.outPoint, Prod.mk.injEq, true_and]
    cases i.sequence with
    | none => simp
    | some x => simp [eq_comm]
  rw [hin, s4]
  simp only [Except.ok.injEq, e2, true_and]
  refine ⟨fun h => ⟨h.2.2, h.1.symm.trans s2⟩, fun h => ⟨s2.trans h.2.symm, rfl, h.1⟩⟩

/-- C113 in PSBT v2 (what is left of it). The identifier is known from the beginning for native segwit outputs if all sequence
numbers are given as 0xFFFFFFFF and no input asks for a lock time. -/
theorem C113_known_partial {p q : Psbt L} {debug : Bool} (hM : NoScriptSig M) (hf : ∀ i ∈ p.inputs, ∃ u, FundedBy i u)
    (hn : ∀ i ∈ p.inputs, ∀ u, FundedBy i u → Native u.scriptPubkey) (h : Finalizer.finalize M debug p = .ok q) {t u : Tx}
    (ht : Extractor.extractUnchecked q = .ok t) (hu : p.unsignedTx = .ok u)
    (hs : ∀ i ∈ p.inputs, i.sequence = some 0xFFFFFFFF ∧ i.minTime = none ∧ i.minHeight = none) : Spec.txid L t = Spec.txid L u :=
  C113_witnesses ((C113_finalized_iff hM hf hn h ht hu).mpr ⟨fun i hi => (hs i hi).1, .fallback fun i hi hc => by
    obtain ⟨-, a, b⟩ := hs i hi
    rcases hc with hc | hc
    · exact hc a
    · exact hc b⟩)

section Examples
/-- The interpreter of the examples, but strict. -/
def strict : MsLib EL :=
  { FM with interp := fun a => if (isP2wpkh a.spk || isP2wsh a.spk || isP2tr a.spk) && !a.scriptSig.isEmpty then some .constructor else FM.interp a }
theorem strict_ok : NoScriptSig strict := by
  intro a hn h
  have : (isP2wpkh a.spk || isP2wsh a.spk || isP2tr a.spk) = true := by
    rcases hn with hn | hn | hn
    · simp [isP2wpkh_iff.mpr hn]
    · simp [isP2wsh_iff.mpr hn]
    · simp [isP2tr_iff.mpr hn]
  unfold strict at h
  simp only [this, Bool.true_and] at h
  cases hs : a.scriptSig with
  | nil => rfl
  | cons x xs => rw [hs] at h; simp at h
def fSeq : Input EL := { fIn with sequence := some 0xFFFFFFFF }
end Examples

/-- C113 fails in PSBT v2: a P2WPKH input that states no sequence number (or one other than the last) is signed, finalized and
extracted, and the transaction is another one than the unsigned transaction. -/
theorem C113_counterexample : ∃ (p q : Psbt EL) (t u : Tx), (∀ i ∈ p.inputs, ∃ u, FundedBy i u ∧ Native u.scriptPubkey) ∧
    Finalizer.finalize strict true p = .ok q ∧ Extractor.extractUnchecked q = .ok t ∧ p.unsignedTx = .ok u ∧
    Countable t ∧ Countable u ∧ (∀ i ∈ t.input, i.scriptSig = []) ∧ ¬ SameBody t u := by
  refine ⟨eP [fIn] [3], fDone (eP [fIn] [3]), ⟨2, 0, [⟨⟨Demo.rep 32 1, 0⟩, [], 0xFFFFFFFF, [fSig.der.bytes, fKey.bytes]⟩], [⟨3, [9]⟩]⟩,
    ⟨2, 0, [⟨⟨Demo.rep 32 1, 0⟩, [], 0, []⟩], [⟨3, [9]⟩]⟩, fun i hi => ?_, by decide +kernel, by decide +kernel, by decide +kernel,
    by unfold Countable; decide, by unfold Countable; decide, by decide, by unfold SameBody; decide⟩
  obtain rfl := List.mem_singleton.mp hi
  exact ⟨_, .witness rfl, .inl ⟨_, rfl⟩⟩

-- The hypotheses can be met: two P2WPKH inputs with the sequence numbers given.
example : Finalizer.finalize strict true (eP [fSeq, fSeq] [3]) =
      .ok (fDone (eP [fSeq, fSeq] [3])) ∧
    (Extractor.extractUnchecked (fDone (eP [fSeq, fSeq] [3]))).isOk = true ∧
    (eP [fSeq, fSeq] [3]).unsignedTx.isOk = true := by decide +kernel
example : ∀ i ∈ (eP [fSeq] [3]).inputs, ∃ u, FundedBy i u ∧ Native u.scriptPubkey := fun i hi => by
  obtain rfl := List.mem_singleton.mp hi
  exact ⟨_, .witness rfl, .inl ⟨_, rfl⟩⟩
-- An extracted transaction with the body of the unsigned one.
example : ∃ t u, Extractor.extractUnchecked (eP [{ eFin (eIn 5) with sequence := some 7 }] [3]) = .ok t ∧
    (eP [{ eFin (eIn 5) with sequence := some 7 }] [3]).unsignedTx = .ok u ∧ SameBody t u ∧ t ≠ u :=
  ⟨⟨2, 0, [⟨⟨Demo.rep 32 1, 0⟩, [], 7, [[1, 2]]⟩], [⟨3, [9]⟩]⟩, ⟨2, 0, [⟨⟨Demo.rep 32 1, 0⟩, [], 7, []⟩], [⟨3, [9]⟩]⟩,
    by decide, by decide, by unfold SameBody; decide, by decide⟩
end V2

namespace V0
open Psbt.Spec.V0
/-- Created, filled in with a P2WPKH output and its signature, finalized. -/
def tkFilled : InputSound zIn := ⟨fun _ _ h => (V2.BMap.get_empty_ne h).elim,
    fun _ _ h => (V2.BMap.get_empty_ne h).elim, fun _ _ h => (V2.BMap.get_empty_ne h).elim, fun _ _ h => (V2.BMap.get_empty_ne h).elim,
    fun _ _ h => (V2.BMap.get_empty_ne h).elim⟩
def tkDone : Psbt gL := match (withInput ho0 0 zIn).finalizeMut V2.strict false with | .ok x => x.1 | .error _ => ho0
example : ∃ q r t, Reachable gS V2.strict uLib ho0 ∧ History gS V2.strict uLib ho0 q ∧
    (∀ (n : Nat) t i u, HasInput q n t i → FundedBy t i u → Native u.scriptPubkey) ∧ Sound q ∧
    q.finalizeMut V2.strict false = .ok (r, []) ∧ r.extract V2.strict = .ok t ∧ t.input.map (fun i => i.witness.length) = [2] := by
  refine ⟨withInput ho0 0 zIn, tkDone, tkDone.extractUnchecked, .created (tx := (gP [zKeyed]).unsignedTx) rfl,
    .step (o := ho0) .refl (.setInput 0 tkFilled), fun n t i u hi hu => ?_, ?_, by decide +kernel, by decide +kernel, by decide +kernel⟩
  · have hm : i ∈ [zIn] := List.mem_of_getElem? hi.2
    obtain rfl := List.mem_singleton.mp hm
    cases hu with
    | witness h => cases h; exact .inl ⟨_, rfl⟩
    | nonWitness h => cases h
  · exact zSound [zIn] (by decide)
-- With a final script sig the transaction is another one.
example : ∃ q, History gS V2.strict uLib ho0 q ∧ Countable q.extractUnchecked ∧ Countable ho0.unsignedTx ∧
    (∃ i ∈ q.inputs, ∃ s, i.finalScriptSig = some s ∧ s ≠ []) :=
  ⟨withInput ho0 0 { zIn with finalScriptSig := some [1] }, .step (o := ho0) .refl (.setInput 0 ⟨tkFilled.1, tkFilled.2, tkFilled.3, tkFilled.4, tkFilled.5⟩),
    by unfold Countable; decide +kernel, by unfold Countable; decide +kernel, _, List.mem_singleton.mpr rfl, _, rfl, by decide⟩
end V0
end Psbt
