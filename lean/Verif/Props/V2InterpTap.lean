/- C85 for taproot: messages checked in one transaction and extracted in another. -/
import Verif.Props.V2Interp
import Verif.Props.V0Taproot
import Verif.Lemmas.V0Finalize
namespace Psbt.V2
open Psbt

variable {L : Lib} {M : MsLib L}

/-- A PSBT v0 for a transaction and the outputs it spends. -/
def tapHost (L : Lib) (tx : Tx) (us : List TxOut) (ty : TapTy) : V0.Psbt L where
  unsignedTx := tx
  version := 0
  xpub := .empty
  proprietary := .empty
  unknown := .empty
  inputs := us.map fun u => { V0.Input.default L with witnessUtxo := some u, sighashType := some ty.1.toUInt32 }
  outputs := []

theorem host_funded {tx : Tx} {us : List TxOut} {ty : TapTy} {n : Nat} {t : TxIn} {i : V0.Input L} {u : TxOut}
    (h : Spec.V0.HasInput (tapHost L tx us ty) n t i) (hu : Spec.V0.FundedBy t i u) : us[n]? = some u := by
  obtain ⟨-, h⟩ := h
  simp only [tapHost, List.getElem?_map] at h
  cases hn : us[n]? with
  | none => rw [hn] at h; cases h
  | some v =>
    rw [hn] at h
    cases h
    cases hu with
    | witness h => exact h
    | nonWitness h => cases h

theorem host_funding {tx : Tx} {us : List TxOut} (ty : TapTy) (hl : us.length = tx.input.length) :
    Spec.V0.Funding (tapHost L tx us ty).unsignedTx.input (tapHost L tx us ty).inputs us := by
  refine V0.funding_iff.mpr ⟨hl.symm, by simp [tapHost], fun n u hu => ?_⟩
  have hn : n < tx.input.length := by rw [← hl]; exact (List.getElem?_eq_some_iff.mp hu).1
  exact ⟨_, _, List.getElem?_eq_getElem hn, by simp only [tapHost, List.getElem?_map, hu]; rfl, .witness rfl⟩

theorem host_signs {tx : Tx} {us : List TxOut} {n : Nat} {u : TxOut} {leaf : Option Hash32} {ty : TapTy} {m : Hash32}
    (hu : us[n]? = some u) (hp : Spec.P2tr u.scriptPubkey) (h : tapSighash L tx n (.all us) leaf ty = .ok m) :
    us.length = tx.input.length ∧ Spec.V0.TapSigns (tapHost L tx us ty) n leaf m ty := by
  have hl : us.length = tx.input.length := by
    unfold tapSighash tapPreimage at h
    rw [bind_ok] at h
    obtain ⟨_, h, -⟩ := h
    by_cases hl : us.length = tx.input.length
    · exact hl
    · simp [hl] at h
  refine ⟨hl, ?_⟩
  have hn : n < tx.input.length := by rw [← hl]; exact (List.getElem?_eq_some_iff.mp hu).1
  refine ⟨_, _, u, ⟨List.getElem?_eq_getElem hn, by simp only [tapHost, List.getElem?_map, hu]; rfl⟩, .witness rfl, hp, .inr rfl, ?_⟩
  rcases V0.tapTy_cases ty with e | e | e | e | e | e | e
  · exact .inr ⟨by simp [e], us, host_funding ty hl, h⟩
  · exact .inr ⟨by simp [e], us, host_funding ty hl, h⟩
  · exact .inr ⟨by simp [e], us, host_funding ty hl, h⟩
  · exact .inr ⟨by simp [e], us, host_funding ty hl, h⟩
  all_goals
    refine .inl ⟨by simp [e], ?_⟩
    have hx : tapSighash L tx n (.one n u) leaf ty = tapSighash L tx n (.all us) leaf ty := by
      unfold tapSighash tapPreimage
      have ha : (TapTy.split ty).2 = true := by simp [TapTy.split, e]
      simp only [tapInputsPart, tapInputPart, ha, Prevouts.get, hu, hl]
      simp
    simp only [tapHost]
    rw [hx]; exact h

theorem host_strings {tx : Tx} {us : List TxOut} {n : Nat} {u : TxOut} {leaf : Option Hash32} {ty : TapTy} {xs : List Bytes}
    (hl : us.length = tx.input.length) (hu : us[n]? = some u) (h : Spec.V0.TapHashed (tapHost L tx us ty) n leaf ty xs) :
    xs = Spec.tapStrings L tx us n u leaf ty := by
  unfold Spec.tapStrings
  rcases h with ⟨ha, t, i, v, h1, h2, h3⟩ | ⟨ha, t, i, v, vs, h1, h2, hv, h3⟩
  · rw [if_pos ha]
    have := host_funded h1 h2
    rw [hu] at this; cases this
    exact h3
  · rw [if_neg (by rcases ha with h | h | h | h <;> rw [h] <;> decide)]
    have := host_funded h1 h2
    rw [hu] at this; cases this
    cases V0.funding_unique hv (host_funding ty hl)
    exact h3

/-- … and the same for taproot, whether by key or by script: no input of the extracted transaction has a message that was
checked, whatever outputs are thought to be spent. -/
theorem C85_taproot_counterexample {p q : Psbt L} {debug : Bool} (hn : Finalizer.new p = .ok p) (hf : Finalizer.finalize M debug p = .ok q) {t : Tx}
    (ht : Extractor.extractUnchecked q = .ok t) (hs : t.Small) (hs' : (Spec.checkedTx p).Small) {n n' : Nat} (hi : n < 2 ^ 32) (hi' : n' < 2 ^ 32)
    {us us' : List TxOut} (hus : ∀ u ∈ us, u.scriptPubkey.length < 2 ^ 64) (hus' : ∀ u ∈ us', u.scriptPubkey.length < 2 ^ 64) {u u' : TxOut}
    (hu : us[n]? = some u) (hu' : us'[n']? = some u') (hp : Spec.P2tr u.scriptPubkey) (hp' : Spec.P2tr u'.scriptPubkey)
    {leaf leaf' : Option Hash32} {ty ty' : TapTy} {m : Hash32} (h : tapSighash L t n (.all us) leaf ty = .ok m)
    (h' : tapSighash L (Spec.checkedTx p) n' (.all us') leaf' ty' = .ok m) :
    Spec.Collides L.sha256 (Spec.tapStrings L t us n u leaf ty) (Spec.tapStrings L (Spec.checkedTx p) us' n' u' leaf' ty') := by
  obtain ⟨hl, h1⟩ := host_signs hu hp h
  obtain ⟨hl', h1'⟩ := host_signs hu' hp' h'
  have small : ∀ {tx : Tx} {us : List TxOut} {ty : TapTy}, (∀ u ∈ us, u.scriptPubkey.length < 2 ^ 64) → Spec.V0.SmallUtxos (tapHost L tx us ty) :=
    fun hus k t i u a b => hus u (List.mem_of_getElem? (host_funded a b))
  rcases V0.C62_commits (p := tapHost L t us ty) (p' := tapHost L (Spec.checkedTx p) us' ty') hs hs' (small hus) (small hus') hi hi' h1 h1' with
    ⟨xs, ys, hx, hy, hc⟩ | ⟨-, -, -, -, ⟨a, i, v, b, j, h2, -, h3, -, -, h4⟩, -⟩
  · rw [← host_strings hl hu hx, ← host_strings hl' hu' hy]; exact hc
  · have e1 := (C83_final_lock_time hn hf ht).2 a (List.mem_of_getElem? h2.1)
    have h3 := h3.1
    have e2 : b.sequence = 0 := by
      simp only [tapHost] at h3
      unfold Spec.checkedTx at h3
      rw [List.getElem?_map] at h3
      cases hi : p.inputs[n']? with
      | none => rw [hi] at h3; cases h3
      | some i => rw [hi] at h3; cases h3; rfl
    rw [e1, e2] at h4
    exact absurd h4 (by decide)

section Examples
-- A transaction finalized and extracted; both have taproot messages for their input, of any type.
def inTrUtxo : TxOut := ⟨5, [0x51, 0x20] ++ List.replicate 32 7⟩
example : Finalizer.new (eP [fIn] [3]) = .ok (eP [fIn] [3]) ∧ Finalizer.finalize FM true (eP [fIn] [3]) = .ok (fDone (eP [fIn] [3])) ∧
    Extractor.extractUnchecked (fDone (eP [fIn] [3])) = .ok inTx ∧
    (tapSighash EL inTx 0 (.all [inTrUtxo]) none ⟨0x83, by decide⟩).isOk = true ∧
    (tapSighash EL (Spec.checkedTx (eP [fIn] [3])) 0 (.all [inTrUtxo]) none ⟨0, by decide⟩).isOk = true := by decide +kernel
example : Spec.P2tr inTrUtxo.scriptPubkey := ⟨⟨List.replicate 32 7, by decide⟩, rfl⟩
end Examples

end Psbt.V2
