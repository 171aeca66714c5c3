/- C108: finalizing. -/
import Verif.Spec.BothVersionsFinalize
import Verif.Props.BothVersionsRoles
import Verif.Props.V0Finalize
import Verif.Props.V2Satisfy
import Verif.Props.V2Finalize
import Verif.Props.BothVersionsCombine
namespace Psbt.Both
open Psbt Psbt.Spec

variable {L : Lib} {M : MsLib L} {p : V0.Psbt L} {q : V2.Psbt L}

private theorem locks_same {n : Nat} {t : TxIn} {i : V0.Input L} {j : V2.Input L} (hi : Spec.V0.HasInput p n t i) (ht : SameTxIn t j)
    (hv : 2 ≤ p.unsignedTx.version.toNat ∧ p.unsignedTx.version.toNat < 2 ^ 31) (hl : SameLock p.unsignedTx.lockTime t j) :
    (p.satisfier M n i).after = (j.satisfier M).after ∧ (p.satisfier M n i).older = (j.satisfier M).older := by
  constructor
  · funext a
    rw [Bool.eq_iff_iff, V0.C65_v0_after hi, V2.C44_after_iff]
    cases a with
    | blocks h =>
      have hh : h.1.toNat < 500000000 := h.2
      cases hl with
      | none h1 h2 h3 => simp [CltvPasses, absOperand, h1, h3]
      | @height m h1 h2 h3 h4 =>
        have hm : m.1.toNat < 500000000 := m.2
        have h4 : t.sequence.toNat ≠ 0xFFFFFFFF := fun e => h4 (UInt32.toNat_inj.mp e)
        simp only [CltvPasses, absOperand, h1, ← h3, Option.some.injEq, exists_eq_left']
        exact ⟨fun g => g.2.1, fun g => ⟨by omega, g, h4⟩⟩
      | @time m h1 h2 h3 h4 =>
        have hm : 500000000 ≤ m.1.toNat := m.2
        simp only [CltvPasses, absOperand, h1, ← h3]
        exact ⟨fun g => by have := g.1; omega, fun g => by simp at g⟩
    | seconds h =>
      have hh : 500000000 ≤ h.1.toNat := h.2
      cases hl with
      | none h1 h2 h3 => simp [CltvPasses, absOperand, h2, h3]
      | @height m h1 h2 h3 h4 =>
        have hm : m.1.toNat < 500000000 := m.2
        simp only [CltvPasses, absOperand, h2, ← h3]
        exact ⟨fun g => by have := g.1; omega, fun g => by simp at g⟩
      | @time m h1 h2 h3 h4 =>
        have hm : 500000000 ≤ m.1.toNat := m.2
        have h4 : t.sequence.toNat ≠ 0xFFFFFFFF := fun e => h4 (UInt32.toNat_inj.mp e)
        simp only [CltvPasses, absOperand, h2, ← h3, Option.some.injEq, exists_eq_left']
        exact ⟨fun g => g.2.1, fun g => ⟨by omega, g, h4⟩⟩
  · funext r
    rw [Bool.eq_iff_iff, V0.C65_v0_older hi, V2.C44_older_iff]
    constructor
    · rintro ⟨⟨h1, h2, h3, h4⟩, -⟩
      rcases ht.sequence with e | ⟨e, e'⟩
      · exact ⟨_, e, by decide, h2, h3, h4⟩
      · rw [e'] at h2
        exact absurd h2 (by decide)
    · rintro ⟨s, hs, h1, h2, h3, h4⟩
      rcases ht.sequence with e | ⟨e, e'⟩
      · cases e.symm.trans hs
        exact ⟨⟨hv.1, h2, h3, h4⟩, hv.2⟩
      · rw [e] at hs
        cases hs

private theorem satisfier_same {n : Nat} {t : TxIn} {i : V0.Input L} {j : V2.Input L} (hi : Spec.V0.HasInput p n t i) (ht : SameTxIn t j)
    (hr : SameInputRecords i j) (hk : i.tapKeySig = j.tapKeySig) (hs : i.tapScriptSigs = j.tapScriptSigs)
    (hv : 2 ≤ p.unsignedTx.version.toNat ∧ p.unsignedTx.version.toNat < 2 ^ 31) (hl : SameLock p.unsignedTx.lockTime t j) :
    p.satisfier M n i = j.satisfier M := by
  obtain ⟨h1, h2⟩ := locks_same (M := M) hi ht hv hl
  have e : ∀ a b : Satisfier L, a.after = b.after → a.older = b.older → { a with after := b.after, older := b.older } = b → a = b := by
    rintro ⟨⟩ ⟨⟩ h1 h2 h
    simp only at h1 h2 h
    subst h1 h2
    exact h
  refine e _ _ h1 h2 ?_
  simp only [V0.Psbt.satisfier, V2.Input.satisfier, hk, hs, hr.bip32, hr.tapScripts, hr.partialSigs, hr.hash160, hr.sha256, hr.hash256,
    hr.ripemd160]

private theorem keys_same (h : SameButTapSigs p q) : Spec.V0.derivationKeys p = Spec.derivationKeys q := by
  unfold Spec.V0.derivationKeys Spec.derivationKeys
  rw [List.flatMap_def, List.flatMap_def]
  congr 1
  exact pointwise_map (fun a b e => by rw [e.bip32]) h.inputs

private theorem tap_same (h : SamePsbt p q) {n : Nat} {i : V0.Input L} {j : V2.Input L} (hi : p.inputs[n]? = some i) (hj : q.inputs[n]? = some j) :
    i.tapKeySig = j.tapKeySig ∧ i.tapScriptSigs = j.tapScriptSigs := by
  have a := congrArg (fun l => l[n]?) h.tapKeySig
  have b := congrArg (fun l => l[n]?) h.tapScriptSigs
  simp only [List.getElem?_map, hi, hj, Option.map_some, Option.some.injEq] at a b
  exact ⟨a, b⟩

/-- C108, partially: for an input that asks for the same lock times in both versions, whose key hashes stand for keys it lists itself,
and about whose output something is known, the two finalizers make the same scripts or give the same reason why there are none. -/
theorem C108_scripts_partial (h : SamePsbt p q) {n : Nat} {t : TxIn} {j : V2.Input L} (ht : p.unsignedTx.input[n]? = some t)
    (hj : q.inputs[n]? = some j) (hc : Spec.V0.SelfContained M p n)
    (hv : 2 ≤ p.unsignedTx.version.toNat ∧ p.unsignedTx.version.toNat < 2 ^ 31) (hl : SameLock p.unsignedTx.lockTime t j)
    (hu : j.witnessUtxo ≠ none ∨ j.nonWitnessUtxo ≠ none)
    (r : Except (MsInputErr L) (Bytes × List Bytes)) (hs : Spec.V0.Scripts M p n true r) : Spec.Scripts M q j r := by
  have key : ∀ {t' i}, Spec.V0.HasInput p n t' i → t' = t ∧ SameTxIn t j ∧ SameInputRecords i j ∧ p.satisfier M n i = j.satisfier M := by
    intro t' i hi
    cases hi.1.symm.trans ht
    have h1 := h.txIn.2 n _ _ ht hj
    have h2 := h.inputs.2 n _ _ hi.2 hj
    obtain ⟨h3, h4⟩ := tap_same h hi.2 hj
    exact ⟨rfl, h1, h2, satisfier_same hi h1 h2 h3 h4 hv hl⟩
  have tap : ∀ {t' i u r}, Spec.V0.HasInput p n t' i → Spec.V0.FundedBy t' i u → P2tr u.scriptPubkey →
      TapResult M true (tapHashMap (Spec.V0.originKeys p)) (p.satisfier M n i) r →
      TapResult M true (tapHashMap (j.tapKeyOrigins.l.map Prod.fst)) (j.satisfier M) r := by
    intro t' i u r hi hu htr hr
    obtain ⟨rfl, -, h2, h3⟩ := key hi
    rw [← h2.tapKeyOrigins, ← h3]
    rw [← constructTap_iff htr] at hr ⊢
    rw [← hr]
    unfold constructTapWitness
    have hl : ∀ (cb : L.ctrl.T) s ver ms, (cb, s, ver) ∈ (p.satisfier M n i).tapControlBlocks.l → M.tapParse s = some ms →
        M.tapSubstitute (tapHashMap (i.tapKeyOrigins.l.map Prod.fst)) ms = M.tapSubstitute (tapHashMap (Spec.V0.originKeys p)) ms :=
      fun cb s ver ms h1 h2 => ((hc _ i u hi hu).2 _ cb s ver ms (V0.mem_originKeys hi.2) h1 h2).symm
    rw [V0.tapLoop_congr hl]
  cases hs with
  | @unfunded _ i hi hn =>
    obtain ⟨-, -, h2, -⟩ := key hi
    rcases hu with hu | hu
    · exact absurd (h2.witnessUtxo.symm.trans hn.1) hu
    · exact absurd (h2.nonWitnessUtxo.symm.trans hn.2) hu
  | tap hi hf h1 h2 =>
    obtain ⟨rfl, g1, g2, g3⟩ := key hi
    exact .tap ((funded_same g1 g2 _).mp hf) h1 (tap hi hf h1 h2)
  | tapFails hi hf h1 h2 =>
    obtain ⟨rfl, g1, g2, g3⟩ := key hi
    exact .tapFails ((funded_same g1 g2 _).mp hf) h1 (tap hi hf h1 h2)
  | other hi hf h1 h2 h3 =>
    obtain ⟨rfl, g1, g2, g3⟩ := key hi
    rw [keys_same h.toSameButTapSigs, g2.partialSigs, g2.redeemScript, g2.witnessScript] at h2
    exact .other ((funded_same g1 g2 _).mp hf) h1 h2 (by rw [← g3]; exact h3)
  | otherFails hi hf h1 h2 =>
    obtain ⟨rfl, g1, g2, g3⟩ := key hi
    rw [keys_same h.toSameButTapSigs, g2.partialSigs, g2.redeemScript, g2.witnessScript] at h2
    exact .otherFails ((funded_same g1 g2 _).mp hf) h1 h2
  | unsatisfied hi hf h1 h2 h3 =>
    obtain ⟨rfl, g1, g2, g3⟩ := key hi
    rw [keys_same h.toSameButTapSigs, g2.partialSigs, g2.redeemScript, g2.witnessScript] at h2
    exact .unsatisfied ((funded_same g1 g2 _).mp hf) h1 h2 (by rw [← g3]; exact h3)

/-- C108, partially: if every input asks for the same lock times in both versions and its key hashes stand for keys it lists itself, and
finalizing works in both versions (in v0 with malleable satisfactions allowed, as they always are in v2), then all inputs get the same
script sigs and witnesses. -/
theorem C108_finalize_partial (h : SamePsbt p q) (hp : Spec.V0.Sound p) (hc : ∀ n, Spec.V0.SelfContained M p n)
    (hv : 2 ≤ p.unsignedTx.version.toNat ∧ p.unsignedTx.version.toNat < 2 ^ 31)
    (hl : Pointwise (SameLock p.unsignedTx.lockTime) p.unsignedTx.input q.inputs) {p' : V0.Psbt L} {q' : V2.Psbt L} {debug : Bool}
    (h0 : p.finalizeMut M true = .ok (p', [])) (h2 : V2.Finalizer.finalize M debug q = .ok q') :
    Pointwise SameFinal p'.inputs q'.inputs := by
  have ok := V0.C67_ok hp h0
  obtain ⟨-, hlen, -⟩ := V0.C67_effect hp h0
  obtain ⟨rs, he, hrs, hres⟩ := V0.C67_independent_partial hp hc h0
  have hf : ∀ j ∈ q.inputs, ∃ u, Spec.FundedBy j u := by
    intro j hj
    obtain ⟨n, hn⟩ := List.getElem?_of_mem hj
    obtain ⟨i, hi, hr⟩ := pointwise_some' h.inputs hn
    obtain ⟨s, w, -, t, i', u, us, g1, g2, -⟩ := ok n i hi
    cases g1.2.symm.trans hi
    exact ⟨u, (funded_same (h.txIn.2 n _ _ g1.1 hn) hr u).mp g2⟩
  obtain ⟨-, -, k1, k2, k3, -⟩ := (V2.C41_finalize_iff hf debug q').mp h2
  refine ⟨by rw [hlen, k1]; exact h.inputs.1, fun n i' j' hi' hj' => ?_⟩
  have hn := (List.getElem?_eq_some_iff.mp hi').1
  obtain ⟨i, hi⟩ : ∃ i, p.inputs[n]? = some i := ⟨_, List.getElem?_eq_getElem (by omega)⟩
  obtain ⟨r, hr⟩ : ∃ r, rs[n]? = some r := ⟨_, List.getElem?_eq_getElem (by omega)⟩
  obtain ⟨j, hj, hij⟩ := pointwise_some h.inputs hi
  obtain ⟨t, ht, -⟩ := pointwise_some' h.txIn hj
  obtain ⟨m1, m2⟩ := hres n i r hi hr
  obtain ⟨x, rfl⟩ := V0.errors_nil.mp he.symm r (List.mem_of_getElem? hr)
  cases m2.symm.trans hi'
  have hw := k3 j (List.mem_of_getElem? hj)
  cases m1 with
  | @done i2 s w a1 a2 a3 =>
    cases a1.symm.trans hi
    have b1 := C108_scripts_partial h ht hj (hc n) hv (hl.2 n _ _ ht hj) (.inl hw) _ a2
    have b2 := k2 n j j' hj hj'
    cases b2 with
    | segwit c1 c2 c3 =>
      cases V2.scripts_unique b1 c1
      refine ⟨?_, ?_, hij.nonWitnessUtxo, hij.witnessUtxo⟩
      · simp only [Spec.V0.chosen, Spec.V0.onlyFinal, Spec.onlyFinal]
        split <;> simp_all
      · simp [Spec.V0.chosen, Spec.V0.onlyFinal, Spec.onlyFinal, c3]
    | legacy c1 c2 => exact absurd c2 hw

section Examples
/-- Scripts in which there are no key hashes. -/
def wM : MsLib V2.EL := { V2.FM with substitute := fun _ b => b, tapSubstitute := fun _ b => b }
/-- An input that spends a script, requires a height and has a sequence number. -/
def wIn (ws : Bytes) (h : Option Height) (s : Option UInt32) : V2.Input V2.EL := { V2.fWsh ws with minHeight := h, sequence := s }
/-- A v2 PSBT with these inputs and a fallback lock time. -/
def wQ (is : List (V2.Input V2.EL)) (l : Option UInt32) : V2.Psbt V2.EL :=
  { V2.eP is [3] with global := { V2.Global.new V2.EL with inputCount := is.length.toUInt64, fallbackLockTime := l } }
def w100 : Height := ⟨100, by decide⟩
/-- The scripts `[1]` and `[2]` ask for height 100 and for 10 blocks. -/
def wQ1 : V2.Psbt V2.EL := wQ [wIn [1] (some w100) (some 0), wIn [2] (some w100) (some 10)] none
def wP1 : V0.Psbt V2.EL := down wQ1 100
end Examples

-- The hypotheses of the theorems are met: two scripts with timelocks.
example : SamePsbt wP1 wQ1 ∧ Spec.V0.Sound wP1 ∧ (∀ n, Spec.V0.SelfContained wM wP1 n) ∧
    (2 ≤ wP1.unsignedTx.version.toNat ∧ wP1.unsignedTx.version.toNat < 2 ^ 31) ∧
    Pointwise (SameLock wP1.unsignedTx.lockTime) wP1.unsignedTx.input wQ1.inputs ∧
    ∃ p' q', wP1.finalizeMut wM true = .ok (p', []) ∧ V2.Finalizer.finalize wM true wQ1 = .ok q' ∧
      p'.inputs.map V0.Input.finalScriptWitness = [some [[1]], some [[2]]] := by
  refine ⟨down_same rfl rfl ((V2.C17_lock_time_iff _ _).mp (by decide +kernel)), ⟨rfl, V0.indicesInRange_iff.mpr fun n t i hi hd => ?_⟩,
    fun n t i u _ _ => ⟨fun _ _ _ _ _ _ _ => rfl, fun _ _ _ _ _ _ _ _ => rfl⟩, by decide +kernel, ⟨rfl, fun n t j ht hj => ?_⟩,
    _, _, rfl, rfl, by decide +kernel⟩
  · obtain ⟨tx, h1, h2, -⟩ := hd
    have : ∀ i ∈ wP1.inputs, i.witnessUtxo ≠ none := by decide +kernel
    exact absurd h1 (this i (List.mem_of_getElem? hi.2))
  · match n with
    | 0 => cases ht; cases hj; exact .height rfl rfl rfl (by decide)
    | 1 => cases ht; cases hj; exact .height rfl rfl rfl (by decide)
    | n + 2 => cases hj

/-- C108 fails for finalizing. If the lock time of the transaction is the fallback lock time, the v0 finalizer uses it to satisfy a
timelock and the v2 finalizer does not; if an input requires a lock time but its sequence number disables lock times, the v2 finalizer
uses it and the v0 finalizer does not. -/
theorem C108_finalize_counterexample :
    (∃ (p : V0.Psbt V2.EL) (q : V2.Psbt V2.EL), SamePsbt p q ∧ (∃ p', p.finalizeMut V2.FM true = .ok (p', [])) ∧
      ∃ e, V2.Finalizer.finalize V2.FM true q = .error (.err e)) ∧
    (∃ (p : V0.Psbt V2.EL) (q : V2.Psbt V2.EL), SamePsbt p q ∧ p.finalizeMut V2.FM true = .ok (p, [.input .miniscript 0]) ∧
      ∃ q', V2.Finalizer.finalize V2.FM true q = .ok q') :=
  ⟨⟨down (wQ [wIn [1] none (some 0)] (some 100)) 100, wQ [wIn [1] none (some 0)] (some 100),
      down_same rfl rfl ((V2.C17_lock_time_iff _ _).mp (by decide +kernel)), ⟨_, rfl⟩, ⟨_, rfl⟩⟩,
    ⟨down (wQ [wIn [1] (some w100) none] none) 100, wQ [wIn [1] (some w100) none] none,
      down_same rfl rfl ((V2.C17_lock_time_iff _ _).mp (by decide +kernel)), by decide +kernel, ⟨_, rfl⟩⟩⟩

end Psbt.Both
