/- C100: signing again with the same keys changes nothing. -/
import Verif.Props.V2Parallel
import Verif.Props.V0Parallel
namespace Psbt

variable {L : Lib}

/-- The same functions, but Schnorr signatures come out differently: libsecp256k1 adds fresh randomness to each of them. -/
def SigLib.reseed (S : SigLib L) (f : Hash32 → S.Keypair → FixedBytes 64) : SigLib L := { S with signSchnorr := f }

theorem addSigs_reseed {S : SigLib L} {f : Hash32 → S.Keypair → FixedBytes 64} {m : Hash32} {ty : EcdsaTy} {keys keys' : List S.SK}
    (h : keys = keys') (b : BMap L.pubkey.T (EcdsaSig L)) :
    Spec.addSigs (S.reseed f) m ty keys b = Spec.addSigs S m ty keys' b := by
  subst h
  induction keys generalizing b with
  | nil => rfl
  | cons sk sks ih => exact ih _

theorem V0.keysFor_reseed {S : SigLib L} {f : Hash32 → S.Keypair → FixedBytes 64} (k : Provider S) (i : V0.Input L) :
    Spec.V0.keysFor (S.reseed f) k i = Spec.V0.keysFor S k i := rfl

/-- C100. PSBT v2: whoever signs a second time, with the same keys, gets the same PSBT and the same report. -/
theorem C100_v2 {S : SigLib L} {p q : V2.Psbt L} {tx : Tx} {k : Provider S} {r} (h : p.sign S tx k = .ok (q, r)) :
    q.sign S tx k = .ok (q, r) := by
  obtain ⟨q', h'⟩ := V2.C77_report h h
  rw [h']
  have he := V2.C33_frame h
  have he' := V2.C33_frame h'
  congr 2
  refine V2.psbt_ext he' (V2.flags_again h h') (List.ext_getElem? fun n => ?_)
  have h1 := V2.sign_input h n
  have h2 := V2.sign_input h' n
  cases hi : p.inputs[n]? with
  | none => rw [hi] at h1; rw [h1] at h2; rw [h2, h1]; rfl
  | some i =>
    rw [hi] at h1
    simp only [Option.map_some] at h1
    rw [h1] at h2
    rw [h2, h1, V2.count_congr he, V2.outcome_congr he]
    simp only [Option.map_some]
    split
    · simp only [Option.some.injEq]
      congr 1
      refine BMap.ext_get fun pk => ?_
      rw [V2.sigs_get, V2.sigs_get _ i.partialSigs]
      cases ((V2.outcome S k tx p n).sigs .empty).get pk <;> rfl
    · rfl

/-- C100, for the role: a signer that succeeded can be run again on its result. -/
theorem C100_v2_signer {S : SigLib L} {p q : V2.Psbt L} {k : Provider S} {used} (h : V2.Signer.sign S p k = .ok (q, used)) :
    V2.Signer.sign S q k = .ok (q, used) := by
  obtain ⟨tx, h1, h2⟩ := V2.signer_sign_iff.mp h
  exact V2.signer_sign_iff.mpr ⟨tx, by rw [(V2.C33_same_transaction h2).1]; exact h1, C100_v2 h2⟩

/-- C100. PSBT v0: the same, with the same errors; Schnorr signatures stay although new ones would be different. (The keys
reported for taproot inputs are those that signed this time, so none the second time.) -/
theorem C100_v0 {S : SigLib L} {p q : V0.Psbt L} {k : Provider S} {r} (h : p.sign S k = .ok (q, r))
    (f : Hash32 → S.Keypair → FixedBytes 64) :
    (∃ r', q.sign S k = .ok (q, r') ∧ Spec.V0.errorsReported r' = Spec.V0.errorsReported r) ∧
    (∃ r', q.sign (S.reseed f) k = .ok (q, r')) := by
  have he := V0.C50_frame h
  have key : ∀ f, ∃ r', q.sign (S.reseed f) k = .ok (q, r') := by
    intro f
    have hrun : ∃ q' r', q.sign (S.reseed f) k = .ok (q', r') := by
      cases e : q.sign (S.reseed f) k with
      | ok x => exact ⟨x.1, x.2, rfl⟩
      | error x =>
        cases x with
        | err x => exact x.elim
        | panic s =>
          exact absurd (V0.inRange_congr he (V0.sign_inRange h)) ((V0.C50_panics_iff (S := S.reseed f) q k).mp ⟨s, e⟩)
    obtain ⟨q', r', h'⟩ := hrun
    refine ⟨r', ?_⟩
    rw [h']
    congr 2
    have he' := V0.C50_frame h'
    refine V0.psbt_ext he' (List.ext_getElem? fun n => ?_)
    cases hi : p.inputs[n]? with
    | none => rw [V0.input_none (he'.trans he) hi, V0.input_none he hi]
    | some i =>
      obtain ⟨j, hj, a⟩ := V0.sign_input h hi
      obtain ⟨j', hj', a'⟩ := V0.sign_input h' hj
      rw [hj, hj']
      congr 1
      refine V0.Adds.unique a' ⟨fun pk => ?_, ?_, fun x lh => ?_, rfl⟩
      · have e : V0.freshE (S.reseed f) k q n pk = V0.freshE S k p n pk := by
          rw [V0.freshE_congr (S := S.reseed f) (k := k) he]
          unfold V0.freshE
          rw [hi]
          simp only
          split
          · rename_i m ty _ _
            exact congrArg (fun b : BMap L.pubkey.T (EcdsaSig L) => b.get pk)
              (addSigs_reseed (S := S) (f := f) (V0.keysFor_reseed k i) .empty)
          · rfl
        rw [e, a.ecdsa]
        cases V0.freshE S k p n pk <;> rfl
      · rw [a.key, V0.freshK_congr (S := S.reseed f) (k := k) he]
        cases hk : V0.freshK S k p n with
        | some s => cases i.tapKeySig <;> rfl
        | none =>
          have : V0.freshK (S.reseed f) k p n = none := by
            unfold V0.freshK at hk ⊢
            rw [hi] at hk ⊢
            simp only at hk ⊢
            cases e : p.sighashTaproot n p.unsignedTx none with
            | error _ => rfl
            | ok x =>
              rw [e] at hk
              simp only [Option.map_eq_none_iff] at hk ⊢
              exact hk
          rw [this]; simp
      · rw [a.leaf, V0.freshF_congr (S := S.reseed f) (k := k) he]
        cases hk : V0.freshF S k p n x lh with
        | some s => cases i.tapScriptSigs.get (x, lh) <;> rfl
        | none =>
          have : V0.freshF (S.reseed f) k p n x lh = none := by
            unfold V0.freshF at hk ⊢
            rw [hi] at hk ⊢
            simp only at hk ⊢
            cases e : p.sighashTaproot n p.unsignedTx (some lh) with
            | error _ => rfl
            | ok x =>
              rw [e] at hk
              simp only [Option.map_eq_none_iff] at hk ⊢
              exact hk
          rw [this]; simp
  refine ⟨?_, key f⟩
  obtain ⟨r', h1⟩ := key S.signSchnorr
  have h1 : q.sign S k = .ok (q, r') := h1
  obtain ⟨ab, r'', h2, h3⟩ := V0.C79_report h h
  rw [h1] at h2
  cases h2
  exact ⟨r', h1, h3⟩

-- The hypotheses are met by PSBTs of which some inputs get signatures, ECDSA and Schnorr, and some fail.
example : V2.sQ.sign V2.SS (V2.sTx V2.sMixed) V2.sKeys = .ok (V2.sQ, .error (V2.sUsed, V2.sErrs)) := C100_v2 V2.sRun
example : V2.sQ ≠ V2.sMixed ∧ ∃ q u, V2.Signer.sign V2.SS V2.paP V2.sKeys = .ok (q, u) ∧ q ≠ V2.paP := by
  refine ⟨by decide +kernel, _, _, rfl, by decide +kernel⟩
example : V0.gMixed.sign V0.gS V0.gKeys = .ok (V0.gQ V0.gMixed, V0.gR V0.gMixed) ∧ V0.gQ V0.gMixed ≠ V0.gMixed :=
  ⟨rfl, by decide +kernel⟩
-- A second run of taproot signing signs nothing, and reports the keys accordingly.
example : V0.gQ (V0.gQ V0.gMixed) = V0.gQ V0.gMixed ∧ (Spec.V0.keysReported (V0.gR (V0.gQ V0.gMixed))).l =
    [(0, .ecdsa [Demo.val 33 (by decide) 2]), (1, .schnorr [])] := by decide +kernel

end Psbt
