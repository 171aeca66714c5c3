/- C118: what combining complains about is so. -/
import Verif.Lemmas.CombineTold
import Verif.Props.Retry
namespace Psbt.V2
open Psbt Psbt.Spec

variable {L : Lib}

/-- C118. Global maps: which error is given when. -/
theorem C118_global (a b : Global L) (e : GlobalCombErr L) : a.combine b = .error (.err e) ↔ GlobalFault a b e := by
  unfold Global.combine
  by_cases h1 : a.version = b.version
  case neg =>
    rw [if_pos h1]
    constructor
    · intro h; cases h; exact .version h1
    · intro h
      cases h with
      | version _ => rfl
      | txVersion h _ => exact absurd h h1
      | keySources h _ _ _ => exact absurd h h1
  rw [if_neg (by simpa using h1)]
  by_cases h2 : a.txVersion = b.txVersion
  case neg =>
    rw [if_pos h2]
    constructor
    · intro h; cases h; exact .txVersion h1 h2
    · intro h
      cases h with
      | version h => exact absurd h1 h
      | txVersion _ _ => rfl
      | keySources _ h _ _ => exact absurd h h2
  rw [if_neg (by simpa using h2)]
  have hm : (mergeXpubs a.xpubs b.xpubs.l >>= fun xpubs => Except.ok
      { a with
        xpubs := xpubs
        spEcdhShares := a.spEcdhShares.extend b.spEcdhShares
        spDleqProofs := a.spDleqProofs.extend b.spDleqProofs
        proprietaries := a.proprietaries.extend b.proprietaries
        unknowns := a.unknowns.extend b.unknowns }) = Except.error (.err e) ↔
      mergeXpubs a.xpubs b.xpubs.l = .error (.err e) := by
    cases mergeXpubs a.xpubs b.xpubs.l with
    | ok r => simp
    | error f => simp
  rw [hm, mergeXpubs_clash]
  constructor
  · rintro ⟨x, s, t, hc, he⟩
    unfold clashEnd at he
    split at he
    · cases he
    · rename_i hl
      cases he
      exact .keySources h1 h2 hc (by omega)
  · intro h
    cases h with
    | version h => exact absurd h1 h
    | txVersion _ h => exact absurd h2 h
    | keySources _ _ hc hl => exact ⟨_, _, _, hc, by rw [clashEnd, if_neg (by omega)]⟩

/-- C118. The same in place. -/
theorem C118_global_in_place (a b : Global L) (e : GlobalCombErr L) :
    (∃ c, a.combineMut b = (c, .error (.err e))) ↔ GlobalFault a b e := by
  rw [← C118_global, (C110_global_in_place a b).2]
  exact ⟨fun ⟨c, h⟩ => by rw [h], fun h => ⟨_, Prod.ext rfl h⟩⟩

/-- C118. PSBTs v2: which error is given when. -/
theorem C118_combine (p q : Psbt L) (e : CombErr L) : p.combine q = .error (.err e) ↔ CombineFault p q e := by
  have hfit : (∃ g, p.global.combine q.global = .ok g) ↔ GlobalsFit p.global q.global := by
    constructor
    · rintro ⟨g, h⟩
      obtain ⟨h1, h2, h3, -⟩ := globalCombine_ok.mp h
      refine ⟨h1, h2, ?_⟩
      rintro x s t ⟨g1, g2, g3⟩
      have := h3 x
      rw [g1, g2] at this
      simp only [mergeOpt, ksMerge_none.mpr g3] at this
      cases this
    · rintro ⟨h1, h2, h3⟩
      obtain ⟨m, hm⟩ := mergeXpubs_ok_iff.mpr h3
      exact ⟨{ p.global with
        xpubs := m
        spEcdhShares := p.global.spEcdhShares.extend q.global.spEcdhShares
        spDleqProofs := p.global.spDleqProofs.extend q.global.spDleqProofs
        proprietaries := p.global.proprietaries.extend q.global.proprietaries
        unknowns := p.global.unknowns.extend q.global.unknowns },
        globalCombine_ok.mpr ⟨h1, h2, (mergeXpubs_ok q.global.xpubs.sorted).mp hm, rfl⟩⟩
  unfold Psbt.combine
  cases hg : p.global.combine q.global with
  | error f =>
    have hno : ¬ GlobalsFit p.global q.global := fun h => by obtain ⟨g, h⟩ := hfit.mpr h; rw [hg] at h; cases h
    cases f with
    | panic s =>
      constructor
      · intro h; cases h
      · intro h
        cases h with
        | global h => rw [← C118_global, hg] at h; cases h
        | txid h _ _ => exact absurd h hno
        | vout h _ _ _ => exact absurd h hno
        | amount h _ _ _ => exact absurd h hno
        | script h _ _ _ _ => exact absurd h hno
    | err f =>
      constructor
      · intro h; cases h; exact .global ((C118_global _ _ _).mp hg)
      · intro h
        cases h with
        | global h => rw [← C118_global, hg] at h; cases h; rfl
        | txid h _ _ => exact absurd h hno
        | vout h _ _ _ => exact absurd h hno
        | amount h _ _ _ => exact absurd h hno
        | script h _ _ _ _ => exact absurd h hno
  | ok g =>
    have hyes : GlobalsFit p.global q.global := hfit.mp ⟨g, hg⟩
    have hng : ∀ e', ¬ GlobalFault p.global q.global e' := fun e' h => by rw [← C118_global, hg] at h; cases h
    have hins : (∃ cs, combineZip Input.combine p.inputs q.inputs = .ok cs) ↔ InputsFit p q := by
      rw [combineZip_fine]; simp only [inputCombine_fine]; exact Iff.rfl
    simp only [mapErr, ok_bind]
    cases hi : combineZip Input.combine p.inputs q.inputs with
    | error f =>
      have hno : ¬ InputsFit p q := fun h => by obtain ⟨g, h⟩ := hins.mpr h; rw [hi] at h; cases h
      obtain ⟨k, i, j, k1, k2, k3, k4⟩ := combineZip_error.mp hi
      simp only [inputCombine_fine] at k4
      constructor
      · intro h
        cases h
        rcases inputCombine_error.mp k3 with ⟨g1, rfl⟩ | ⟨g1, g2, rfl⟩
        · exact .txid hyes ⟨k, k1, k2, k4⟩ g1
        · exact .vout hyes ⟨k, k1, k2, k4⟩ g1 g2
      · have key : ∀ {i' j' e'}, FirstInput p q i' j' → i'.combine j' = .error e' → e' = f := by
          rintro i' j' e' ⟨k', g1, g2, g3⟩ hc
          have := combineZip_error.mpr ⟨k', i', j', g1, g2, hc, fun k'' hk a b x y => inputCombine_fine.mpr (g3 k'' hk a b x y)⟩
          rw [hi] at this
          cases this
          rfl
        intro h
        cases h with
        | global h => exact absurd h (hng _)
        | txid _ h1 h2 => cases key h1 (inputCombine_error.mpr (.inl ⟨h2, rfl⟩)); rfl
        | vout _ h1 h2 h3 => cases key h1 (inputCombine_error.mpr (.inr ⟨h2, h3, rfl⟩)); rfl
        | amount _ h _ _ => exact absurd h hno
        | script _ h _ _ _ => exact absurd h hno
    | ok is =>
      have hiy : InputsFit p q := hins.mp ⟨is, hi⟩
      have hni : ∀ {i j}, FirstInput p q i j → i.previousTxid = j.previousTxid ∧ i.spentOutputIndex = j.spentOutputIndex := by
        rintro i j ⟨k, h1, h2, -⟩; exact hiy k i j h1 h2
      simp only [orFail, mapErr, ok_bind]
      cases ho : combineZip Output.combine p.outputs q.outputs with
      | error f =>
        obtain ⟨k, i, j, k1, k2, k3, k4⟩ := combineZip_error.mp ho
        simp only [outputCombine_fine] at k4
        constructor
        · intro h
          cases h
          rcases outputCombine_error.mp k3 with ⟨g1, rfl⟩ | ⟨g1, g2, rfl⟩
          · exact .amount hyes hiy ⟨k, k1, k2, k4⟩ g1
          · exact .script hyes hiy ⟨k, k1, k2, k4⟩ g1 g2
        · have key : ∀ {i' j' e'}, FirstOutput p q i' j' → i'.combine j' = .error e' → e' = f := by
            rintro i' j' e' ⟨k', g1, g2, g3⟩ hc
            have := combineZip_error.mpr ⟨k', i', j', g1, g2, hc, fun k'' hk a b x y => outputCombine_fine.mpr (g3 k'' hk a b x y)⟩
            rw [ho] at this
            cases this
            rfl
          intro h
          cases h with
          | global h => exact absurd h (hng _)
          | txid _ h1 h2 => exact absurd (hni h1).1 h2
          | vout _ h1 _ h2 => exact absurd (hni h1).2 h2
          | amount _ _ h1 h2 => cases key h1 (outputCombine_error.mpr (.inl ⟨h2, rfl⟩)); rfl
          | script _ _ h1 h2 h3 => cases key h1 (outputCombine_error.mpr (.inr ⟨h2, h3, rfl⟩)); rfl
      | ok os =>
        have hoy := combineZip_fine.mp ⟨os, ho⟩
        simp only [outputCombine_fine] at hoy
        have hno : ∀ {i j}, FirstOutput p q i j → i.amount = j.amount ∧ i.scriptPubkey = j.scriptPubkey := by
          rintro i j ⟨k, h1, h2, -⟩; exact hoy k i j h1 h2
        constructor
        · intro h; cases h
        · intro h
          cases h with
          | global h => exact absurd h (hng _)
          | txid _ h1 h2 => exact absurd (hni h1).1 h2
          | vout _ h1 _ h2 => exact absurd (hni h1).2 h2
          | amount _ _ h1 h2 => exact absurd (hno h1).1 h2
          | script _ _ h1 _ h2 => exact absurd (hno h1).2 h2

/-- C118. There is no other way to fail, but for the panic: the first extended key with contradictory sources has a shorter path
in the second PSBT. -/
theorem C118_panic (p q : Psbt L) : (∃ w, p.combine q = .error (.panic w)) ↔ p.global.version = q.global.version ∧
    p.global.txVersion = q.global.txVersion ∧ ∃ x s t, FirstClash p.global.xpubs q.global.xpubs x s t ∧ t.2.length < s.2.length := by
  have key : ∀ w, p.combine q = .error (.panic w) ↔ p.global.version = q.global.version ∧
      p.global.txVersion = q.global.txVersion ∧ mergeXpubs p.global.xpubs q.global.xpubs.l = .error (.panic w) := by
    intro w
    unfold Psbt.combine Global.combine
    by_cases h1 : p.global.version = q.global.version
    case neg => rw [if_pos h1]; simp [mapErr, h1]
    by_cases h2 : p.global.txVersion = q.global.txVersion
    case neg => rw [if_neg (by simpa using h1), if_pos h2]; simp [mapErr, h2]
    rw [if_neg (by simpa using h1), if_neg (by simpa using h2)]
    simp only [h1, h2, true_and]
    cases mergeXpubs p.global.xpubs q.global.xpubs.l with
    | error f => cases f <;> simp [mapErr, Bind.bind, Except.bind]
    | ok r =>
      simp only [ok_bind, mapErr]
      cases combineZip Input.combine p.inputs q.inputs with
      | error f => simp [orFail, mapErr]
      | ok is =>
        simp only [orFail, mapErr, ok_bind]
        cases combineZip Output.combine p.outputs q.outputs with
        | error f => simp
        | ok os => simp
  simp only [key, mergeXpubs_clash]
  constructor
  · rintro ⟨w, h1, h2, x, s, t, hc, he⟩
    refine ⟨h1, h2, x, s, t, hc, ?_⟩
    unfold clashEnd at he
    split at he
    · assumption
    · cases he
  · rintro ⟨h1, h2, x, s, t, hc, hl⟩
    exact ⟨_, h1, h2, x, s, t, hc, by rw [clashEnd, if_pos hl]⟩

section Examples
theorem single_clash {x : L.xpub.T} {s t : KeySource} (h : Contradict s t) :
    FirstClash (BMap.empty.insert x s) (BMap.empty.insert x t) x s t := by
  refine ⟨⟨by simp, by simp, h⟩, ?_⟩
  rintro y s' t' hy ⟨h1, -, -⟩
  have hne : y ≠ x := OrdKey.ne_of_lt hy
  rw [BMap.get_insert, if_neg hne] at h1
  cases h1
theorem cFit : GlobalsFit cG cG := ⟨rfl, rfl, fun x s t h => by cases h.1⟩
/-- The first inputs are for the same output, the second ones are not. -/
example : (cP [cIn 1, cIn 2]).combine (cP [cIn 1, cIn 3]) = .error (.err (.input (.previousTxid (Demo.rep 32 2) (Demo.rep 32 3)))) :=
  (C118_combine _ _ _).mpr <| .txid (i := cIn 2) (j := cIn 3) cFit
    ⟨1, rfl, rfl, fun k hk i j h1 h2 => by obtain rfl : k = 0 := by omega
                                           cases h1; cases h2; exact ⟨rfl, rfl⟩⟩ (by decide +kernel)
example : Contradict (cKS 1 [1, 2]) (cKS 1 [3, 4]) := by decide +kernel
/-- Paths of one length that differ are reported, a shorter one panics. -/
example : (cXP 1 [1, 2]).combine (cXP 1 [3, 4]) = .error (.err (.global (.inconsistentKeySources cX))) :=
  (C118_combine _ _ _).mpr <| .global <| .keySources (s := cKS 1 [1, 2]) (t := cKS 1 [3, 4]) rfl rfl
    (single_clash (by decide +kernel)) (by decide)
example : ∃ w, (cXP 1 [1, 2]).combine (cXP 1 [3]) = .error (.panic w) :=
  (C118_panic _ _).mpr ⟨rfl, rfl, cX, cKS 1 [1, 2], cKS 1 [3], single_clash (by decide +kernel), by decide⟩
/-- With other transaction versions too, that is what is reported. -/
example : GlobalFault (cXP 1 [1, 2]).global { (cXP 1 [3]).global with txVersion := 7 } (.txVersion 2 7) :=
  .txVersion rfl (by decide)
end Examples

end Psbt.V2

namespace Psbt.V0
open Psbt Psbt.Spec Psbt.Spec.V0

variable {L : Lib}

theorem combine_fails {p q : Psbt L} (ht : p.unsignedTx = q.unsignedTx) (f : Fail Err) :
    (∃ r, p.combine q = (r, .error f)) ↔ ∃ x s t, FirstClash p.xpub q.xpub x s t ∧
      f = if t.2.length < s.2.length then .panic "attempt to subtract with overflow" else .err (.combineInconsistentKeySources x.bytes) := by
  have hm : (∃ r, p.combine q = (r, .error f)) ↔ (mergeXpubs p.xpub q.xpub.l).2 = .error f := by
    unfold Psbt.combine
    rw [if_neg (by simpa using ht)]
    simp only
    rcases mergeXpubs p.xpub q.xpub.l with ⟨m, _ | _⟩ <;> simp
  rw [hm]
  have hv := mergeXpubs_v2 p.xpub q.xpub.l
  cases h : V2.mergeXpubs p.xpub q.xpub.l with
  | ok m =>
    rw [h] at hv
    simp only at hv
    rw [hv]
    constructor
    · intro h; cases h
    · rintro ⟨x, s, t, ⟨hc, -⟩, -⟩
      exact absurd hc (V2.mergeXpubs_ok_iff.mp ⟨m, h⟩ x s t)
  | error g =>
    obtain ⟨x, s, t, hc, rfl⟩ := (V2.mergeXpubs_clash g).mp h
    have hu : ∀ x' s' t', FirstClash p.xpub q.xpub x' s' t' → x' = x ∧ s' = s ∧ t' = t := by
      rintro x' s' t' ⟨h1, h2⟩
      have hx : x' = x := by
        rcases OrdKey.tri x' x with h | h | h
        · exact absurd h1 (hc.2 _ _ _ h)
        · exact h
        · exact absurd hc.1 (h2 _ _ _ h)
      subst hx
      exact ⟨rfl, Option.some.inj (h1.1.symm.trans hc.1.1), Option.some.inj (h1.2.1.symm.trans hc.1.2.1)⟩
    have hr : (mergeXpubs p.xpub q.xpub.l).2 = .error (if t.2.length < s.2.length then .panic "attempt to subtract with overflow"
        else .err (.combineInconsistentKeySources x.bytes)) := by
      rw [h] at hv
      unfold V2.clashEnd at hv
      by_cases hl : t.2.length < s.2.length
      · rw [if_pos hl] at hv ⊢; exact hv
      · rw [if_neg hl] at hv ⊢; exact hv
    rw [hr]
    constructor
    · intro h; cases h; exact ⟨x, s, t, hc, rfl⟩
    · rintro ⟨x', s', t', hc', rfl⟩
      obtain ⟨rfl, rfl, rfl⟩ := hu x' s' t' hc'
      rfl

/-- C118. PSBTs v0: which error is given when. -/
theorem C118_combine (p q : Psbt L) (e : Err) : (∃ r, p.combine q = (r, .error (.err e))) ↔ CombineFault p q e := by
  by_cases h1 : p.unsignedTx = q.unsignedTx
  case neg =>
    unfold Psbt.combine
    rw [if_pos h1]
    constructor
    · rintro ⟨r, h⟩; cases h; exact .unsignedTx h1
    · intro h
      cases h with
      | unsignedTx _ => exact ⟨_, rfl⟩
      | keySources h _ _ => exact absurd h h1
  rw [combine_fails h1 (.err e)]
  constructor
  · rintro ⟨x, s, t, hc, he⟩
    split at he
    · cases he
    · cases he
      exact .keySources h1 hc (by omega)
  · intro h
    cases h with
    | unsignedTx h => exact absurd h1 h
    | keySources _ hc hl => exact ⟨_, _, _, hc, by rw [if_neg (by omega)]⟩

/-- C118. The panic, as for PSBTs v2. -/
theorem C118_panic (p q : Psbt L) : (∃ r w, p.combine q = (r, .error (.panic w))) ↔ p.unsignedTx = q.unsignedTx ∧
    ∃ x s t, FirstClash p.xpub q.xpub x s t ∧ t.2.length < s.2.length := by
  by_cases h1 : p.unsignedTx = q.unsignedTx
  case neg =>
    unfold Psbt.combine
    rw [if_pos h1]
    simp [h1]
  rw [exists_comm]
  simp only [combine_fails h1, h1, true_and]
  constructor
  · rintro ⟨w, x, s, t, hc, he⟩
    refine ⟨x, s, t, hc, ?_⟩
    split at he
    · assumption
    · cases he
  · rintro ⟨x, s, t, hc, hl⟩
    exact ⟨_, x, s, t, hc, by rw [if_pos hl]⟩

section Examples
example : ∃ r, (cXP 1 [1, 2]).combine (cXP 1 [3, 4]) = (r, .error (.err (.combineInconsistentKeySources cX.bytes))) :=
  (C118_combine _ _ _).mpr <| .keySources (s := (Demo.rep 4 1, [1, 2])) (t := (Demo.rep 4 1, [3, 4])) rfl
    (V2.single_clash (by decide +kernel)) (by decide)
example : ∃ r w, (cXP 1 [1, 2]).combine (cXP 1 [3]) = (r, .error (.panic w)) :=
  (C118_panic _ _).mpr ⟨rfl, cX, (Demo.rep 4 1, [1, 2]), (Demo.rep 4 1, [3]), V2.single_clash (by decide +kernel), by decide⟩
example : CombineFault (cP cI cI) { cP cI cI with unsignedTx := cT } (.unexpectedUnsignedTx demoTx cT) := .unsignedTx (by decide +kernel)
end Examples

end Psbt.V0
