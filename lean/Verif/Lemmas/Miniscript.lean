/- The shared finalizer code decides what the specification says. -/
import Verif.Lemmas.Encoding
import Verif.Spec.Finalize
import Verif.Lemmas.Script
import Verif.Lemmas.BMap
namespace Psbt
open Spec

variable {L : Lib} {M : MsLib L}

theorem push_iff {s : Bytes} {n : Nat} {a b : UInt8} :
    (s.length = n + 2 ∧ s[0]? = some a) ∧ s[n + 1]? = some b ↔ ∃ k : Bytes, k.length = n ∧ s = [a] ++ k ++ [b] := by
  constructor
  · rintro ⟨⟨hl, h0⟩, h1⟩
    match s, hl, h0, h1 with
    | x :: r, hl, h0, h1 =>
      simp only [List.length_cons] at hl
      simp only [List.getElem?_cons_zero, Option.some.injEq, List.getElem?_cons_succ] at h0 h1
      subst h0
      have e : r = r.take n ++ r.drop n := (List.take_append_drop n r).symm
      have hd : r.drop n = [b] := by
        have hl' : (r.drop n).length = 1 := by simp; omega
        obtain ⟨x, hx⟩ := List.length_eq_one_iff.mp hl'
        have : (r.drop n)[0]? = some b := by simpa using h1
        rw [hx] at this ⊢
        simpa using this
      refine ⟨r.take n, by simp; omega, ?_⟩
      rw [hd] at e
      simpa using e
  · rintro ⟨k, rfl, rfl⟩
    simp

theorem isP2pk_iff {s : Bytes} : isP2pk s = true ↔ ∃ k, P2pk k s := by
  simp only [isP2pk, Bool.and_eq_true, beq_iff_eq, Bool.or_eq_true]
  rw [push_iff (n := 65), push_iff (n := 33)]
  constructor
  · rintro (⟨k, h⟩ | ⟨k, h⟩)
    · exact ⟨k, .inr h⟩
    · exact ⟨k, .inl h⟩
  · rintro ⟨k, h | h⟩
    · exact .inr ⟨k, h⟩
    · exact .inl ⟨k, h⟩

theorem P2pk.body {k s : Bytes} (h : P2pk k s) : (s.take (s.length - 1)).drop 1 = k := by
  rcases h with ⟨-, rfl⟩ | ⟨-, rfl⟩ <;> simp

theorem P2pk.unique {k k' s : Bytes} (h : P2pk k s) (h' : P2pk k' s) : k = k' := by rw [← P2pk.body h, P2pk.body h']

theorem P2pk.pkh {k s : Bytes} (h : P2pk k s) : isP2pkh s = false := by
  rcases h with ⟨-, rfl⟩ | ⟨-, rfl⟩ <;> simp [isP2pkh]
theorem P2pk.wpkh {k s : Bytes} (h : P2pk k s) : isP2wpkh s = false := by
  rcases h with ⟨-, rfl⟩ | ⟨-, rfl⟩ <;> simp [isP2wpkh]
theorem P2pk.wsh {k s : Bytes} (h : P2pk k s) : isP2wsh s = false := by
  rcases h with ⟨-, rfl⟩ | ⟨-, rfl⟩ <;> simp [isP2wsh]
theorem P2pk.sh {k s : Bytes} (h : P2pk k s) : isP2sh s = false := by
  rcases h with ⟨-, rfl⟩ | ⟨-, rfl⟩ <;> simp [isP2sh]

theorem P2pkh.pk {s : Bytes} (h : P2pkh s) : isP2pk s = false := by
  obtain ⟨⟨h, hl⟩, rfl⟩ := h; simp [isP2pk]
theorem P2wpkh.pk {s : Bytes} (h : P2wpkh s) : isP2pk s = false := by
  obtain ⟨⟨h, hl⟩, rfl⟩ := h; simp [isP2pk]
theorem P2wpkh.pkh {s : Bytes} (h : P2wpkh s) : isP2pkh s = false := by
  obtain ⟨⟨h, hl⟩, rfl⟩ := h; simp [isP2pkh]
theorem P2wsh.pk {s : Bytes} (h : P2wsh s) : isP2pk s = false := by
  obtain ⟨⟨h, hl⟩, rfl⟩ := h; simp [isP2pk]
theorem P2wsh.pkh {s : Bytes} (h : P2wsh s) : isP2pkh s = false := by
  obtain ⟨⟨h, hl⟩, rfl⟩ := h; simp [isP2pkh]
theorem P2wsh.wpkh {s : Bytes} (h : P2wsh s) : isP2wpkh s = false := by
  obtain ⟨⟨h, hl⟩, rfl⟩ := h; simp [isP2wpkh]
theorem P2sh.pk {s : Bytes} (h : P2sh s) : isP2pk s = false := by
  obtain ⟨⟨h, hl⟩, rfl⟩ := h; simp [isP2pk]
theorem P2sh.pkh {s : Bytes} (h : P2sh s) : isP2pkh s = false := by
  obtain ⟨⟨h, hl⟩, rfl⟩ := h; simp [isP2pkh]
theorem P2sh.wpkh {s : Bytes} (h : P2sh s) : isP2wpkh s = false := by
  obtain ⟨⟨h, hl⟩, rfl⟩ := h; simp [isP2wpkh]
theorem P2sh.wsh {s : Bytes} (h : P2sh s) : isP2wsh s = false := by
  obtain ⟨⟨h, hl⟩, rfl⟩ := h; simp [isP2wsh]

theorem CommitsWsh.wsh {s w : Bytes} (h : CommitsWsh L s w) : P2wsh s := ⟨L.sha256 w, h⟩
theorem CommitsSh.sh {s w : Bytes} (h : CommitsSh L s w) : P2sh s := ⟨L.hash160 w, h⟩

theorem newDesc_iff {d : Desc L M.Ms} {r} : newDesc M d = r ↔ Made M d r := by
  unfold newDesc
  constructor
  · rintro rfl
    split
    · rename_i h; exact .ok h
    · rename_i h; exact .refused (by simpa using h)
  · intro h
    cases h with
    | ok h => simp [h]
    | refused h => simp [h]

/-- The two outcomes of looking for a key. -/
theorem find_cases {S : Type} (sigs : List (L.pubkey.T × S)) (f : L.pubkey.T → Bool) (P : L.pubkey.T → Prop)
    (hf : ∀ k, f k = true ↔ P k) :
    (∃ pk s, sigs.find? (fun kv => f kv.1) = some (pk, s) ∧ FirstKey sigs P pk) ∨
    (sigs.find? (fun kv => f kv.1) = none ∧ NoKey sigs P) := by
  cases h : sigs.find? (fun kv => f kv.1) with
  | none =>
    right
    refine ⟨rfl, fun x hx hp => ?_⟩
    have := List.find?_eq_none.mp h x hx
    exact this ((hf _).mpr hp)
  | some x =>
    left
    obtain ⟨pk, s⟩ := x
    obtain ⟨h1, l, l', h2, h3⟩ := List.find?_eq_some_iff_append.mp h
    refine ⟨pk, s, rfl, l, s, l', h2, (hf _).mp h1, fun x hx hp => ?_⟩
    have := h3 x hx
    rw [(hf _).mpr hp] at this
    simp at this

theorem firstKey_unique {S : Type} {sigs : List (L.pubkey.T × S)} {P : L.pubkey.T → Prop} {a b : L.pubkey.T}
    (ha : FirstKey sigs P a) (hb : FirstKey sigs P b) : a = b := by
  obtain ⟨l, s, l', rfl, pa, na⟩ := ha
  obtain ⟨m, t, m', e, pb, nb⟩ := hb
  induction l generalizing m with
  | nil =>
    cases m with
    | nil => simp at e; exact e.1.1
    | cons y m => simp at e; exact absurd pa (by rw [show a = y.1 by rw [← e.1]]; exact nb y List.mem_cons_self)
  | cons x l ih =>
    cases m with
    | nil => simp at e; exact absurd pb (by rw [show b = x.1 by rw [e.1]]; exact na x List.mem_cons_self)
    | cons y m =>
      simp at e
      exact ih (fun z hz => na z (List.mem_cons_of_mem _ hz)) m e.2 (fun z hz => nb z (List.mem_cons_of_mem _ hz))

theorem firstKey_noKey {S : Type} {sigs : List (L.pubkey.T × S)} {P : L.pubkey.T → Prop} {a : L.pubkey.T}
    (ha : FirstKey sigs P a) (hb : NoKey sigs P) : False := by
  obtain ⟨l, s, l', rfl, pa, -⟩ := ha
  exact hb (a, s) (by simp) pa

theorem commitsPkh_iff {spk : Bytes} (k : L.pubkey.T) : (spk == p2pkhOf k) = true ↔ CommitsPkh spk k := by
  simp [p2pkhOf, CommitsPkh]
theorem commitsWpkh_iff {spk : Bytes} (k : L.pubkey.T) : (some spk == p2wpkhOf k) = true ↔ CommitsWpkh spk k := by
  unfold p2wpkhOf CommitsWpkh
  split <;> simp [*]

theorem find_some {S : Type} {sigs : List (L.pubkey.T × S)} {f : L.pubkey.T → Bool} {P : L.pubkey.T → Prop}
    (hf : ∀ k, f k = true ↔ P k) {pk : L.pubkey.T} (h : FirstKey sigs P pk) :
    ∃ s, sigs.find? (fun kv => f kv.1) = some (pk, s) := by
  rcases find_cases sigs f P hf with ⟨pk', s, h1, h2⟩ | ⟨-, h2⟩
  · cases firstKey_unique h h2; exact ⟨s, h1⟩
  · exact (firstKey_noKey h h2).elim
theorem find_none {S : Type} {sigs : List (L.pubkey.T × S)} {f : L.pubkey.T → Bool} {P : L.pubkey.T → Prop}
    (hf : ∀ k, f k = true ↔ P k) (h : NoKey sigs P) : sigs.find? (fun kv => f kv.1) = none := by
  rcases find_cases sigs f P hf with ⟨pk', s, h1, h2⟩ | ⟨h1, -⟩
  · exact (firstKey_noKey h2 h).elim
  · exact h1

theorem parsed_iff {ctx : MsCtx} {s : Bytes} {mk : M.Ms → Desc L M.Ms} {r} :
    (match M.parse ctx s with
      | some ms => newDesc M (mk ms)
      | none => .error .miniscript) = r ↔ Parsed M ctx s mk r := by
  constructor
  · rintro rfl
    split
    · rename_i h; exact .ok h (newDesc_iff.mp rfl)
    · rename_i h; exact .fails h
  · intro h
    cases h with
    | ok h h' => rw [h]; exact newDesc_iff.mpr h'
    | fails h => rw [h]

theorem not_of_false {c : Bool} {P : Prop} (h : c = true ↔ P) (hc : ¬ c = true) : ¬ P := fun hp => hc (h.mpr hp)

theorem descriptorOf_iff {map : BMap (FixedBytes 20) L.pubkey.T} {sigs : List (L.pubkey.T × EcdsaSig L)} {spk : Bytes}
    {redeem witness : Option Bytes} {r} :
    descriptorOf M map sigs spk redeem witness = r ↔ Descr M map sigs spk redeem witness r := by
  constructor
  · rintro rfl
    unfold descriptorOf
    split
    · rename_i h
      obtain ⟨k, hk⟩ := isP2pk_iff.mp h
      rw [P2pk.body hk]
      split
      · rename_i hp; exact .pk hk hp
      · rename_i hp; exact .pkInvalid hk hp
    · rename_i npk
      have npk : ∀ k, ¬ P2pk k spk := fun k hk => npk (isP2pk_iff.mpr ⟨k, hk⟩)
      split
      · rename_i h
        have h := isP2pkh_iff.mp h
        rcases find_cases sigs (fun k => spk == p2pkhOf k) (CommitsPkh spk) commitsPkh_iff with ⟨pk, s, h1, h2⟩ | ⟨h1, h2⟩
        · rw [h1]; exact .pkh h h2 (newDesc_iff.mp rfl)
        · rw [h1]; exact .pkhMissing h h2
      · rename_i npkh
        have npkh := not_of_false isP2pkh_iff npkh
        split
        · rename_i h
          have h := isP2wpkh_iff.mp h
          rcases find_cases sigs (fun k => some spk == p2wpkhOf k) (CommitsWpkh spk) commitsWpkh_iff with ⟨pk, s, h1, h2⟩ | ⟨h1, h2⟩
          · rw [h1]; exact .wpkh h h2 (newDesc_iff.mp rfl)
          · rw [h1]; exact .wpkhMissing h h2
        · rename_i nwpkh
          have nwpkh := not_of_false isP2wpkh_iff nwpkh
          split
          · rename_i h
            have h := isP2wsh_iff.mp h
            split
            · rename_i hr; exact .wshRedeem h (by intro e; rw [e] at hr; simp at hr)
            · rename_i hr
              have hr : redeem = none := by simpa using hr
              split
              · rename_i w
                split
                · rename_i hc; exact .wshInvalid h hr rfl (fun e => hc e.symm)
                · rename_i hc
                  simp only [ne_eq, Decidable.not_not] at hc
                  exact .wsh hr rfl hc.symm (parsed_iff.mp rfl)
              · exact .wshMissing h hr rfl
          · rename_i nwsh
            have nwsh := not_of_false isP2wsh_iff nwsh
            split
            · rename_i h
              have h := isP2sh_iff.mp h
              split
              · exact .shMissing h rfl
              · rename_i s
                split
                · rename_i hc; exact .shInvalid h rfl (fun e => hc e.symm)
                · rename_i hc
                  simp only [ne_eq, Decidable.not_not] at hc
                  have hc : CommitsSh L spk s := hc.symm
                  split
                  · rename_i hs
                    have hs := isP2wsh_iff.mp hs
                    split
                    · rename_i w
                      split
                      · rename_i hw; exact .shWshInvalid rfl hc hs rfl (fun e => hw e.symm)
                      · rename_i hw
                        simp only [ne_eq, Decidable.not_not] at hw
                        exact .shWsh rfl hc rfl hw.symm (parsed_iff.mp rfl)
                    · exact .shWshMissing rfl hc hs rfl
                  · rename_i hn
                    have hn := not_of_false isP2wsh_iff hn
                    split
                    · rename_i hs
                      have hs := isP2wpkh_iff.mp hs
                      rcases find_cases sigs (fun k => some s == p2wpkhOf k) (CommitsWpkh s) commitsWpkh_iff with ⟨pk, t, h1, h2⟩ | ⟨h1, h2⟩
                      · rw [h1]; exact .shWpkh rfl hc hs h2 (newDesc_iff.mp rfl)
                      · rw [h1]; exact .shWpkhMissing rfl hc hs h2
                    · rename_i hn2
                      have hn2 := not_of_false isP2wpkh_iff hn2
                      split
                      · rename_i hw; exact .shWitness rfl hc hn hn2 (by intro e; rw [e] at hw; simp at hw)
                      · rename_i hw
                        exact .sh rfl hc hn hn2 (by simpa using hw) (parsed_iff.mp rfl)
            · rename_i nsh
              have nsh := not_of_false isP2sh_iff nsh
              split
              · rename_i hw; exact .bareWitness npk npkh nwpkh nwsh nsh (by intro e; rw [e] at hw; simp at hw)
              · rename_i hw
                have hw : witness = none := by simpa using hw
                split
                · rename_i hr; exact .bareRedeem npk npkh nwpkh nwsh nsh hw (by intro e; rw [e] at hr; simp at hr)
                · rename_i hr
                  exact .bare npk npkh nwpkh nwsh nsh hw (by simpa using hr) (parsed_iff.mp rfl)
  · have fls : ∀ {c : Bool} {P : Prop}, (c = true ↔ P) → ¬ P → c = false := fun h hn => by
      cases hc : ‹Bool› with
      | false => rfl
      | true => exact absurd (h.mp hc) hn
    have npk' : (∀ k, ¬ P2pk k spk) → isP2pk spk = false := fun h => fls isP2pk_iff (fun ⟨k, hk⟩ => h k hk)
    intro h
    unfold descriptorOf
    cases h with
    | pk h hp => rw [if_pos (isP2pk_iff.mpr ⟨_, h⟩), P2pk.body h, hp]
    | pkInvalid h hp => rw [if_pos (isP2pk_iff.mpr ⟨_, h⟩), P2pk.body h, hp]
    | pkh h hk hm =>
      obtain ⟨s, hs⟩ := find_some commitsPkh_iff hk
      rw [if_neg (by simp [P2pkh.pk h]), if_pos (isP2pkh_iff.mpr h), hs]
      exact newDesc_iff.mpr hm
    | pkhMissing h hk =>
      rw [if_neg (by simp [P2pkh.pk h]), if_pos (isP2pkh_iff.mpr h), find_none commitsPkh_iff hk]
    | wpkh h hk hm =>
      obtain ⟨s, hs⟩ := find_some commitsWpkh_iff hk
      rw [if_neg (by simp [P2wpkh.pk h]), if_neg (by simp [P2wpkh.pkh h]), if_pos (isP2wpkh_iff.mpr h), hs]
      exact newDesc_iff.mpr hm
    | wpkhMissing h hk =>
      rw [if_neg (by simp [P2wpkh.pk h]), if_neg (by simp [P2wpkh.pkh h]), if_pos (isP2wpkh_iff.mpr h),
        find_none commitsWpkh_iff hk]
    | wshRedeem h hr =>
      rw [if_neg (by simp [P2wsh.pk h]), if_neg (by simp [P2wsh.pkh h]), if_neg (by simp [P2wsh.wpkh h]),
        if_pos (isP2wsh_iff.mpr h), if_pos (by cases redeem <;> simp_all)]
    | wshMissing h hr hw =>
      subst hr hw
      rw [if_neg (by simp [P2wsh.pk h]), if_neg (by simp [P2wsh.pkh h]), if_neg (by simp [P2wsh.wpkh h]),
        if_pos (isP2wsh_iff.mpr h), if_neg (by simp)]
    | wshInvalid h hr hw hc =>
      subst hr hw
      rw [if_neg (by simp [P2wsh.pk h]), if_neg (by simp [P2wsh.pkh h]), if_neg (by simp [P2wsh.wpkh h]),
        if_pos (isP2wsh_iff.mpr h), if_neg (by simp)]
      simp only
      rw [if_pos (fun e => hc e.symm)]
    | wsh hr hw hc hp =>
      subst hr hw
      have h := CommitsWsh.wsh hc
      rw [if_neg (by simp [P2wsh.pk h]), if_neg (by simp [P2wsh.pkh h]), if_neg (by simp [P2wsh.wpkh h]),
        if_pos (isP2wsh_iff.mpr h), if_neg (by simp)]
      simp only
      rw [if_neg (by intro hn; exact hn hc.symm)]
      exact parsed_iff.mpr hp
    | shMissing h hr =>
      subst hr
      rw [if_neg (by simp [P2sh.pk h]), if_neg (by simp [P2sh.pkh h]), if_neg (by simp [P2sh.wpkh h]),
        if_neg (by simp [P2sh.wsh h]), if_pos (isP2sh_iff.mpr h)]
    | shInvalid h hr hc =>
      subst hr
      rw [if_neg (by simp [P2sh.pk h]), if_neg (by simp [P2sh.pkh h]), if_neg (by simp [P2sh.wpkh h]),
        if_neg (by simp [P2sh.wsh h]), if_pos (isP2sh_iff.mpr h)]
      simp only
      rw [if_pos (fun e => hc e.symm)]
    | shWshMissing hr hc hs hw =>
      subst hr hw
      have h := CommitsSh.sh hc
      rw [if_neg (by simp [P2sh.pk h]), if_neg (by simp [P2sh.pkh h]), if_neg (by simp [P2sh.wpkh h]),
        if_neg (by simp [P2sh.wsh h]), if_pos (isP2sh_iff.mpr h)]
      simp only
      rw [if_neg (by intro hn; exact hn hc.symm), if_pos (isP2wsh_iff.mpr hs)]
    | shWshInvalid hr hc hs hw hn =>
      subst hr hw
      have h := CommitsSh.sh hc
      rw [if_neg (by simp [P2sh.pk h]), if_neg (by simp [P2sh.pkh h]), if_neg (by simp [P2sh.wpkh h]),
        if_neg (by simp [P2sh.wsh h]), if_pos (isP2sh_iff.mpr h)]
      simp only
      rw [if_neg (by intro hn; exact hn hc.symm), if_pos (isP2wsh_iff.mpr hs), if_pos (fun e => hn e.symm)]
    | shWsh hr hc hw hs hp =>
      subst hr hw
      have h := CommitsSh.sh hc
      rw [if_neg (by simp [P2sh.pk h]), if_neg (by simp [P2sh.pkh h]), if_neg (by simp [P2sh.wpkh h]),
        if_neg (by simp [P2sh.wsh h]), if_pos (isP2sh_iff.mpr h)]
      simp only
      rw [if_neg (by intro hn; exact hn hc.symm), if_pos (isP2wsh_iff.mpr (CommitsWsh.wsh hs)),
        if_neg (by intro hn; exact hn hs.symm)]
      exact parsed_iff.mpr hp
    | shWpkh hr hc hs hk hm =>
      subst hr
      have h := CommitsSh.sh hc
      obtain ⟨s, hf⟩ := find_some commitsWpkh_iff hk
      rw [if_neg (by simp [P2sh.pk h]), if_neg (by simp [P2sh.pkh h]), if_neg (by simp [P2sh.wpkh h]),
        if_neg (by simp [P2sh.wsh h]), if_pos (isP2sh_iff.mpr h)]
      simp only
      rw [if_neg (by intro hn; exact hn hc.symm), if_neg (by rw [isP2wsh_iff]; exact Spec.P2wpkh.not_wsh hs),
        if_pos (isP2wpkh_iff.mpr hs), hf]
      exact newDesc_iff.mpr hm
    | shWpkhMissing hr hc hs hk =>
      subst hr
      have h := CommitsSh.sh hc
      rw [if_neg (by simp [P2sh.pk h]), if_neg (by simp [P2sh.pkh h]), if_neg (by simp [P2sh.wpkh h]),
        if_neg (by simp [P2sh.wsh h]), if_pos (isP2sh_iff.mpr h)]
      simp only
      rw [if_neg (by intro hn; exact hn hc.symm), if_neg (by rw [isP2wsh_iff]; exact Spec.P2wpkh.not_wsh hs),
        if_pos (isP2wpkh_iff.mpr hs), find_none commitsWpkh_iff hk]
    | shWitness hr hc hn hn2 hw =>
      subst hr
      have h := CommitsSh.sh hc
      rw [if_neg (by simp [P2sh.pk h]), if_neg (by simp [P2sh.pkh h]), if_neg (by simp [P2sh.wpkh h]),
        if_neg (by simp [P2sh.wsh h]), if_pos (isP2sh_iff.mpr h)]
      simp only
      rw [if_neg (by intro hn; exact hn hc.symm), if_neg (by rw [isP2wsh_iff]; exact hn),
        if_neg (by rw [isP2wpkh_iff]; exact hn2), if_pos (by cases witness <;> simp_all)]
    | sh hr hc hn hn2 hw hp =>
      subst hr hw
      have h := CommitsSh.sh hc
      rw [if_neg (by simp [P2sh.pk h]), if_neg (by simp [P2sh.pkh h]), if_neg (by simp [P2sh.wpkh h]),
        if_neg (by simp [P2sh.wsh h]), if_pos (isP2sh_iff.mpr h)]
      simp only
      rw [if_neg (by intro hn; exact hn hc.symm), if_neg (by rw [isP2wsh_iff]; exact hn),
        if_neg (by rw [isP2wpkh_iff]; exact hn2), if_neg (by simp)]
      exact parsed_iff.mpr hp
    | bareWitness a b c d e hw =>
      rw [if_neg (by simp [npk' a]), if_neg (by rw [isP2pkh_iff]; exact b), if_neg (by rw [isP2wpkh_iff]; exact c),
        if_neg (by rw [isP2wsh_iff]; exact d), if_neg (by rw [isP2sh_iff]; exact e), if_pos (by cases witness <;> simp_all)]
    | bareRedeem a b c d e hw hr =>
      subst hw
      rw [if_neg (by simp [npk' a]), if_neg (by rw [isP2pkh_iff]; exact b), if_neg (by rw [isP2wpkh_iff]; exact c),
        if_neg (by rw [isP2wsh_iff]; exact d), if_neg (by rw [isP2sh_iff]; exact e), if_neg (by simp),
        if_pos (by cases redeem <;> simp_all)]
    | bare a b c d e hw hr hp =>
      subst hw hr
      rw [if_neg (by simp [npk' a]), if_neg (by rw [isP2pkh_iff]; exact b), if_neg (by rw [isP2wpkh_iff]; exact c),
        if_neg (by rw [isP2wsh_iff]; exact d), if_neg (by rw [isP2sh_iff]; exact e), if_neg (by simp), if_neg (by simp)]
      exact parsed_iff.mpr hp

/-! ### Taproot -/

/-- The witness for one entry of the control block map. -/
def tapCand (M : MsLib L) (mall : Bool) (map : BMap (FixedBytes 20) L.xonly.T) (sat : Satisfier L)
    (x : L.ctrl.T × Bytes × LeafVersion) : Option (List Bytes) := tapCandidate M mall map sat x.1 x.2.1 x.2.2

theorem tapCandidate_iff {mall : Bool} {map : BMap (FixedBytes 20) L.xonly.T} {sat : Satisfier L} {cb : L.ctrl.T} {script : Bytes}
    {ver : LeafVersion} {w : List Bytes} :
    tapCandidate M mall map sat cb script ver = some w ↔ LeafWitness M mall map sat cb script ver w := by
  unfold tapCandidate LeafWitness
  have hv : ver ≠ TAPSCRIPT ↔ ¬ ver.1 = 0xc0 := by
    constructor
    · intro h e; exact h (Subtype.ext e)
    · intro h e; exact h (by rw [e]; rfl)
  by_cases h : ver.1 = 0xc0
  · rw [if_neg (by rw [hv]; simpa using h)]
    simp only [h, true_and]
    constructor
    · intro hw
      split at hw
      · cases hw
      · rename_i ms h1
        split at hw
        · cases hw
        · rename_i st h2
          cases hw
          exact ⟨ms, st, h1, h2, by simp⟩
    · rintro ⟨ms, st, h1, h2, rfl⟩
      simp [h1, h2]
  · rw [if_pos (hv.mpr h)]
    simp [h]

theorem tapLoop_cons {mall : Bool} {map : BMap (FixedBytes 20) L.xonly.T} {sat : Satisfier L} {x : L.ctrl.T × Bytes × LeafVersion}
    {l : List (L.ctrl.T × Bytes × LeafVersion)} {best : Option (List Bytes × Nat)} :
    tapLoop M mall map sat (x :: l) best =
      match tapCand M mall map sat x with
      | none => tapLoop M mall map sat l best
      | some wit =>
        match best with
        | some (w, n) => if witnessSize wit > n then tapLoop M mall map sat l (some (w, n))
          else tapLoop M mall map sat l (some (wit, witnessSize wit))
        | none => tapLoop M mall map sat l (some (wit, witnessSize wit)) := by
  obtain ⟨cb, script, ver⟩ := x
  rw [tapLoop]
  rfl

/-- An entry whose witness is smallest, the last one such. -/
def LastMin (c : (L.ctrl.T × Bytes × LeafVersion) → Option (List Bytes)) (l : List (L.ctrl.T × Bytes × LeafVersion)) (w : List Bytes) :
    Prop :=
  ∃ l1 x l2, l = l1 ++ x :: l2 ∧ c x = some w ∧ (∀ y ∈ l1, ∀ w', c y = some w' → witnessSize w ≤ witnessSize w') ∧
    (∀ y ∈ l2, ∀ w', c y = some w' → witnessSize w < witnessSize w')

theorem tapLoop_spec {mall : Bool} {map : BMap (FixedBytes 20) L.xonly.T} {sat : Satisfier L}
    (l : List (L.ctrl.T × Bytes × LeafVersion)) (best : Option (List Bytes × Nat)) :
    (tapLoop M mall map sat l best = best ∧
      ∀ y ∈ l, ∀ w', tapCand M mall map sat y = some w' → ∃ b, best = some b ∧ b.2 < witnessSize w') ∨
    (∃ w, tapLoop M mall map sat l best = some (w, witnessSize w) ∧ (∀ b, best = some b → witnessSize w ≤ b.2) ∧
      LastMin (tapCand M mall map sat) l w) := by
  induction l generalizing best with
  | nil => left; exact ⟨rfl, by simp⟩
  | cons x l ih =>
    rw [tapLoop_cons]
    -- one entry taken as the new best
    have step : ∀ wit, tapCand M mall map sat x = some wit → (∀ b, best = some b → witnessSize wit ≤ b.2) →
        ∃ w, tapLoop M mall map sat l (some (wit, witnessSize wit)) = some (w, witnessSize w) ∧
          (∀ b, best = some b → witnessSize w ≤ b.2) ∧ LastMin (tapCand M mall map sat) (x :: l) w := by
      intro wit hw hb
      rcases ih (some (wit, witnessSize wit)) with ⟨h1, h2⟩ | ⟨w, h1, h2, l1, y, l2, rfl, hy, ha, hz⟩
      · refine ⟨wit, h1, hb, [], x, l, rfl, hw, by simp, fun y hy w' h => ?_⟩
        obtain ⟨b, hb, h⟩ := h2 y hy w' h
        cases hb; exact h
      · have hle := h2 _ rfl
        refine ⟨w, h1, fun b h => Nat.le_trans hle (hb b h), x :: l1, y, l2, rfl, hy, ?_, hz⟩
        intro z hz w' h
        rcases List.mem_cons.mp hz with rfl | hz
        · rw [hw] at h; cases h; exact hle
        · exact ha z hz w' h
    cases hc : tapCand M mall map sat x with
    | none =>
      simp only
      rcases ih best with ⟨h1, h2⟩ | ⟨w, h1, h2, l1, y, l2, rfl, hy, ha, hz⟩
      · left
        refine ⟨h1, fun y hy w' h => ?_⟩
        rcases List.mem_cons.mp hy with rfl | hy
        · rw [hc] at h; cases h
        · exact h2 y hy w' h
      · right
        refine ⟨w, h1, h2, x :: l1, y, l2, rfl, hy, ?_, hz⟩
        intro z hz w' h
        rcases List.mem_cons.mp hz with rfl | hz
        · rw [hc] at h; cases h
        · exact ha z hz w' h
    | some wit =>
      simp only
      match best, ih, step with
      | none, ih, step => right; exact step wit hc (by simp)
      | some (w0, n0), ih, step =>
        simp only
        by_cases hgt : witnessSize wit > n0
        · rw [if_pos hgt]
          rcases ih (some (w0, n0)) with ⟨h1, h2⟩ | ⟨w, h1, h2, l1, y, l2, rfl, hy, ha, hz⟩
          · left
            refine ⟨h1, fun y hy w' h => ?_⟩
            rcases List.mem_cons.mp hy with rfl | hy
            · rw [hc] at h; cases h; exact ⟨_, rfl, hgt⟩
            · exact h2 y hy w' h
          · right
            have hle := h2 _ rfl
            refine ⟨w, h1, h2, x :: l1, y, l2, rfl, hy, ?_, hz⟩
            intro z hz w' h
            rcases List.mem_cons.mp hz with rfl | hz
            · rw [hc] at h; cases h; exact Nat.le_of_lt (Nat.lt_of_le_of_lt hle hgt)
            · exact ha z hz w' h
        · rw [if_neg hgt]
          right
          exact step wit hc (by intro b h; cases h; exact Nat.le_of_not_lt hgt)

theorem lastMin_unique {c : (L.ctrl.T × Bytes × LeafVersion) → Option (List Bytes)} {l : List (L.ctrl.T × Bytes × LeafVersion)}
    {w v : List Bytes} (hw : LastMin c l w) (hv : LastMin c l v) : w = v := by
  obtain ⟨l1, x, l2, rfl, hx, a1, a2⟩ := hw
  obtain ⟨m1, y, m2, e, hy, b1, b2⟩ := hv
  rcases List.append_eq_append_iff.mp e with ⟨t, h1, h2⟩ | ⟨t, h1, h2⟩
  · cases t with
    | nil =>
      simp only [List.nil_append, List.cons.injEq] at h2
      obtain ⟨rfl, -⟩ := h2
      rw [hx] at hy; exact Option.some.inj hy
    | cons z t =>
      simp only [List.cons_append, List.cons.injEq] at h2
      obtain ⟨rfl, h2⟩ := h2
      have p := a2 y (by rw [h2]; simp) v hy
      have q := b1 x (by rw [h1]; simp) w hx
      omega
  · cases t with
    | nil =>
      simp only [List.nil_append, List.cons.injEq] at h2
      obtain ⟨rfl, -⟩ := h2
      rw [hx] at hy; exact (Option.some.inj hy)
    | cons z t =>
      simp only [List.cons_append, List.cons.injEq] at h2
      obtain ⟨rfl, h2⟩ := h2
      have p := a1 y (by rw [h1]; simp) v hy
      have q := b2 x (by rw [h2]; simp) w hx
      omega

theorem tapLoop_some {mall : Bool} {map : BMap (FixedBytes 20) L.xonly.T} {sat : Satisfier L}
    {l : List (L.ctrl.T × Bytes × LeafVersion)} {w : List Bytes} :
    (∃ n, tapLoop M mall map sat l none = some (w, n)) ↔ LastMin (tapCand M mall map sat) l w := by
  rcases tapLoop_spec (M := M) (mall := mall) (map := map) (sat := sat) l none with ⟨h1, h2⟩ | ⟨v, h1, -, h2⟩
  · rw [h1]
    simp only [reduceCtorEq, exists_false, false_iff]
    rintro ⟨l1, x, l2, rfl, hx, -⟩
    obtain ⟨b, hb, -⟩ := h2 x (by simp) w hx
    cases hb
  · rw [h1]
    constructor
    · rintro ⟨n, h⟩; cases h; exact h2
    · intro h; cases lastMin_unique h h2; exact ⟨_, rfl⟩

theorem tapLoop_none {mall : Bool} {map : BMap (FixedBytes 20) L.xonly.T} {sat : Satisfier L}
    {l : List (L.ctrl.T × Bytes × LeafVersion)} :
    tapLoop M mall map sat l none = none ↔ ∀ y ∈ l, tapCand M mall map sat y = none := by
  rcases tapLoop_spec (M := M) (mall := mall) (map := map) (sat := sat) l none with ⟨h1, h2⟩ | ⟨v, h1, -, l1, x, l2, rfl, hx, -⟩
  · rw [h1]
    simp only [true_iff]
    intro y hy
    cases h : tapCand M mall map sat y with
    | none => rfl
    | some w => obtain ⟨b, hb, -⟩ := h2 y hy w h; cases hb
  · rw [h1]
    simp only [reduceCtorEq, false_iff]
    intro h
    rw [h x (by simp)] at hx; cases hx

theorem varintLen_eq (n : Nat) : varintLen n = (encVar n).length := by
  unfold varintLen encVar
  split
  · rfl
  · split
    · simp [leEnc]
    · split <;> simp [leEnc]

theorem witnessSize_eq (w : List Bytes) : witnessSize w = size w := by
  unfold witnessSize size
  rw [varintLen_eq, List.length_flatten, compact_fun]

theorem constructTap_iff {mall : Bool} {keys : List L.xonly.T} {spk : Bytes} {sat : Satisfier L} (h : P2tr spk) {r} :
    constructTapWitness M mall keys spk sat = mapErr .err r ↔ TapResult M mall (tapHashMap keys) sat r := by
  unfold constructTapWitness
  rw [if_neg (by simp [isP2tr_iff.mpr h])]
  cases hk : sat.tapKeySpendSig with
  | some sig =>
    simp only
    have e : tapSigCodec.ser sig = sig.sig.1 ++ if sig.ty.1 = 0 then [] else [sig.ty.1] := by
      show (if sig.ty.1 = 0 then _ else _) = _
      split <;> simp
    rw [e]
    constructor
    · intro h
      cases r with
      | error e => cases h
      | ok w => cases h; exact .key hk
    · intro h
      cases h with
      | key h => rw [hk] at h; cases h; rfl
      | leaf h => rw [hk] at h; cases h
      | none h => rw [hk] at h; cases h
  | none =>
    simp only
    have hc : ∀ x w, tapCand M mall (tapHashMap keys) sat x = some w ↔
        LeafWitness M mall (tapHashMap keys) sat x.1 x.2.1 x.2.2 w := fun x w => tapCandidate_iff
    cases hl : tapLoop M mall (tapHashMap keys) sat sat.tapControlBlocks.l none with
    | none =>
      simp only
      have hn := tapLoop_none.mp hl
      constructor
      · intro h
        cases r with
        | ok w => cases h
        | error e =>
          cases h
          refine .none hk fun cb script ver w hm hw => ?_
          have := hn _ hm
          rw [(hc (cb, script, ver) w).mpr hw] at this
          cases this
      · intro h
        cases h with
        | key h => rw [hk] at h; cases h
        | leaf _ e hw =>
          have := hn _ (by rw [e]; exact List.mem_append_right _ List.mem_cons_self)
          rw [(hc (_, _, _) _).mpr hw] at this
          cases this
        | none => rfl
    | some wn =>
      obtain ⟨w, n⟩ := wn
      simp only
      obtain ⟨l1, ⟨cb, script, ver⟩, l2, e, hx, h1, h2⟩ := tapLoop_some.mp ⟨n, hl⟩
      constructor
      · intro h
        cases r with
        | error e => cases h
        | ok w' =>
          cases h
          refine .leaf hk e ((hc _ _).mp hx) (fun cb' s' v' w' hm hw => ?_) (fun cb' s' v' w' hm hw => ?_)
          · rw [← witnessSize_eq, ← witnessSize_eq]; exact h1 _ hm w' ((hc _ _).mpr hw)
          · rw [← witnessSize_eq, ← witnessSize_eq]; exact h2 _ hm w' ((hc _ _).mpr hw)
      · intro h
        cases h with
        | key h => rw [hk] at h; cases h
        | leaf _ e' hw g1 g2 =>
          have : LastMin (tapCand M mall (tapHashMap keys) sat) sat.tapControlBlocks.l _ :=
            ⟨_, _, _, e', (hc _ _).mpr hw, fun y hy w' h => by
                rw [witnessSize_eq, witnessSize_eq]; exact g1 _ _ _ w' hy ((hc _ _).mp h),
              fun y hy w' h => by rw [witnessSize_eq, witnessSize_eq]; exact g2 _ _ _ w' hy ((hc _ _).mp h)⟩
          rw [lastMin_unique ⟨l1, (cb, script, ver), l2, e, hx, h1, h2⟩ this]; rfl
        | none _ hn => exact absurd ((hc _ _).mp hx) (hn cb script ver w (by rw [e]; simp))

/-! ### Key hashes -/

theorem foldl_insert_get {K V A : Type} [OrdKey K] [DecidableEq K] (f : A → K) (g : A → V) (l : List A) (m : BMap K V) (h : K) :
    (l.foldl (fun m a => m.insert (f a) (g a)) m).get h =
      match (l.filter (fun a => decide (f a = h))).getLast? with
      | some a => some (g a)
      | none => m.get h := by
  induction l generalizing m with
  | nil => rfl
  | cons a l ih =>
    rw [List.foldl_cons, ih, List.filter_cons]
    by_cases e : f a = h
    · simp only [e, decide_true, if_true]
      cases hl : (l.filter (fun a => decide (f a = h))).getLast? with
      | none =>
        rw [List.getLast?_eq_none_iff.mp hl]
        simp only [List.getLast?_singleton]
        rw [BMap.get_insert]; simp
      | some b =>
        rw [List.getLast?_cons, hl]
        simp
    · simp only [e, decide_false, Bool.false_eq_true, if_false]
      cases hl : (l.filter (fun a => decide (f a = h))).getLast? with
      | none => simp only; rw [BMap.get_insert]; simp [Ne.symm e]
      | some b => rfl

theorem filter_getLast? {A : Type} {p : A → Bool} {l : List A} {a : A} :
    (l.filter p).getLast? = some a ↔ ∃ l1 l2, l = l1 ++ a :: l2 ∧ p a = true ∧ ∀ b ∈ l2, p b = false := by
  induction l with
  | nil => simp
  | cons x l ih =>
    rw [List.filter_cons]
    constructor
    · intro h
      split at h
      · rename_i hx
        rw [List.getLast?_cons] at h
        cases hl : (l.filter p).getLast? with
        | none =>
          rw [hl] at h
          simp only [Option.getD_none, Option.some.injEq] at h
          subst h
          refine ⟨[], l, rfl, hx, fun b hb => ?_⟩
          have := List.filter_eq_nil_iff.mp (List.getLast?_eq_none_iff.mp hl) b hb
          simpa using this
        | some b =>
          rw [hl] at h
          simp only [Option.getD_some, Option.some.injEq] at h
          subst h
          obtain ⟨l1, l2, rfl, h1, h2⟩ := ih.mp hl
          exact ⟨x :: l1, l2, rfl, h1, h2⟩
      · obtain ⟨l1, l2, rfl, h1, h2⟩ := ih.mp h
        exact ⟨x :: l1, l2, rfl, h1, h2⟩
    · rintro ⟨l1, l2, e, h1, h2⟩
      cases l1 with
      | nil =>
        simp only [List.nil_append, List.cons.injEq] at e
        obtain ⟨rfl, rfl⟩ := e
        rw [if_pos h1, List.filter_eq_nil_iff.mpr (by intro b hb; simp [h2 b hb])]
        rfl
      | cons y l1 =>
        simp only [List.cons_append, List.cons.injEq] at e
        obtain ⟨rfl, e⟩ := e
        have := ih.mpr ⟨l1, l2, e, h1, h2⟩
        split
        · rw [List.getLast?_cons, this]; rfl
        · exact this

/-- Which key the hash map holds for a hash. -/
theorem keyMap_get {K V A : Type} [OrdKey K] [DecidableEq K] (f : A → K) (g : A → V) (l : List A) (h : K) (v : V) :
    (l.foldl (fun m a => m.insert (f a) (g a)) BMap.empty).get h = some v ↔
      ∃ l1 a l2, l = l1 ++ a :: l2 ∧ f a = h ∧ g a = v ∧ ∀ b ∈ l2, f b ≠ h := by
  rw [foldl_insert_get]
  cases hl : (l.filter (fun a => decide (f a = h))).getLast? with
  | none =>
    simp only
    constructor
    · intro h; cases h
    · rintro ⟨l1, a, l2, rfl, h1, -⟩
      have := List.filter_eq_nil_iff.mp (List.getLast?_eq_none_iff.mp hl) a (by simp)
      simp [h1] at this
  | some a =>
    obtain ⟨l1, l2, rfl, h1, h2⟩ := filter_getLast?.mp hl
    simp only [decide_eq_true_eq, decide_eq_false_iff_not, Option.some.injEq] at h1 h2 ⊢
    constructor
    · rintro rfl; exact ⟨l1, a, l2, rfl, h1, rfl, h2⟩
    · rintro ⟨m1, b, m2, e, k1, k2, k3⟩
      have : ((l1 ++ a :: l2).filter (fun a => decide (f a = h))).getLast? = some b :=
        filter_getLast?.mpr ⟨m1, m2, e, by simpa using k1, by simpa using k3⟩
      rw [hl] at this
      cases this
      exact k2

theorem hashMap_get {keys : List L.secpPk.T} {h : FixedBytes 20} {k : L.pubkey.T} :
    (hashMap M keys).get h = some k ↔ HashesTo (fun k : L.pubkey.T => L.hash160 k.bytes) M.ofSecp keys h k := by
  unfold hashMap HashesTo
  rw [keyMap_get (fun a => L.hash160 (M.ofSecp a).bytes) M.ofSecp]
  constructor
  · rintro ⟨l1, a, l2, h1, h2, rfl, h3⟩; exact ⟨l1, a, l2, h1, rfl, h2, h3⟩
  · rintro ⟨l1, a, l2, h1, rfl, h2, h3⟩; exact ⟨l1, a, l2, h1, h2, rfl, h3⟩

theorem tapHashMap_get {keys : List L.xonly.T} {h : FixedBytes 20} {k : L.xonly.T} :
    (tapHashMap keys).get h = some k ↔ HashesTo (fun k : L.xonly.T => L.hash160 k.bytes) (fun k => k) keys h k := by
  unfold tapHashMap HashesTo
  rw [keyMap_get (fun a : L.xonly.T => L.hash160 a.bytes) (fun a => a)]
  constructor
  · rintro ⟨l1, a, l2, h1, h2, rfl, h3⟩; exact ⟨l1, a, l2, h1, rfl, h2, h3⟩
  · rintro ⟨l1, a, l2, h1, rfl, h2, h3⟩; exact ⟨l1, a, l2, h1, h2, rfl, h3⟩

end Psbt
