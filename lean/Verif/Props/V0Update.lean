/- C71, C72: filling in the inputs and outputs of a PSBT v0 from descriptors. -/
import Verif.Lemmas.V0Update
import Verif.Props.V0Sign
import Verif.Props.V0Finalize
namespace Psbt.V0
open Psbt Psbt.Spec Psbt.Spec.V0

variable {L : Lib} {U : UpdLib L}

section Examples
/-- The bytes 1 to 0xfe are keys, 0xff is one that cannot be derived; scripts list the first bytes of their keys. -/
def uLib : UpdLib gL where
  Key := UInt8
  derive b := if b = 0xff then .error .hardenedChild else .ok (Demo.val 33 (by decide) b)
  fingerprint b := Demo.rep 4 b
  path b := some [b.toUInt32]
  inner pk := pk
  xonly pk := Demo.val 32 (by decide) (pk.bytes.headD 0)
  Shape := UInt8
  encode m := m.shape :: m.keys.map fun k => k.bytes.headD 0
  tapEncode m := 0xee :: m.shape :: m.keys.map fun k => k.bytes.headD 0
  outputKey x _ := x
  outputOdd x _ := x.bytes.headD 0 == 5
/-- The scripts of the derived descriptors below. -/
def uMs : Mini UInt8 UInt8 := ⟨9, [4, 3, 4]⟩
def uWsh : Descriptor uLib.Shape uLib.Key := .plain (.wsh uMs)
def uShWsh : Descriptor uLib.Shape uLib.Key := .plain (.shWsh uMs)
def uTr : Descriptor uLib.Shape uLib.Key := .tr (5 : UInt8) [(1, uMs), (1, (⟨8, [5, 6]⟩ : Mini UInt8 UInt8))]
/-- One leaf where there should be two. -/
def uHalf : Descriptor uLib.Shape uLib.Key := .tr (5 : UInt8) [(1, uMs)]
def uBad : Descriptor uLib.Shape uLib.Key := .plain (.wsh (⟨9, [4, 0xff]⟩ : Mini UInt8 UInt8))
def uWshSpk : Bytes := toP2wsh gL [9, 4, 3, 4]
def uShWshSpk : Bytes := toP2sh gL uWshSpk
def uTrSpk : Bytes := [0x51, 0x20] ++ List.replicate 32 5
def uDone (r : Out Empty (Psbt gL × Except UpdateErr Unit)) (p : Psbt gL) : Psbt gL := match r with | .ok (q, _) => q | .error _ => p
/-- The PSBT with an output with this script. -/
def uOut (spk : Bytes) : Psbt gL :=
  { gP [gIn V2.fSpk] with unsignedTx := ⟨2, 0, [⟨⟨Demo.rep 32 7, 0⟩, [], 0xFFFFFFFF, []⟩], [⟨500, spk⟩]⟩ }
end Examples

theorem uDefinite (d : Descriptor uLib.Shape uLib.Key) : Definite uLib d := by
  intro k _ pk _ h; cases h

/-! ### C71 -/

/-- C71. Updating an input succeeds exactly if the input is there, its UTXO fields agree, and the script of the output spent is
the one the descriptor stands for; then the input is updated, and nothing else in the PSBT changes. -/
theorem C71_updated_iff {p : Psbt L} {n : Nat} {d : Descriptor U.Shape U.Key} (hd : Definite U d) {q : Psbt L} :
    p.updateInput U n d = .ok (q, .ok ()) ↔
      ∃ t i u j, HasInput p n t i ∧ UtxoAgree (Segwit d) t i u ∧ ScriptOf U d u.scriptPubkey ∧
        InputUpdated U d i j ∧ q = withInput p n j := by
  have hc := input_case (p := p) (n := n) hd
  generalize p.updateInput U n d = r at hc ⊢
  cases hc with
  | refused h =>
    refine ⟨fun h => (by cases h), ?_⟩
    rintro ⟨t, i, u, j, h1, h2, h3, -⟩
    exact (h.not_updated h1 h2 h3).elim
  | panics h1 h2 h3 h4 h5 =>
    refine ⟨fun h => (by cases h), ?_⟩
    rintro ⟨t, i, u, j, -, -, h6, -⟩
    exact absurd ⟨h6.compressed, h6.treeValid⟩ h5
  | @updated t i u j x h1 h2 h3 h4 h5 h6 h7 =>
    constructor
    · intro h
      cases h
      exact ⟨t, i, u, j, h1, h2, h4, h7, rfl⟩
    · rintro ⟨t', i', u', j', h1', h2', h4', h7', rfl⟩
      obtain ⟨rfl, rfl⟩ := hasInput_unique h1 h1'
      rw [h7.unique ⟨_, h3⟩ h7']
-- P2WSH, nested P2WSH, and taproot inputs are updated.
example : (gP [gIn uWshSpk]).updateInput uLib 0 uWsh = .ok (gP [{ gIn uWshSpk with
    witnessScript := some [9, 4, 3, 4]
    bip32Derivation := (BMap.empty.insert (Demo.val 33 (by decide) 3) (Demo.rep 4 3, [3])).insert (Demo.val 33 (by decide) 4) (Demo.rep 4 4, [4]) }],
    .ok ()) := by decide +kernel
example : (uDone ((gP [gIn uShWshSpk]).updateInput uLib 0 uShWsh) (gP [])).inputs.map (fun i => (i.redeemScript, i.witnessScript)) =
    [(some uWshSpk, some [9, 4, 3, 4])] := by decide +kernel
example : (uDone ((gP [gIn uTrSpk]).updateInput uLib 0 uTr) (gP [])).inputs.map (fun i => i.tapKeyOrigins.l) =
    [[(gX 3, ([leafHash gL [0xee, 9, 4, 3, 4]], (Demo.rep 4 3, [3]))), (gX 4, ([leafHash gL [0xee, 9, 4, 3, 4]], (Demo.rep 4 4, [4]))),
      (gX 5, ([leafHash gL [0xee, 8, 5, 6]], (Demo.rep 4 5, [5]))), (gX 6, ([leafHash gL [0xee, 8, 5, 6]], (Demo.rep 4 6, [6])))]] := rfl

/-- C71. There is only one way to update an input. -/
theorem C71_unique {d : Descriptor U.Shape U.Key} {s : Bytes} (hs : ScriptOf U d s) {i j k : Input L} (hj : InputUpdated U d i j)
    (hk : InputUpdated U d i k) : j = k := by
  obtain ⟨x, hx, -⟩ := scriptOf_iff.mp hs
  exact hj.unique ⟨x, hx⟩ hk

/-- C71. The errors, and that the PSBT is unchanged after them. -/
theorem C71_refused_iff {p : Psbt L} {n : Nat} {d : Descriptor U.Shape U.Key} (hd : Definite U d) {q : Psbt L} {e : UpdateErr} :
    p.updateInput U n d = .ok (q, .error e) ↔ q = p ∧ InputRefusal U p n d e := by
  have hc := input_case (p := p) (n := n) hd
  generalize p.updateInput U n d = r at hc ⊢
  cases hc with
  | refused h =>
    constructor
    · intro h'; cases h'; exact ⟨rfl, h⟩
    · rintro ⟨rfl, h'⟩; rw [h.unique h']
  | panics h1 h2 h3 h4 h5 =>
    refine ⟨fun h => (by cases h), ?_⟩
    rintro ⟨-, h⟩
    exact (h.not_panics h1 h2 h3 h4).elim
  | updated h1 h2 h3 h4 h5 h6 h7 =>
    refine ⟨fun h => (by cases h), ?_⟩
    rintro ⟨-, h⟩
    exact (h.not_updated h1 h2 h4).elim
-- All five errors occur.
example : (gP [gIn uWshSpk]).updateInput uLib 1 uWsh = .ok (gP [gIn uWshSpk], .error (.indexOutOfBounds 1 1)) := by decide +kernel
example : ({ gP [] with inputs := [gIn uWshSpk] } : Psbt gL).updateInput uLib 0 uWsh =
    .ok ({ gP [] with inputs := [gIn uWshSpk] }, .error .missingInputUtxo) := by decide +kernel
example : (gP [Input.default gL]).updateInput uLib 0 uWsh = .ok (gP [Input.default gL], .error .utxoCheck) := by decide +kernel
example : (gP [gIn uWshSpk]).updateInput uLib 0 (.plain (.pkh (4 : UInt8))) = .ok (gP [gIn uWshSpk], .error .utxoCheck) := by decide +kernel
example : (gP [gIn uWshSpk]).updateInput uLib 0 uBad = .ok (gP [gIn uWshSpk], .error (.derivation .hardenedChild)) := by decide +kernel
example : (gP [gIn uWshSpk]).updateInput uLib 0 uShWsh = .ok (gP [gIn uWshSpk], .error .mismatchedScriptPubkey) := by decide +kernel

/-- C71. It panics exactly if all keys can be derived and the key of a P2WPKH descriptor is not compressed, or the leaves
are not those of a tree. -/
theorem C71_panic_iff {p : Psbt L} {n : Nat} {d : Descriptor U.Shape U.Key} (hd : Definite U d) :
    (∃ w, p.updateInput U n d = .error (.panic w)) ↔
      ∃ t i u x, HasInput p n t i ∧ UtxoAgree (Segwit d) t i u ∧ DescrIs U d x ∧
        ¬ (Compressed U d ∧ TreeValid U d) := by
  have hc := input_case (p := p) (n := n) hd
  generalize p.updateInput U n d = r at hc ⊢
  cases hc with
  | refused h =>
    refine ⟨fun ⟨_, h⟩ => (by cases h), ?_⟩
    rintro ⟨t, i, u, x, h1, h2, h3, h4⟩
    refine (h.not_panics h1 h2 h3 ?_).elim
    exact fun s hs => absurd ⟨hs.compressed, hs.treeValid⟩ h4
  | @panics w t i u x h1 h2 h3 h4 h5 =>
    exact ⟨fun _ => ⟨t, i, u, x, h1, h2, h3, h5⟩, fun _ => ⟨w, rfl⟩⟩
  | updated h1 h2 h3 h4 h5 h6 h7 =>
    refine ⟨fun ⟨_, h⟩ => (by cases h), ?_⟩
    rintro ⟨t, i, u, x, -, -, -, h⟩
    exact absurd ⟨h5, h6⟩ h
-- Half a tree makes it panic.
example : ∃ w, (gP [gIn uTrSpk]).updateInput uLib 0 uHalf = .error (.panic w) := ⟨_, rfl⟩

/-- C71. Updating again changes nothing. -/
theorem C71_idempotent {p q : Psbt L} {n : Nat} {d : Descriptor U.Shape U.Key} (hd : Definite U d)
    (h : p.updateInput U n d = .ok (q, .ok ())) : q.updateInput U n d = .ok (q, .ok ()) := by
  obtain ⟨t, i, u, j, h1, h2, h3, h5, rfl⟩ := (C71_updated_iff hd).mp h
  have hlt := (List.getElem?_eq_some_iff.mp h1.2).1
  have hj : HasInput (withInput p n j) n t j := ⟨h1.1, by simp [withInput, hlt]⟩
  refine (C71_updated_iff hd).mpr ⟨t, j, u, j, hj, ?_, h3, h5.again, ?_⟩
  · unfold UtxoAgree at h2 ⊢
    rw [h5.utxo.1, h5.utxo.2]
    exact h2
  · simp [withInput]

/-- C71. Updating an input without the checks does the same to the input, whatever it spends, and gives the descriptor with
its keys derived. -/
theorem C71_unchecked_iff {i j : Input L} {d : Descriptor U.Shape U.Key} (hd : Definite U d) {x : Descriptor U.Shape L.pubkey.T} :
    i.updateUnchecked U d = .ok (j, .ok x) ↔ DescrIs U d x ∧ Compressed U d ∧ TreeValid U d ∧ InputUpdated U d i j := by
  unfold Input.updateUnchecked
  have hc := item_case (f := i.fields) (check := none) hd
  generalize updateItem U i.fields d none = r at hc ⊢
  cases hc with
  | fails h =>
    refine ⟨fun h => (by cases h), ?_⟩
    rintro ⟨h', -⟩
    exact (h.not_descr h').elim
  | differs _ _ h => cases h
  | panics hx _ h =>
    refine ⟨fun h => (by cases h), ?_⟩
    rintro ⟨-, h1, h2, -⟩
    exact absurd ⟨h1, h2⟩ h
  | updated hx hs _ hc hb hf =>
    constructor
    · intro h
      cases h
      exact ⟨hx, hc, hb, hf.input⟩
    · rintro ⟨h1, -, -, h2⟩
      rw [← hf.input.unique ⟨_, hx⟩ h2, hx.unique h1]
      rfl
example : (gIn uTrSpk).updateUnchecked uLib uTr =
    .ok ((uDone ((gP [gIn uTrSpk]).updateInput uLib 0 uTr) (gP [])).inputs.headD (gIn []),
      .ok (.tr (Demo.val 33 (by decide) 5) [(1, ⟨(9 : UInt8), [Demo.val 33 (by decide) 4, Demo.val 33 (by decide) 3, Demo.val 33 (by decide) 4]⟩),
        (1, ⟨(8 : UInt8), [Demo.val 33 (by decide) 5, Demo.val 33 (by decide) 6]⟩)])) := by rfl

/-- C71. The only error then is that of the first key that cannot be derived, and the input is unchanged. -/
theorem C71_unchecked_error_iff {i j : Input L} {d : Descriptor U.Shape U.Key} (hd : Definite U d) {e : ConvErr} :
    i.updateUnchecked U d = .ok (j, .error e) ↔ j = i ∧ FirstFailure U (allKeys d) e := by
  unfold Input.updateUnchecked
  have hc := item_case (f := i.fields) (check := none) hd
  generalize updateItem U i.fields d none = r at hc ⊢
  cases hc with
  | fails h =>
    constructor
    · intro h'; cases h'; exact ⟨rfl, h⟩
    · rintro ⟨rfl, h'⟩; rw [h.unique h']; rfl
  | differs _ _ h => cases h
  | panics hx _ h =>
    refine ⟨fun h => (by cases h), ?_⟩
    rintro ⟨-, h1⟩
    exact (h1.not_descr hx).elim
  | updated hx hs _ hc hb hf =>
    refine ⟨fun h => (by cases h), ?_⟩
    rintro ⟨-, h1⟩
    exact (h1.not_descr hx).elim
example : (gIn uWshSpk).updateUnchecked uLib uBad = .ok (gIn uWshSpk, .error .hardenedChild) := by rfl

theorem funded_after {d : Descriptor U.Shape U.Key} {t : TxIn} {i j : Input L} {u : TxOut} (h2 : UtxoAgree (Segwit d) t i u)
    (h5 : InputUpdated U d i j) : Spec.V0.FundedBy t j u := by
  obtain ⟨e1, e2⟩ := h5.utxo
  rcases h2.1 with hw | ⟨hw, hn⟩
  · exact .witness (e1.trans hw)
  · cases hn' : i.nonWitnessUtxo with
    | none => exact absurd hn' hn
    | some tx => exact .nonWitness (e1.trans hw) (e2.trans hn') (h2.2.1 tx hn').2

theorem scripts_commit {e : Plain U.Shape U.Key} {r w : Option Bytes} {spk : Bytes} (hs : ScriptsSet U none none e r w)
    (h3 : ScriptOf U (.plain e) spk) : (∀ s, r = some s → P2shFor L spk s) ∧
      ∀ s, w = some s → P2wshFor L spk s ∨ ∃ s', r = some s' ∧ P2wshFor L s' s := by
  cases hs
  case bare | pkh | wpkh => simp
  case sh h => cases h3 with | sh h' => cases h.unique h'; simp [P2shFor]
  case shWpkh h => cases h3 with | shWpkh h' => cases h.symm.trans h'; simp [P2shFor]
  case shWsh h => cases h3 with | shWsh h' => cases h.unique h'; simp [P2shFor, P2wshFor]
  case wsh h => cases h3 with | wsh h' => cases h.unique h'; simp [P2wshFor]

theorem segwit_scripts {e : Plain U.Shape U.Key} {r w : Option Bytes} {spk : Bytes} (hs : ScriptsSet U none none e r w)
    (h3 : ScriptOf U (.plain e) spk) (he : Segwit (.plain e)) :
    (P2wpkh spk ∧ r = none ∧ w = none) ∨ (∃ s, r = none ∧ w = some s ∧ CommitsWsh L spk s) ∨
    (∃ s, r = some s ∧ w = none ∧ CommitsSh L spk s ∧ P2wpkh s) ∨
    ∃ s s', r = some s ∧ w = some s' ∧ CommitsSh L spk s ∧ CommitsWsh L s s' := by
  cases hs
  case bare | pkh | sh => exact he.elim
  case wpkh => cases h3 with | wpkh h' => exact .inl ⟨⟨_, rfl⟩, rfl, rfl⟩
  case shWpkh h => cases h3 with | shWpkh h' => cases h.symm.trans h'; exact .inr (.inr (.inl ⟨_, rfl, rfl, rfl, _, rfl⟩))
  case shWsh h => cases h3 with | shWsh h' => cases h.unique h'; exact .inr (.inr (.inr ⟨_, _, rfl, rfl, rfl, rfl⟩))
  case wsh h => cases h3 with | wsh h' => cases h.unique h'; exact .inr (.inl ⟨_, rfl, rfl, rfl⟩)

/-- C71. If the input had no redeem script and no witness script, then after the update it meets three of the conditions of
BIP-174 for signing: the non-witness UTXO is the transaction spent from, and the redeem script and the witness script belong to the
output spent. -/
theorem C71_scripts_match {p q : Psbt L} {n : Nat} {d : Descriptor U.Shape U.Key} (hd : Definite U d)
    (h : p.updateInput U n d = .ok (q, .ok ())) {t : TxIn} {i : Input L} (hi : HasInput p n t i) (hr : i.redeemScript = none)
    (hw : i.witnessScript = none) :
    ∃ j, HasInput q n t j ∧ UtxoMatches t j ∧ RedeemMatches t j ∧ WitnessScriptMatches t j := by
  obtain ⟨t', i', u, j, h1, h2, h3, h5, rfl⟩ := (C71_updated_iff hd).mp h
  obtain ⟨rfl, rfl⟩ := hasInput_unique hi h1
  have hlt := (List.getElem?_eq_some_iff.mp h1.2).1
  have hf : Spec.V0.FundedBy t j u := funded_after h2 h5
  have hrw : (∀ r, j.redeemScript = some r → P2shFor L u.scriptPubkey r) ∧
      (∀ w, j.witnessScript = some w → P2wshFor L u.scriptPubkey w ∨ ∃ r, j.redeemScript = some r ∧ P2wshFor L r w) := by
    cases d with
    | tr ik ls =>
      have ht := (h5.tr _ _ rfl).1
      have a : j.redeemScript = none := ht.redeem.trans hr
      have b : j.witnessScript = none := ht.witness.trans hw
      simp [a, b]
    | plain e =>
      have hs := (h5.plain _ rfl).1.scripts
      simp only [ofInput, hr, hw] at hs
      exact scripts_commit hs h3
  refine ⟨j, ⟨h1.1, by simp [withInput, hlt]⟩, ?_, fun r hr' => ⟨u, hf, hrw.1 r hr'⟩, fun w hw' => ⟨u, hf, hrw.2 w hw'⟩⟩
  intro tx htx
  exact (h2.2.1 tx (h5.utxo.2 ▸ htx)).1
-- Scripts that were there before are kept if they do not belong to the descriptor: the input then does not meet the conditions.
example : (uDone ((gP [{ gIn uWshSpk with redeemScript := some [1] }]).updateInput uLib 0 uWsh) (gP [])).inputs.map
    (fun i => (i.redeemScript, i.witnessScript)) = [(some [1], some [9, 4, 3, 4])] := by decide +kernel

/-- The first two bytes of scripts. -/
theorem head_wsh {s : Bytes} (h : P2wsh s) : s[0]? = some 0x00 ∧ s[1]? = some 0x20 := by obtain ⟨h, rfl⟩ := h; simp
theorem head_wpkh {s : Bytes} (h : P2wpkh s) : s[0]? = some 0x00 ∧ s[1]? = some 0x14 := by obtain ⟨h, rfl⟩ := h; simp
theorem head_sh {s : Bytes} (h : P2sh s) : s[0]? = some 0xa9 := by obtain ⟨h, rfl⟩ := h; simp
theorem head_pkh {s : Bytes} (h : P2pkh s) : s[0]? = some 0x76 := by obtain ⟨h, rfl⟩ := h; simp
theorem head_pk {k s : Bytes} (h : P2pk k s) : s[0]? = some 0x21 ∨ s[0]? = some 0x41 := by
  rcases h with ⟨_, rfl⟩ | ⟨_, rfl⟩ <;> simp

/-- What is wrong if the finalizer fails for another reason. -/
theorem descr_error {M : MsLib L} {map sigs spk r w err} (h : Descr M map sigs spk r w (.error err)) :
    err = .missingPubkey ∨ err = .miniscript ∨ (∃ k, P2pk k spk) ∨
    (P2wsh spk ∧ (r ≠ none ∨ w = none ∨ ∃ x, w = some x ∧ ¬ CommitsWsh L spk x)) ∨
    (P2sh spk ∧ (r = none ∨ ∃ s, r = some s ∧ ¬ CommitsSh L spk s)) ∨
    (P2sh spk ∧ ∃ s, r = some s ∧ P2wsh s ∧ (w = none ∨ ∃ x, w = some x ∧ ¬ CommitsWsh L s x)) ∨
    (P2sh spk ∧ ∃ s, r = some s ∧ ¬ P2wsh s ∧ ¬ P2wpkh s) ∨
    (¬ P2wpkh spk ∧ ¬ P2wsh spk ∧ ¬ P2sh spk) := by
  have made : ∀ {dd : Desc L M.Ms}, Made M dd (.error err) → err = .miniscript := by
    intro dd h; cases h; rfl
  have parsed : ∀ {ctx s mk}, Parsed M ctx s mk (.error err) → err = .miniscript := by
    intro ctx s mk h
    cases h with
    | ok _ h => exact made h
    | fails => rfl
  cases h with
  | pkInvalid h => exact .inr (.inr (.inl ⟨_, h⟩))
  | pkhMissing | wpkhMissing | shWpkhMissing => exact .inl rfl
  | pkh _ _ h | wpkh _ _ h | shWpkh _ _ _ _ h => exact .inr (.inl (made h))
  | wsh _ _ _ h | shWsh _ _ _ _ h | sh _ _ _ _ _ h | bare _ _ _ _ _ _ _ h => exact .inr (.inl (parsed h))
  | wshRedeem h h' => exact .inr (.inr (.inr (.inl ⟨h, .inl h'⟩)))
  | wshMissing h _ h' => exact .inr (.inr (.inr (.inl ⟨h, .inr (.inl h')⟩)))
  | wshInvalid h _ h1 h2 => exact .inr (.inr (.inr (.inl ⟨h, .inr (.inr ⟨_, h1, h2⟩)⟩)))
  | shMissing h h' => exact .inr (.inr (.inr (.inr (.inl ⟨h, .inl h'⟩))))
  | shInvalid h h1 h2 => exact .inr (.inr (.inr (.inr (.inl ⟨h, .inr ⟨_, h1, h2⟩⟩))))
  | shWshMissing h1 h2 h3 h4 => exact .inr (.inr (.inr (.inr (.inr (.inl ⟨⟨_, h2⟩, _, h1, h3, .inl h4⟩)))))
  | shWshInvalid h1 h2 h3 h4 h5 => exact .inr (.inr (.inr (.inr (.inr (.inl ⟨⟨_, h2⟩, _, h1, h3, .inr ⟨_, h4, h5⟩⟩)))))
  | shWitness h1 h2 h3 h4 => exact .inr (.inr (.inr (.inr (.inr (.inr (.inl ⟨⟨_, h2⟩, _, h1, h3, h4⟩))))))
  | bareWitness _ _ h1 h2 h3 | bareRedeem _ _ h1 h2 h3 => exact .inr (.inr (.inr (.inr (.inr (.inr (.inr ⟨h1, h2, h3⟩))))))

/-- C71. After updating an input that had no scripts with a segwit descriptor that is not taproot, the finalizer finds the
scripts it needs: it can still fail only because a public key has no signature, or because rust-miniscript refuses the script. -/
theorem C71_finalizer_ready {M : MsLib L} {p q : Psbt L} {n : Nat} {e : Plain U.Shape U.Key} (hd : Definite U (.plain e))
    (hs : Segwit (.plain e)) (h : p.updateInput U n (.plain e) = .ok (q, .ok ())) {t : TxIn} {i : Input L} (hi : HasInput p n t i)
    (hr : i.redeemScript = none) (hw : i.witnessScript = none) {j : Input L} {u : TxOut} (hj : HasInput q n t j)
    (hu : Spec.V0.FundedBy t j u) {map sigs err}
    (hD : Descr M map sigs u.scriptPubkey j.redeemScript j.witnessScript (.error err)) : err = .missingPubkey ∨ err = .miniscript := by
  obtain ⟨t', i', u', j', h1, h2, h3, h5, rfl⟩ := (C71_updated_iff hd).mp h
  obtain ⟨rfl, rfl⟩ := hasInput_unique hi h1
  have hlt := (List.getElem?_eq_some_iff.mp h1.2).1
  obtain ⟨-, rfl⟩ := hasInput_unique hj (⟨h1.1, by simp [withInput, hlt]⟩ : HasInput (withInput p n j') n t j')
  cases fundedBy_unique hu (funded_after h2 h5)
  have hset := (h5.plain _ rfl).1.scripts
  simp only [ofInput, hr, hw] at hset
  have hcase := segwit_scripts hset h3 hs
  generalize j.redeemScript = r', j.witnessScript = w' at hcase hD
  generalize u.scriptPubkey = spk at hcase hD
  have hD := descr_error hD
  rcases hcase with ⟨h, rfl, rfl⟩ | ⟨s, rfl, rfl, h⟩ | ⟨s, rfl, rfl, h, h'⟩ | ⟨s, s', rfl, rfl, h, h'⟩
  · have := head_wpkh h
    rcases hD with h1 | h1 | ⟨k, h1⟩ | ⟨h1, -⟩ | ⟨h1, -⟩ | ⟨h1, -⟩ | ⟨h1, -⟩ | ⟨h1, -, -⟩
    · exact .inl h1
    · exact .inr h1
    · have := head_pk h1; simp_all
    · have := head_wsh h1; simp_all
    · have := head_sh h1; simp_all
    · have := head_sh h1; simp_all
    · have := head_sh h1; simp_all
    · exact absurd h h1
  · have hp : P2wsh spk := ⟨_, h⟩
    have := head_wsh hp
    rcases hD with h1 | h1 | ⟨k, h1⟩ | ⟨-, h1 | h1 | ⟨x, h1, h2⟩⟩ | ⟨h1, -⟩ | ⟨h1, -⟩ | ⟨h1, -⟩ | ⟨-, h1, -⟩
    · exact .inl h1
    · exact .inr h1
    · have := head_pk h1; simp_all
    · exact absurd rfl h1
    · cases h1
    · cases h1; exact absurd h h2
    · have := head_sh h1; simp_all
    · have := head_sh h1; simp_all
    · have := head_sh h1; simp_all
    · exact absurd hp h1
  · have hp : P2sh spk := ⟨_, h⟩
    have hh := head_sh hp
    rcases hD with h1 | h1 | ⟨k, h1⟩ | ⟨h1, -⟩ | ⟨-, h1 | ⟨x, h1, h2⟩⟩ | ⟨-, x, h1, h2, -⟩ | ⟨-, x, h1, -, h2⟩ | ⟨-, -, h1⟩
    · exact .inl h1
    · exact .inr h1
    · have := head_pk h1; simp_all
    · have := head_wsh h1; simp_all
    · cases h1
    · cases h1; exact absurd h h2
    · cases h1
      have := head_wsh h2; have := head_wpkh h'; simp_all
    · cases h1; exact absurd h' h2
    · exact absurd hp h1
  · have hp : P2sh spk := ⟨_, h⟩
    have hh := head_sh hp
    rcases hD with h1 | h1 | ⟨k, h1⟩ | ⟨h1, -⟩ | ⟨-, h1 | ⟨x, h1, h2⟩⟩ | ⟨-, x, h1, -, h2 | ⟨y, h2, h3⟩⟩ | ⟨-, x, h1, h2, -⟩ | ⟨-, -, h1⟩
    · exact .inl h1
    · exact .inr h1
    · have := head_pk h1; simp_all
    · have := head_wsh h1; simp_all
    · cases h1
    · cases h1; exact absurd h h2
    · cases h2
    · cases h1; cases h2; exact absurd h' h3
    · cases h1; exact absurd ⟨_, h'⟩ h2
    · exact absurd hp h1
-- The hypotheses are met: the input then has a redeem script and a witness script.
example : ∃ i ∈ (uDone ((gP [gIn uShWshSpk]).updateInput uLib 0 uShWsh) (gP [])).inputs, i.redeemScript ≠ none ∧ i.witnessScript ≠ none := by
  decide +kernel
example : (gIn uShWshSpk).redeemScript = none ∧ (gIn uShWshSpk).witnessScript = none := ⟨rfl, rfl⟩

/-! ### C72 -/

/-- C72. Updating an output succeeds exactly if the output is there, and its script is the one the descriptor stands for; then the
output is updated, and nothing else in the PSBT changes. -/
theorem C72_updated_iff {p : Psbt L} {n : Nat} {d : Descriptor U.Shape U.Key} (hd : Definite U d) {q : Psbt L} :
    p.updateOutput U n d = .ok (q, .ok ()) ↔
      ∃ t o j, p.outputs[n]? = some o ∧ p.unsignedTx.output[n]? = some t ∧ ScriptOf U d t.scriptPubkey ∧
        OutputUpdated U d o j ∧ q = { p with outputs := p.outputs.set n j } := by
  have hc := output_case (p := p) (n := n) hd
  generalize p.updateOutput U n d = r at hc ⊢
  cases hc with
  | refused h =>
    refine ⟨fun h => (by cases h), ?_⟩
    rintro ⟨t, o, j, h1, h2, h3, -⟩
    exact (h.not_updated h1 h2 h3).elim
  | panics h1 h2 h3 h4 h5 =>
    refine ⟨fun h => (by cases h), ?_⟩
    rintro ⟨t, o, j, -, -, h6, -⟩
    exact absurd ⟨h6.compressed, h6.treeValid⟩ h5
  | @updated t o j x h1 h2 h3 h4 h5 h6 h7 =>
    constructor
    · intro h
      cases h
      exact ⟨t, o, j, h1, h2, h4, h7, rfl⟩
    · rintro ⟨t', o', j', h1', h2', h4', h7', rfl⟩
      have := h1.symm.trans h1'; cases this
      rw [h7.unique ⟨_, h3⟩ h7']
-- P2WSH and taproot outputs are updated.
example : ((uOut uWshSpk).updateOutput uLib 0 uWsh) = .ok ({ uOut uWshSpk with
    outputs := [{ Output.default gL with
      witnessScript := some [9, 4, 3, 4]
      bip32Derivation := (BMap.empty.insert (Demo.val 33 (by decide) 3) (Demo.rep 4 3, [3])).insert (Demo.val 33 (by decide) 4) (Demo.rep 4 4, [4]) }] },
    .ok ()) := by decide +kernel
example : (uDone ((uOut uTrSpk).updateOutput uLib 0 uTr) (gP [])).outputs.map (fun o => (o.tapInternalKey, o.tapTree.map TapTree.leaves)) =
    [(some (gX 5), some [⟨1, ⟨0xc0, by decide⟩, [0xee, 9, 4, 3, 4]⟩, ⟨1, ⟨0xc0, by decide⟩, [0xee, 8, 5, 6]⟩])] := rfl

/-- C72. There is only one way to update an output. -/
theorem C72_unique {d : Descriptor U.Shape U.Key} {s : Bytes} (hs : ScriptOf U d s) {o j k : Output L} (hj : OutputUpdated U d o j)
    (hk : OutputUpdated U d o k) : j = k := by
  obtain ⟨x, hx, -⟩ := scriptOf_iff.mp hs
  exact hj.unique ⟨x, hx⟩ hk

/-- C72. The errors, and that the PSBT is unchanged after them. -/
theorem C72_refused_iff {p : Psbt L} {n : Nat} {d : Descriptor U.Shape U.Key} (hd : Definite U d) {q : Psbt L} {e : UpdateErr} :
    p.updateOutput U n d = .ok (q, .error e) ↔ q = p ∧ OutputRefusal U p n d e := by
  have hc := output_case (p := p) (n := n) hd
  generalize p.updateOutput U n d = r at hc ⊢
  cases hc with
  | refused h =>
    constructor
    · intro h'; cases h'; exact ⟨rfl, h⟩
    · rintro ⟨rfl, h'⟩; rw [h.unique h']
  | panics h1 h2 h3 h4 h5 =>
    refine ⟨fun h => (by cases h), ?_⟩
    rintro ⟨-, h⟩
    exact (h.not_panics h1 h2 h3 h4).elim
  | updated h1 h2 h3 h4 h5 h6 h7 =>
    refine ⟨fun h => (by cases h), ?_⟩
    rintro ⟨-, h⟩
    exact (h.not_updated h1 h2 h4).elim
-- All four errors occur.
example : (uOut uWshSpk).updateOutput uLib 1 uWsh = .ok (uOut uWshSpk, .error (.indexOutOfBounds 1 1)) := by decide +kernel
example : ({ uOut uWshSpk with unsignedTx := ⟨2, 0, [], []⟩ } : Psbt gL).updateOutput uLib 0 uWsh =
    .ok ({ uOut uWshSpk with unsignedTx := ⟨2, 0, [], []⟩ }, .error .missingTxOut) := by decide +kernel
example : (uOut uWshSpk).updateOutput uLib 0 uBad = .ok (uOut uWshSpk, .error (.derivation .hardenedChild)) := by decide +kernel
example : (uOut uWshSpk).updateOutput uLib 0 uTr = .ok (uOut uWshSpk, .error .mismatchedScriptPubkey) := by decide +kernel

/-- C72. It panics exactly if all keys can be derived and the key of a P2WPKH descriptor is not compressed, or the leaves
are not those of a tree. -/
theorem C72_panic_iff {p : Psbt L} {n : Nat} {d : Descriptor U.Shape U.Key} (hd : Definite U d) :
    (∃ w, p.updateOutput U n d = .error (.panic w)) ↔
      ∃ t o x, p.outputs[n]? = some o ∧ p.unsignedTx.output[n]? = some t ∧ DescrIs U d x ∧
        ¬ (Compressed U d ∧ TreeValid U d) := by
  have hc := output_case (p := p) (n := n) hd
  generalize p.updateOutput U n d = r at hc ⊢
  cases hc with
  | refused h =>
    refine ⟨fun ⟨_, h⟩ => (by cases h), ?_⟩
    rintro ⟨t, o, x, h1, h2, h3, h4⟩
    refine (h.not_panics h1 h2 h3 ?_).elim
    exact fun s hs => absurd ⟨hs.compressed, hs.treeValid⟩ h4
  | @panics w t o x h1 h2 h3 h4 h5 =>
    exact ⟨fun _ => ⟨t, o, x, h1, h2, h3, h5⟩, fun _ => ⟨w, rfl⟩⟩
  | updated h1 h2 h3 h4 h5 h6 h7 =>
    refine ⟨fun ⟨_, h⟩ => (by cases h), ?_⟩
    rintro ⟨t, o, x, -, -, -, h⟩
    exact absurd ⟨h5, h6⟩ h
example : ∃ w, (uOut uTrSpk).updateOutput uLib 0 uHalf = .error (.panic w) := ⟨_, rfl⟩
example : TreeValid uLib uTr := by
  intro ik ls xs h hne hx
  cases h
  have := deriveLeaves_ok.mpr hx
  cases this
  exact ⟨.node (.leaf TAPSCRIPT [0xee, 9, 4, 3, 4]) (.leaf TAPSCRIPT [0xee, 8, 5, 6]), by decide, rfl⟩

/-- C72. Updating again changes nothing. -/
theorem C72_idempotent {p q : Psbt L} {n : Nat} {d : Descriptor U.Shape U.Key} (hd : Definite U d)
    (h : p.updateOutput U n d = .ok (q, .ok ())) : q.updateOutput U n d = .ok (q, .ok ()) := by
  obtain ⟨t, o, j, h1, h2, h3, h5, rfl⟩ := (C72_updated_iff hd).mp h
  have hlt := (List.getElem?_eq_some_iff.mp h1).1
  refine (C72_updated_iff hd).mpr ⟨t, j, j, by simp [hlt], h2, h3, h5.again, by simp⟩

/-- C72. Updating an output without the check does the same to the output, whatever its script, and gives the descriptor with its
keys derived. -/
theorem C72_unchecked_iff {o j : Output L} {d : Descriptor U.Shape U.Key} (hd : Definite U d) {x : Descriptor U.Shape L.pubkey.T} :
    o.updateUnchecked U d = .ok (j, .ok x) ↔ DescrIs U d x ∧ Compressed U d ∧ TreeValid U d ∧ OutputUpdated U d o j := by
  unfold Output.updateUnchecked
  have hc := item_case (f := o.fields) (check := none) hd
  generalize updateItem U o.fields d none = r at hc ⊢
  cases hc with
  | fails h =>
    refine ⟨fun h => (by cases h), ?_⟩
    rintro ⟨h', -⟩
    exact (h.not_descr h').elim
  | differs _ _ h => cases h
  | panics hx _ h =>
    refine ⟨fun h => (by cases h), ?_⟩
    rintro ⟨-, h1, h2, -⟩
    exact absurd ⟨h1, h2⟩ h
  | updated hx hs _ hc hb hf =>
    constructor
    · intro h
      cases h
      exact ⟨hx, hc, hb, hf.output ⟨_, hx⟩⟩
    · rintro ⟨h1, -, -, h2⟩
      rw [← (hf.output ⟨_, hx⟩).unique ⟨_, hx⟩ h2, hx.unique h1]
      rfl

/-- C72. The only error then is that of the first key that cannot be derived, and the output is unchanged. -/
theorem C72_unchecked_error_iff {o j : Output L} {d : Descriptor U.Shape U.Key} (hd : Definite U d) {e : ConvErr} :
    o.updateUnchecked U d = .ok (j, .error e) ↔ j = o ∧ FirstFailure U (allKeys d) e := by
  unfold Output.updateUnchecked
  have hc := item_case (f := o.fields) (check := none) hd
  generalize updateItem U o.fields d none = r at hc ⊢
  cases hc with
  | fails h =>
    constructor
    · intro h'; cases h'; exact ⟨rfl, h⟩
    · rintro ⟨rfl, h'⟩; rw [h.unique h']; rfl
  | differs _ _ h => cases h
  | panics hx _ h | updated hx =>
    refine ⟨fun h => (by cases h), ?_⟩
    rintro ⟨-, h1⟩
    exact (h1.not_descr hx).elim
example : (Output.default gL).updateUnchecked uLib uBad = .ok (Output.default gL, .error .hardenedChild) := by rfl

end Psbt.V0
