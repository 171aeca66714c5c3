/- C90: from descriptors with one key to a complete transaction. -/
import Verif.Spec.FromDescriptor
import Verif.Props.V0Complete
import Verif.Props.V0Update
namespace Psbt.V0
open Psbt Psbt.Spec Psbt.Spec.V0

variable {L : Lib} {U : UpdLib L} {S : SigLib L} {M : MsLib L} {prov : Provider S} {out : S.Keypair → FixedBytes 32}

/-- One input after the other can be updated. -/
theorem updates_exist {cs : List (Coin U)} : ∀ {p : Psbt L} {n : Nat},
    (∀ k c, cs[k]? = some c → ∃ t i, HasInput p (n + k) t i ∧ UtxoAgree (Segwit c.descr) t i c.out ∧
      ScriptOf U c.descr c.out.scriptPubkey ∧ Definite U c.descr) →
    ∃ r, UpdatesAll U p n cs r ∧ r.unsignedTx = p.unsignedTx ∧ r.inputs.length = p.inputs.length ∧
      (∀ m < n, r.inputs[m]? = p.inputs[m]?) ∧
      ∀ k c, cs[k]? = some c → ∃ i j, p.inputs[n + k]? = some i ∧ r.inputs[n + k]? = some j ∧ InputUpdated U c.descr i j := by
  induction cs with
  | nil => intro p n _; exact ⟨p, .nil, rfl, rfl, fun _ _ => rfl, by simp⟩
  | cons c cs ih =>
    intro p n h
    obtain ⟨t, i, hi, hu, hs, hd⟩ := h 0 c rfl
    rw [Nat.add_zero] at hi
    have hlt := (List.getElem?_eq_some_iff.mp hi.2).1
    obtain ⟨j, hj, hup⟩ : ∃ j, InputUpdated U c.descr i j ∧ p.updateInput U n c.descr = .ok (withInput p n j, .ok ()) := by
      have hc := input_case (p := p) (n := n) hd
      generalize p.updateInput U n c.descr = r at hc
      cases hc with
      | refused h' => exact (h'.not_updated hi hu hs).elim
      | panics h1 h2 h3 h4 h5 => exact absurd ⟨hs.compressed, hs.treeValid⟩ h5
      | @updated t' i' u' j x h1 h2 h3 h4 h5 h6 h7 =>
        obtain ⟨rfl, rfl⟩ := hasInput_unique hi h1
        exact ⟨j, h7, rfl⟩
    obtain ⟨r, h1, h2, h3, h4, h5⟩ := ih (p := withInput p n j) (n := n + 1) (by
      intro k c' hk
      obtain ⟨t', i', g1, g2⟩ := h (k + 1) c' hk
      rw [show n + 1 + k = n + (k + 1) by omega]
      refine ⟨t', i', ⟨g1.1, ?_⟩, g2⟩
      show (p.inputs.set n j)[n + (k + 1)]? = some i'
      rw [List.getElem?_set_ne (by omega)]
      exact g1.2)
    refine ⟨r, .cons hup h1, h2, h3.trans (by simp [withInput]), fun m hm => ?_, fun k c' hk => ?_⟩
    · rw [h4 m (by omega)]
      show (p.inputs.set n j)[m]? = _
      rw [List.getElem?_set_ne (by omega)]
    · cases k with
      | zero =>
        cases hk
        refine ⟨i, j, hi.2, ?_, hj⟩
        rw [Nat.add_zero, h4 n (by omega)]
        show (p.inputs.set n j)[n]? = _
        simp [hlt]
      | succ k =>
        obtain ⟨a, b, g1, g2, g3⟩ := h5 k c' hk
        rw [show n + 1 + k = n + (k + 1) by omega] at g1 g2
        refine ⟨a, b, ?_, g2, g3⟩
        rw [← g1]
        show _ = (p.inputs.set n j)[n + (k + 1)]?
        rw [List.getElem?_set_ne (by omega)]

/-- With one key, the derivations get this key only. -/
theorem one_derivation {k : U.Key} {pk : L.pubkey.T} {src : KeySource} (hk : KeyIs U k pk src) {m' : BMap L.secpPk.T KeySource}
    (h : Overwritten (LastOrigin U [k]) .empty m') : m' = BMap.empty.insert (U.inner pk) src := by
  refine BMap.ext_get fun x => ?_
  obtain ⟨h1, h2⟩ := h x
  by_cases hx : x = U.inner pk
  · subst hx
    rw [BMap.get_insert_self]
    exact h1 src ⟨[], k, [], pk, rfl, hk, rfl, by simp⟩
  · rw [BMap.get_insert_ne _ hx]
    refine h2 fun v ⟨a, k', b, pk', e, hk', e', _⟩ => hx ?_
    have : k' = k := by
      cases a with
      | nil => cases e; rfl
      | cons _ a => simp at e
    subst this
    cases hk.1.symm.trans hk'.1
    exact e'.symm

theorem message_legacy {tx : Tx} {n : Nat} (h : n < tx.input.length) (code : Bytes) :
    ∃ m, legacySighash L tx n code ⟨1, by decide⟩ = some m := by
  unfold legacySighash
  rw [List.getElem?_eq_getElem h]
  exact ⟨_, rfl⟩

theorem message_segwit {tx : Tx} {n : Nat} (h : n < tx.input.length) (code : Bytes) (v : UInt64) :
    ∃ m, segwitSighash L tx n code v ⟨1, by decide⟩ = some m := by
  unfold segwitSighash
  rw [List.getElem?_eq_getElem h]
  exact ⟨_, rfl⟩

theorem message_tap {tx : Tx} {us : List TxOut} {n : Nat} (h : us.length = tx.input.length) :
    ∃ m, tapSighash L tx n (.all us) none ⟨0, by decide⟩ = .ok m := by
  unfold tapSighash tapPreimage
  simp only [h, ne_eq, not_true_eq_false, decide_false, Bool.false_eq_true, if_false]
  exact ⟨_, rfl⟩

/-- What updating makes of an input with UTXO fields only is an input the C88 theorem is about. -/
theorem keyInput_of_coin (tw : TweakLaw U S out) {p : Psbt L} {n : Nat} {t : TxIn} {i j : Input L} {c : Coin U} {us : List TxOut}
    (hc : Spendable U S prov p.unsignedTx n c) (hj : HasInput p n t j)
    (hi : i = { Input.default L with nonWitnessUtxo := c.nonWitnessUtxo, witnessUtxo := c.witnessUtxo })
    (hf : Funding p.unsignedTx.input p.inputs us) (hu : InputUpdated U c.descr i j) :
    ∃ s w, KeyInput S prov out p n s w ∧ SpentBy U S prov p.unsignedTx us n c.out c.descr s w := by
  have hl := (List.getElem?_eq_some_iff.mp hj.1).1
  have hag := hc.utxo t hj.1
  rw [← hi] at hag
  have hfu : Spec.V0.FundedBy t j c.out := funded_after hag hu
  have hrest := hu.rest
  have e1 : j.partialSigs = .empty := by have := congrArg Input.partialSigs hrest; rw [hi] at this; exact this
  have e2 : j.sighashType = none := by have := congrArg Input.sighashType hrest; rw [hi] at this; exact this
  have e3 : j.tapKeySig = none := by have := congrArg Input.tapKeySig hrest; rw [hi] at this; exact this
  have hder : ∀ e, c.descr = .plain e → Overwritten (LastOrigin U (plainKeys e)) .empty j.bip32Derivation := by
    intro e he
    have := (hu.plain e he).1.derivation
    rw [hi] at this
    exact this
  obtain ⟨hk, hs, -, -⟩ := hc
  generalize c.descr = d at hk hs hu hder
  cases hk with
  | @pkh k sk h =>
    obtain ⟨src, h1, h2⟩ := h
    have hd := one_derivation h1 (hder _ rfl)
    have hkf : Spec.V0.keysFor S prov j = [sk] := by
      unfold Spec.V0.keysFor
      rw [hd]
      show List.filterMap _ [(U.inner (S.pub sk), src)] = _
      simp [h2]
    obtain ⟨m, hm⟩ := message_legacy (L := L) hl c.out.scriptPubkey
    have hcm : CommitsPkh c.out.scriptPubkey (S.pub sk) := by
      generalize c.out.scriptPubkey = spk at hs
      cases hs with
      | pkh h3 => cases h3.symm.trans h1.1; rfl
    exact ⟨_, _, .pkh hj hfu e1 hkf (.inl ⟨e2, rfl⟩) hcm hm, .pkh ⟨src, h1, h2⟩ rfl hm⟩
  | @wpkh k sk h =>
    obtain ⟨src, h1, h2⟩ := h
    have hd := one_derivation h1 (hder _ rfl)
    have hkf : Spec.V0.keysFor S prov j = [sk] := by
      unfold Spec.V0.keysFor
      rw [hd]
      show List.filterMap _ [(U.inner (S.pub sk), src)] = _
      simp [h2]
    obtain ⟨m, hm⟩ := message_segwit (L := L) hl (keyCode (S.pub sk)) c.out.value
    have hcm : CommitsWpkh c.out.scriptPubkey (S.pub sk) := by
      generalize c.out.scriptPubkey = spk at hs
      cases hs with
      | wpkh h3 h4 => cases h3.symm.trans h1.1; exact ⟨h4, rfl⟩
    exact ⟨_, _, .wpkh hj hfu e1 hkf (.inl ⟨e2, rfl⟩) hcm hm, .wpkh ⟨src, h1, h2⟩ rfl hm⟩
  | @shWpkh k sk h =>
    obtain ⟨src, h1, h2⟩ := h
    have hd := one_derivation h1 (hder _ rfl)
    have hkf : Spec.V0.keysFor S prov j = [sk] := by
      unfold Spec.V0.keysFor
      rw [hd]
      show List.filterMap _ [(U.inner (S.pub sk), src)] = _
      simp [h2]
    obtain ⟨m, hm⟩ := message_segwit (L := L) hl (keyCode (S.pub sk)) c.out.value
    have hr : j.redeemScript = some ([0x00, 0x14] ++ (L.hash160 (S.pub sk).bytes).1) := by
      have := (hu.plain _ rfl).1.scripts
      generalize hx : (ofInput j).redeemScript = r, (ofInput j).witnessScript = w, (ofInput i).witnessScript = w' at this
      cases this with
      | shWpkh h3 => cases h3.symm.trans h1.1; exact hx
    have hcm : (S.pub sk).bytes.length = 33 ∧ CommitsSh L c.out.scriptPubkey ([0x00, 0x14] ++ (L.hash160 (S.pub sk).bytes).1) := by
      generalize c.out.scriptPubkey = spk at hs
      cases hs with
      | shWpkh h3 h4 => cases h3.symm.trans h1.1; exact ⟨h4, rfl⟩
    exact ⟨_, _, .shWpkh hj hfu e1 hkf (.inl ⟨e2, rfl⟩) hcm.2 hr ⟨hcm.1, rfl⟩ hm, .shWpkh ⟨src, h1, h2⟩ rfl hm⟩
  | @tr k sk ls h hno =>
    obtain ⟨src, h1, h2⟩ := h
    obtain ⟨xs, r, hx, hr, hspk⟩ : ∃ xs r, LeavesAre U ls xs ∧ MerkleRoot L (treeOf U xs) r ∧
        c.out.scriptPubkey = [0x51, 0x20] ++ (U.outputKey (U.xonly (S.pub sk)) r).bytes := by
      generalize c.out.scriptPubkey = spk at hs
      cases hs with
      | tr hx h3 hr => cases h3.symm.trans h1.1; exact ⟨_, _, hx, hr, rfl⟩
    obtain ⟨htr, hroot⟩ := hu.tr _ _ rfl
    have hroot := (hroot _ _ h1.1 hx).1.unique hr
    obtain ⟨-, -, -, pk', src', k1, k2, k3⟩ := htr
    cases h1.1.symm.trans k1.1
    have : src' = src := by
      have b := k1.2.2.symm.trans h1.2.2
      exact Prod.ext b (Option.some.inj (k1.2.1.symm.trans h1.2.1))
    subst this
    have hor : j.tapKeyOrigins.get (U.xonly (S.pub sk)) = some ([], src') := by
      have := k3 (U.xonly (S.pub sk))
      show (ofInput j).tapKeyOrigins.get _ = _
      generalize (ofInput j).tapKeyOrigins.get (U.xonly (S.pub sk)) = o at this
      cases this with
      | @internal l _ hl =>
        cases l with
        | nil => rfl
        | cons a l => exact absurd ((hl.2 a).mp (by simp)) (hno a)
      | known h => exact absurd rfl h
      | fresh h => exact absurd rfl h
      | absent h => exact absurd rfl h
    have hkp : keyPathKey S prov j = some sk := by
      unfold keyPathKey
      have k2 : j.tapInternalKey = _ := k2
      simp only [e3, k2, hor, h2]
    obtain ⟨g1, g2, -⟩ := funding_iff.mp hf
    obtain ⟨m, hm⟩ := message_tap (L := L) (n := n) g1.symm
    have hspk' : c.out.scriptPubkey = [0x51, 0x20] ++ (out (S.tapTweak (S.keypair sk) j.tapMerkleRoot)).1 := by
      rw [hspk, tw, hroot]
    refine ⟨_, _, .tr hj hfu hkp ⟨t, j, c.out, hj, hfu, ⟨_, hspk'⟩, .inl ⟨e2, rfl⟩, .inr ⟨.inl rfl, us, hf, hm⟩⟩ hspk', ?_⟩
    rw [hroot]
    exact .tr ⟨src', h1, h2⟩ hx hr rfl hm

theorem unsigned_of_checks {ts : List TxIn} (h : txInChecks ts = .ok ()) : ∀ t ∈ ts, t.scriptSig = [] ∧ t.witness = [] := by
  induction ts with
  | nil => simp
  | cons t ts ih =>
    unfold txInChecks at h
    split at h
    · cases h
    · split at h
      · cases h
      · rename_i a b
        intro t' ht'
        rcases List.mem_cons.mp ht' with rfl | ht'
        · exact ⟨by simpa using a, by simpa using b⟩
        · exact ih h t' ht'

/-- Creating, funding and updating succeed for coins with the scripts of their descriptors. -/
theorem setup {tx : Tx} {p0 : Psbt L} (h0 : Psbt.fromUnsignedTx L tx = .ok p0) {cs : List (Coin U)} (hn : cs.length = tx.input.length)
    (hc : ∀ (n : Nat) (c : Coin U), cs[n]? = some c → ScriptOf U c.descr c.out.scriptPubkey ∧ Definite U c.descr ∧
      ∀ t, tx.input[n]? = some t → UtxoAgree (Segwit c.descr) t
        { Input.default L with nonWitnessUtxo := c.nonWitnessUtxo, witnessUtxo := c.witnessUtxo } c.out) :
    ∃ p, UpdatesAll U (fund p0 cs) 0 cs p ∧ p.unsignedTx = tx ∧ p.inputs.length = tx.input.length ∧ Sound p ∧
      Funding p.unsignedTx.input p.inputs (cs.map Coin.out) ∧ (∀ t ∈ tx.input, t.scriptSig = [] ∧ t.witness = []) ∧
      ∀ (n : Nat) c, cs[n]? = some c → ∃ t j, HasInput p n t j ∧ Spec.V0.FundedBy t j c.out ∧
        InputUpdated U c.descr { Input.default L with nonWitnessUtxo := c.nonWitnessUtxo, witnessUtxo := c.witnessUtxo } j := by
  unfold Psbt.fromUnsignedTx at h0
  rw [bind_ok] at h0
  obtain ⟨_, hch, h0⟩ := h0
  have hun : ∀ t ∈ tx.input, t.scriptSig = [] ∧ t.witness = [] := unsigned_of_checks hch
  cases h0
  have hin : ∀ (n : Nat) c, cs[n]? = some c → ∃ t, tx.input[n]? = some t := by
    intro n c h
    have := (List.getElem?_eq_some_iff.mp h).1
    exact ⟨_, List.getElem?_eq_getElem (by omega)⟩
  let p1 : Psbt L := fund (U := U) {
    inputs := List.replicate tx.input.length (Input.default L)
    outputs := List.replicate tx.output.length (Output.default L)
    unsignedTx := tx
    xpub := .empty
    version := 0
    proprietary := .empty
    unknown := .empty } cs
  have hp1 : ∀ (n : Nat) c, cs[n]? = some c → p1.inputs[n]? =
      some { Input.default L with nonWitnessUtxo := c.nonWitnessUtxo, witnessUtxo := c.witnessUtxo } := by
    intro n c h
    have hl := (List.getElem?_eq_some_iff.mp h).1
    show (List.zipWith _ _ _)[n]? = _
    rw [List.getElem?_zipWith, h, List.getElem?_replicate, if_pos (by omega)]
  obtain ⟨p, hup, hp2, hp3, -, hp4⟩ := updates_exist (cs := cs) (p := p1) (n := 0) (by
    intro n c h
    obtain ⟨t, ht⟩ := hin n c h
    have hs := hc n c h
    exact ⟨t, _, ⟨by rw [Nat.zero_add]; exact ht, by rw [Nat.zero_add]; exact hp1 n c h⟩, hs.2.2 t ht, hs.1, hs.2.1⟩)
  simp only [Nat.zero_add] at hp4
  have hp2 : p.unsignedTx = tx := hp2
  have hlen : p.inputs.length = tx.input.length := by
    rw [hp3]
    show (List.zipWith _ _ _).length = _
    simp [hn]
  have hcs : ∀ n, n < p.inputs.length → ∃ c, cs[n]? = some c := fun n h => ⟨_, List.getElem?_eq_getElem (by omega)⟩
  have hfun : ∀ (n : Nat) c t j, cs[n]? = some c → HasInput p n t j → Spec.V0.FundedBy t j c.out ∧
      InputUpdated U c.descr { Input.default L with nonWitnessUtxo := c.nonWitnessUtxo, witnessUtxo := c.witnessUtxo } j := by
    intro n c t j h hj
    obtain ⟨i, j', g1, g2, g3⟩ := hp4 n c h
    cases hj.2.symm.trans g2
    cases (hp1 n c h).symm.trans g1
    exact ⟨funded_after ((hc n c h).2.2 t (by rw [← hp2]; exact hj.1)) g3, g3⟩
  have hf : Funding p.unsignedTx.input p.inputs (cs.map Coin.out) := by
    refine funding_iff.mpr ⟨by simp [hp2, hn], by simp [hlen, hn], fun n u h => ?_⟩
    rw [List.getElem?_map] at h
    obtain ⟨c, hcn, rfl⟩ := Option.map_eq_some_iff.mp h
    replace h := hcn
    obtain ⟨t, ht⟩ := hin n c h
    obtain ⟨i, j, -, g2, -⟩ := hp4 n c h
    exact ⟨t, j, by rw [hp2]; exact ht, g2, (hfun n c t j h ⟨by rw [hp2]; exact ht, g2⟩).1⟩
  have hsound : Sound p := by
    refine ⟨by rw [hp2]; exact hlen, ?_⟩
    intro n t i tx' h1 h2 h3 h4
    obtain ⟨c, h⟩ := hcs n (List.getElem?_eq_some_iff.mp h2).1
    have := (hfun n c t i h ⟨h1, h2⟩).1
    cases this with
    | witness h' => rw [h3] at h'; cases h'
    | nonWitness _ h5 h6 =>
      rw [h4] at h5; cases h5
      exact (List.getElem?_eq_some_iff.mp h6).1
  refine ⟨p, hup, hp2, hlen, hsound, hf, hun, fun n c h => ?_⟩
  obtain ⟨t, ht⟩ := hin n c h
  obtain ⟨i, j, -, g2, -⟩ := hp4 n c h
  have hj : HasInput p n t j := ⟨by rw [hp2]; exact ht, g2⟩
  exact ⟨t, j, hj, hfun n c t j h hj⟩

/-- C90. Take a transaction without signatures, and for each of its inputs an output to spend, of a descriptor `pkh`, `wpkh`,
`sh(wpkh)` or `tr` whose (internal) key the provider has. Create a PSBT v0, set the UTXO fields, update each input with its
descriptor, sign, finalize and extract: all of it succeeds, and the result is the transaction with the inputs signed. -/
theorem C90_completed (laws : KeyLaws S M out) (tw : TweakLaw U S out) {tx : Tx} {p0 : Psbt L}
    (h0 : Psbt.fromUnsignedTx L tx = .ok p0) {cs : List (Coin U)} (hn : cs.length = tx.input.length)
    (hc : ∀ n c, cs[n]? = some c → Spendable U S prov tx n c) (mall : Bool) :
    ∃ p q used r tx', UpdatesAll U (fund p0 cs) 0 cs p ∧ p.sign S prov = .ok (q, .ok used) ∧
      q.finalizeMut M mall = .ok (r, []) ∧ r.extract M = .ok tx' ∧
      tx'.version = tx.version ∧ tx'.lockTime = tx.lockTime ∧ tx'.output = tx.output ∧ tx'.input.length = tx.input.length ∧
      ∀ (n : Nat) t c, tx.input[n]? = some t → cs[n]? = some c →
        ∃ s w, SpentBy U S prov tx (cs.map Coin.out) n c.out c.descr s w ∧
          tx'.input[n]? = some { t with scriptSig := s, witness := w } := by
  obtain ⟨p, hup, hp2, hlen, hsound, hf, hun, hin⟩ := setup h0 hn fun n c h => ⟨(hc n c h).script, (hc n c h).definite, (hc n c h).utxo⟩
  have hcs : ∀ n, n < p.inputs.length → ∃ c, cs[n]? = some c := fun n h => ⟨_, List.getElem?_eq_getElem (by omega)⟩
  have hkey : ∀ (n : Nat) c, cs[n]? = some c → ∃ s w, KeyInput S prov out p n s w ∧
      SpentBy U S prov tx (cs.map Coin.out) n c.out c.descr s w := by
    intro n c h
    obtain ⟨t, j, hj, -, hu⟩ := hin n c h
    have := keyInput_of_coin (prov := prov) tw (by rw [hp2]; exact hc n c h) hj rfl hf hu
    rw [hp2] at this
    exact this
  obtain ⟨q, used, r, tx', h1, h2, h3, h4, h5, h6, h7, h8⟩ := C88_completed (k := prov) laws hsound (by rw [hp2]; exact hun)
    (fun n h => by obtain ⟨c, h⟩ := hcs n h; obtain ⟨s, w, g, -⟩ := hkey n c h; exact ⟨s, w, g⟩) mall
  rw [hp2] at h4 h5 h6 h7 h8
  refine ⟨p, q, used, r, tx', hup, h1, h2, h3, h4, h5, h6, h7, fun n t c ht h => ?_⟩
  obtain ⟨s, w, g1, g2⟩ := hkey n c h
  exact ⟨s, w, g2, h8 n t s w ht g1⟩

/-! ### The hypotheses can be met -/

section Examples
/-- Descriptors whose key `b` is reached from the master key by `b - 1` steps. -/
def dLib : UpdLib gL := { uLib with fingerprint := fun _ => Demo.rep 4 1, path := fun b : UInt8 => some (List.replicate (b.toNat - 1) 7) }
def dOut (spk : Bytes) : TxOut := ⟨1000, spk⟩
def dPub (b : UInt8) : gL.pubkey.T := Demo.val 33 (by decide) b
def dHash (b : UInt8) : Bytes := (gL.hash160 (dPub b).bytes).1
def dPkh : Bytes := [0x76, 0xa9, 0x14] ++ dHash 2 ++ [0x88, 0xac]
/-- The transaction with the output of the P2PKH coin. -/
def dPrev : Tx := ⟨1, 0, [], [dOut [], dOut dPkh]⟩
/-- One coin of each kind, each with its own key; the last one has two leaves. -/
def dCoins : List (Coin dLib) := [
  ⟨.plain (.pkh (2 : UInt8)), dOut dPkh, some dPrev, none⟩,
  ⟨.plain (.wpkh (3 : UInt8)), dOut ([0x00, 0x14] ++ dHash 3), none, some (dOut ([0x00, 0x14] ++ dHash 3))⟩,
  ⟨.plain (.shWpkh (4 : UInt8)), dOut ([0xa9, 0x14] ++ (gL.hash160 ([0x00, 0x14] ++ dHash 4)).1 ++ [0x87]), none,
    some (dOut ([0xa9, 0x14] ++ (gL.hash160 ([0x00, 0x14] ++ dHash 4)).1 ++ [0x87]))⟩,
  ⟨.tr (5 : UInt8) [(1, uMs), (1, (⟨8, [6, 7]⟩ : Mini UInt8 UInt8))], dOut ([0x51, 0x20] ++ (Demo.rep 32 5).1), none,
    some (dOut ([0x51, 0x20] ++ (Demo.rep 32 5).1))⟩]
def dTx : Tx := ⟨2, 0, [⟨⟨V2.txid gL dPrev, 1⟩, [], 0xFFFFFFFD, []⟩, ⟨⟨Demo.rep 32 1, 0⟩, [], 0xFFFFFFFD, []⟩,
  ⟨⟨Demo.rep 32 2, 0⟩, [], 0xFFFFFFFD, []⟩, ⟨⟨Demo.rep 32 3, 7⟩, [], 0xFFFFFFFD, []⟩], [⟨500, [0x51]⟩]⟩

theorem dHolds (b : UInt8) (h1 : b ≠ 0xff) (h0 : b ≠ 0) : Holds dLib gS gKeys (b : UInt8) (b : UInt8) := by
  refine ⟨(Demo.rep 4 1, List.replicate (b.toNat - 1) 7), ⟨if_neg h1, rfl, rfl⟩, ?_⟩
  have hb : b.toNat < 256 := b.toNat_lt
  have hb0 : b.toNat ≠ 0 := fun h => h0 (UInt8.toNat_inj.mp h)
  have e : (1 : UInt8) + UInt8.ofNat (b.toNat - 1) = b := by
    apply UInt8.toNat_inj.mp
    rw [UInt8.toNat_add, UInt8.toNat_ofNat']
    show (1 + _) % 256 = _
    omega
  have : gS.derive ((0, 1) : UInt8 × UInt8) (List.replicate (b.toNat - 1) 7) = some ((1, b) : UInt8 × UInt8) := by
    show (if (List.replicate (b.toNat - 1) (7 : UInt32)).length < 256 then some _ else none) = _
    rw [List.length_replicate, if_pos (by omega), e]
  show answer (getKeyXpriv gS (0, 1) (.bip32 (Demo.rep 4 1, _))) = _
  unfold getKeyXpriv
  simp only [this]
  rfl

theorem dTweak : TweakLaw dLib gS (fun kp => Demo.rep 32 kp.2) := fun _ _ => rfl

theorem dDefinite (d : Descriptor dLib.Shape dLib.Key) : Definite dLib d := by
  intro k _ pk _ h; cases h

theorem dCoins_spendable : ∀ n c, dCoins[n]? = some c → Spendable dLib gS gKeys dTx n c := by
  intro n c h
  have hn : n < 4 := (List.getElem?_eq_some_iff.mp h).1
  match n, hn with
  | 0, _ =>
    cases h
    refine ⟨.pkh (dHolds 2 (by decide) (by decide)), .pkh (pk := dPub 2) rfl, dDefinite _, fun t ht => ?_⟩
    cases ht
    refine ⟨.inr ⟨rfl, by simp⟩, fun tx htx => ?_, fun h => by cases h⟩
    cases htx
    exact ⟨rfl, rfl⟩
  | 1, _ =>
    cases h
    refine ⟨.wpkh (dHolds 3 (by decide) (by decide)), .wpkh (pk := dPub 3) rfl rfl, dDefinite _, fun t ht => ?_⟩
    exact ⟨.inl rfl, fun tx htx => (by cases htx), fun _ => trivial⟩
  | 2, _ =>
    cases h
    refine ⟨.shWpkh (dHolds 4 (by decide) (by decide)), .shWpkh (pk := dPub 4) rfl rfl, dDefinite _, fun t ht => ?_⟩
    exact ⟨.inl rfl, fun tx htx => (by cases htx), fun _ => trivial⟩
  | 3, _ =>
    cases h
    have hx : LeavesAre dLib [(1, uMs), (1, (⟨8, [6, 7]⟩ : Mini UInt8 UInt8))]
        [(1, ⟨(9 : UInt8), [dPub 4, dPub 3, dPub 4]⟩), (1, ⟨(8 : UInt8), [dPub 6, dPub 7]⟩)] := deriveLeaves_ok.mp rfl
    refine ⟨.tr (dHolds 5 (by decide) (by decide)) ?_, .tr (pk := dPub 5) hx rfl (.tree (T := .node (.leaf TAPSCRIPT [0xee, 9, 4, 3, 4]) (.leaf TAPSCRIPT [0xee, 8, 6, 7])) (by decide)),
      dDefinite _, fun t ht => ?_⟩
    · rintro hh ⟨l, hl, ⟨sh, ks⟩, ⟨-, hm⟩, -, pk, hpk, e⟩
      simp only [List.mem_cons, List.not_mem_nil, or_false] at hl
      have hk : ∀ b : UInt8, dLib.xonly (dPub b) = gX b := fun _ => rfl
      have hne : ∀ b : UInt8, b ≠ 5 → dLib.xonly (dPub b) ≠ gX 5 := by
        intro b hb h
        rw [hk] at h
        have := congrArg (fun x : gL.xonly.T => x.bytes.head?) h
        exact hb (Option.some.inj this)
      rcases hl with rfl | rfl
      · have := deriveKeys_ok.mpr hm
        cases this
        change pk ∈ [dPub 4, dPub 3, dPub 4] at hpk
        simp only [List.mem_cons, List.not_mem_nil, or_false] at hpk
        rcases hpk with rfl | rfl | rfl
        · exact hne 4 (by decide) e
        · exact hne 3 (by decide) e
        · exact hne 4 (by decide) e
      · have := deriveKeys_ok.mpr hm
        cases this
        change pk ∈ [dPub 6, dPub 7] at hpk
        simp only [List.mem_cons, List.not_mem_nil, or_false] at hpk
        rcases hpk with rfl | rfl
        · exact hne 6 (by decide) e
        · exact hne 7 (by decide) e
    · exact ⟨.inl rfl, fun tx htx => (by cases htx), fun _ => trivial⟩

-- One master key spends the four coins.
example : ∃ p0 p q used r tx', Psbt.fromUnsignedTx gL dTx = .ok p0 ∧ UpdatesAll dLib (fund p0 dCoins) 0 dCoins p ∧
    p.sign gS gKeys = .ok (q, .ok used) ∧ q.finalizeMut yM false = .ok (r, []) ∧ r.extract yM = .ok tx' ∧ tx'.input.length = 4 := by
  obtain ⟨p, q, used, r, tx', h1, h2, h3, h4, -, -, -, h5, -⟩ :=
    C90_completed yM_laws dTweak (tx := dTx) rfl (cs := dCoins) rfl dCoins_spendable false
  exact ⟨_, p, q, used, r, tx', rfl, h1, h2, h3, h4, h5⟩
end Examples

end Psbt.V0
