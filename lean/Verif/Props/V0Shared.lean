/- C97: signers that share descriptors complete a transaction. -/
import Verif.Spec.Shared
import Verif.Props.V0FromDescriptor
import Verif.Props.V0Signers
namespace Psbt.V0
open Psbt Psbt.Spec Psbt.Spec.V0

variable {L : Lib} {U : UpdLib L} {S : SigLib L} {M : MsLib L} {out : S.Keypair → FixedBytes 32}
  {enough : MsCtx → Bytes → List L.pubkey.T → Prop}

theorem lastOrigin_exists {x : L.secpPk.T} {l : List U.Key} (hp : ∀ k ∈ l, ∀ pk, U.derive k = .ok pk → U.path k ≠ none)
    (h : ∃ y ∈ l, ∃ q, U.derive y = .ok q ∧ U.inner q = x) : ∃ v, LastOrigin U l x v := by
  induction l with
  | nil => obtain ⟨y, hy, _⟩ := h; cases hy
  | cons y l ih =>
    by_cases hr : ∃ y ∈ l, ∃ q, U.derive y = .ok q ∧ U.inner q = x
    · obtain ⟨v, a, j, b, q, e1, e2⟩ := ih (fun z hz => hp z (by simp [hz])) hr
      exact ⟨v, y :: a, j, b, q, by rw [e1]; rfl, e2⟩
    · obtain ⟨z, hz, q, hq, hqx⟩ := h
      have hzy : z = y := by
        rcases List.mem_cons.mp hz with rfl | hz
        · rfl
        · exact absurd ⟨z, hz, q, hq, hqx⟩ hr
      subst hzy
      cases hpz : U.path z with
      | none => exact absurd hpz (hp z (by simp) q hq)
      | some path =>
        exact ⟨(U.fingerprint z, path), [], z, l, q, rfl, ⟨hq, hpz, rfl⟩, hqx,
          fun j hj q' hq' e => hr ⟨j, hj, q', hq', e⟩⟩

/-- A signer that has a key finds it for an input that was updated. -/
theorem someone {ks : List (Provider S)} {keys : List U.Key} {j : Input L} {pk : L.pubkey.T}
    (hd : Overwritten (LastOrigin U keys) .empty j.bip32Derivation) (hp : ∀ k ∈ keys, ∀ pk, U.derive k = .ok pk → U.path k ≠ none)
    (h : ∃ prov ∈ ks, Has U S prov keys pk) : Someone S ks j pk := by
  obtain ⟨prov, hm, sk, h1, ⟨k, h2, h3⟩, h4⟩ := h
  obtain ⟨v, hv⟩ := lastOrigin_exists hp ⟨k, h2, pk, h3, rfl⟩
  have hget := (hd (U.inner pk)).1 v hv
  obtain ⟨a, k', b, q, e1, e2, e3, -⟩ := hv
  refine ⟨prov, hm, sk, ?_, h1⟩
  unfold Spec.V0.keysFor
  refine List.mem_filterMap.mpr ⟨(U.inner pk, v), BMap.mem_iff_get.mpr hget, ?_⟩
  simp only [h4 k' (by rw [e1]; simp) q v e2 e3, Option.some_or]

/-- What updating makes of an input with UTXO fields only is an input the C91 theorem is about. -/
theorem canSpend_of_coin (tw : TweakLaw U S out) {ks : List (Provider S)} {p : Psbt L} {n : Nat} {t : TxIn} {i j : Input L} {c : Coin U}
    {us : List TxOut} (hc : SharedCoin U S enough ks p.unsignedTx n c) (hj : HasInput p n t j)
    (hi : i = { Input.default L with nonWitnessUtxo := c.nonWitnessUtxo, witnessUtxo := c.witnessUtxo })
    (hfu : Spec.V0.FundedBy t j c.out) (hf : Funding p.unsignedTx.input p.inputs us) (hu : InputUpdated U c.descr i j) :
    CanSpend S enough out ks p n := by
  have hrest := hu.rest
  have e1 : j.partialSigs = .empty := by have := congrArg Input.partialSigs hrest; rw [hi] at this; exact this
  have e2 : j.sighashType = none := by have := congrArg Input.sighashType hrest; rw [hi] at this; exact this
  have e3 : j.tapKeySig = none := by have := congrArg Input.tapKeySig hrest; rw [hi] at this; exact this
  have hder : ∀ e, c.descr = .plain e → Overwritten (LastOrigin U (plainKeys e)) .empty j.bip32Derivation := by
    intro e he
    have := (hu.plain e he).1.derivation
    rw [hi] at this
    exact this
  have hset : ∀ e, c.descr = .plain e → ScriptsSet U none none e j.redeemScript j.witnessScript := by
    intro e he
    have := (hu.plain e he).1.scripts
    rw [hi] at this
    exact this
  have hty : Spec.V0.DeclaredType j ⟨1, by decide⟩ := .inl ⟨e2, rfl⟩
  obtain ⟨hk, hs, hdef, -⟩ := hc
  generalize c.descr = d at hk hs hu hder hset hdef
  generalize hspk : c.out.scriptPubkey = spk at hs
  have ecdsa : EcdsaSpend S enough ks j spk → CanSpend S enough out ks p n := fun h => .ecdsa hj hfu e1 hty (hspk ▸ h)
  cases hk with
  | @pkh k pk h1 h2 =>
    refine ecdsa (.pkh (pk := pk) ?_ (someone (hder _ rfl) hdef h2))
    cases hs with
    | pkh h3 => cases h3.symm.trans h1; rfl
  | @wpkh k pk h1 h2 =>
    refine ecdsa (.wpkh (pk := pk) ?_ (someone (hder _ rfl) hdef h2))
    cases hs with
    | wpkh h3 h4 => cases h3.symm.trans h1; exact ⟨h4, rfl⟩
  | @shWpkh k pk h1 h2 =>
    have hx := hset _ rfl
    generalize hr : j.redeemScript = r, hw : j.witnessScript = w at hx
    cases hx with
    | shWpkh h5 =>
      cases h5.symm.trans h1
      cases hs with
      | shWpkh h3 h4 =>
        cases h3.symm.trans h1
        exact ecdsa (.shWpkh rfl hr ⟨h4, rfl⟩ (someone (hder _ rfl) hdef h2))
  | @wsh m x keys h1 h2 h3 =>
    have hx := hset _ rfl
    generalize hr : j.redeemScript = r, hw : j.witnessScript = w at hx
    cases hx with
    | wsh h5 =>
      cases h5.unique h1
      cases hs with
      | wsh h6 =>
        cases h6.unique h1
        exact ecdsa (.wsh rfl hr hw h2 fun pk hpk => someone (hder _ rfl) hdef (h3 pk hpk))
  | @shWsh m x keys h1 h2 h3 =>
    have hx := hset _ rfl
    generalize hr : j.redeemScript = r, hw : j.witnessScript = w at hx
    cases hx with
    | shWsh h5 =>
      cases h5.unique h1
      cases hs with
      | shWsh h6 =>
        cases h6.unique h1
        exact ecdsa (.shWsh rfl hr rfl hw h2 fun pk hpk => someone (hder _ rfl) hdef (h3 pk hpk))
  | @sh m x keys h1 h2 h3 h4 h4' =>
    have hx := hset _ rfl
    generalize hr : j.redeemScript = r, hw : j.witnessScript = w at hx
    cases hx with
    | sh h5 =>
      cases h5.unique h1
      cases hs with
      | sh h6 =>
        cases h6.unique h1
        exact ecdsa (.sh rfl hr h4 h4' hw h2 fun pk hpk => someone (hder _ rfl) hdef (h3 pk hpk))
  | @tr k pk src ls h1 h2 h3 hno =>
    obtain ⟨xs, r, hx, hr, hspk'⟩ : ∃ xs r, LeavesAre U ls xs ∧ MerkleRoot L (treeOf U xs) r ∧
        spk = [0x51, 0x20] ++ (U.outputKey (U.xonly pk) r).bytes := by
      cases hs with
      | tr hx h3 hr => cases h3.symm.trans h1.1; exact ⟨_, _, hx, hr, rfl⟩
    obtain ⟨htr, hroot⟩ := hu.tr _ _ rfl
    have hroot := (hroot _ _ h1.1 hx).1.unique hr
    obtain ⟨-, -, -, pk', src', k1, k2, k3⟩ := htr
    cases h1.1.symm.trans k1.1
    have : src' = src := by
      have b := k1.2.2.symm.trans h1.2.2
      exact Prod.ext b (Option.some.inj (k1.2.1.symm.trans h1.2.1))
    subst this
    have hor : j.tapKeyOrigins.get (U.xonly pk) = some ([], src') := by
      have := k3 (U.xonly pk)
      show (ofInput j).tapKeyOrigins.get _ = _
      generalize (ofInput j).tapKeyOrigins.get (U.xonly pk) = o at this
      cases this with
      | @internal l _ hl =>
        cases l with
        | nil => rfl
        | cons a l => exact absurd ((hl.2 a).mp (by simp)) (hno a)
      | known h => exact absurd rfl h
      | fresh h => exact absurd rfl h
      | absent h => exact absurd rfl h
    have hkp : ∀ prov, keyPathKey S prov j = answer (prov (.bip32 src')) := by
      intro prov
      unfold keyPathKey
      have k2 : j.tapInternalKey = _ := k2
      simp only [e3, k2, hor]
    obtain ⟨g1, g2, -⟩ := funding_iff.mp hf
    obtain ⟨m, hm⟩ := message_tap (L := L) (n := n) g1.symm
    have hall : ∀ prov ∈ ks, ∀ sk, keyPathKey S prov j = some sk →
        c.out.scriptPubkey = [0x51, 0x20] ++ (out (S.tapTweak (S.keypair sk) j.tapMerkleRoot)).1 := by
      intro prov hp sk hsk
      rw [hkp] at hsk
      rw [hspk, hspk', ← h3 prov hp sk hsk, tw, hroot]
    obtain ⟨prov, hp, sk, hsk⟩ := h2
    have hspk'' := hall prov hp sk (by rw [hkp]; exact hsk)
    exact .tr hj hfu e3 ⟨t, j, c.out, hj, hfu, ⟨_, hspk''⟩, .inl ⟨e2, rfl⟩, .inr ⟨.inl rfl, us, hf, hm⟩⟩
      ⟨prov, hp, by rw [hkp, hsk]; simp⟩ hall

/-- C97. Take a transaction without signatures, and for each of its inputs an output to spend, of a descriptor whose keys the
signers have between them: `pkh`, `wpkh`, `sh(wpkh)`, scripts in `wsh`, `sh` or `sh(wsh)` that need nothing but signatures, such as
multisig, and `tr` by its internal key. Create a PSBT v0, set the UTXO fields, update each input with its descriptor, have the
signers sign one after the other, finalize and extract: all of it succeeds, and the result is the transaction with script
sigs and witnesses that the interpreter accepts. -/
theorem C97_completed (laws : KeyLaws S M out) (slaws : ScriptLaws S M enough) (tw : TweakLaw U S out) {ks : List (Provider S)}
    {tx : Tx} {p0 : Psbt L} (h0 : Psbt.fromUnsignedTx L tx = .ok p0) {cs : List (Coin U)} (hn : cs.length = tx.input.length)
    (hc : ∀ (n : Nat) c, cs[n]? = some c → SharedCoin U S enough ks tx n c) (mall : Bool) :
    ∃ p q r tx', UpdatesAll U (fund p0 cs) 0 cs p ∧ Spec.V0.signInTurn S p ks = .ok q ∧
      q.finalizeMut M mall = .ok (r, []) ∧ r.extract M = .ok tx' ∧
      tx'.version = tx.version ∧ tx'.lockTime = tx.lockTime ∧ tx'.output = tx.output ∧ tx'.input.length = tx.input.length ∧
      ∀ (n : Nat) t, tx.input[n]? = some t →
        ∃ s w, tx'.input[n]? = some { t with scriptSig := s, witness := w } ∧ Verdict M p n s w none := by
  obtain ⟨p, hup, hp2, hlen, hsound, hf, hun, hin⟩ := setup h0 hn fun n c h => ⟨(hc n c h).script, (hc n c h).definite, (hc n c h).utxo⟩
  obtain ⟨q, r, tx', h1, h2, h3, h4⟩ := C91_completed laws slaws (ks := ks) hsound (by rw [hp2]; exact hun) (fun n h => by
    obtain ⟨c, h⟩ : ∃ c, cs[n]? = some c := ⟨_, List.getElem?_eq_getElem (by omega)⟩
    obtain ⟨t, j, hj, hfu, hu⟩ := hin n c h
    exact canSpend_of_coin tw (by rw [hp2]; exact hc n c h) hj rfl hfu hf hu) mall
  rw [hp2] at h4
  exact ⟨p, q, r, tx', hup, h1, h2, h3, h4⟩

/-- C97. The same if the signers work on copies of the PSBT at the same time, and the copies are combined, provided that signers
that have keys for the same origin have the same key. -/
theorem C97_copies (laws : KeyLaws S M out) (slaws : ScriptLaws S M enough) (tw : TweakLaw U S out) {k : Provider S}
    {ks : List (Provider S)} {tx : Tx} {p0 : Psbt L} (h0 : Psbt.fromUnsignedTx L tx = .ok p0) {cs : List (Coin U)}
    (hn : cs.length = tx.input.length) (hc : ∀ (n : Nat) c, cs[n]? = some c → SharedCoin U S enough (k :: ks) tx n c)
    (hagree : ∀ a ∈ k :: ks, ∀ b ∈ k :: ks, AgreeOnKeys S a b) (mall : Bool) :
    ∃ p a res q r tx', UpdatesAll U (fund p0 cs) 0 cs p ∧ p.sign S k = .ok (a, res) ∧ Spec.V0.combineCopies S p a ks = some q ∧
      q.finalizeMut M mall = .ok (r, []) ∧ r.extract M = .ok tx' ∧
      tx'.version = tx.version ∧ tx'.lockTime = tx.lockTime ∧ tx'.output = tx.output ∧ tx'.input.length = tx.input.length ∧
      ∀ (n : Nat) t, tx.input[n]? = some t →
        ∃ s w, tx'.input[n]? = some { t with scriptSig := s, witness := w } ∧ Verdict M p n s w none := by
  obtain ⟨p, hup, hp2, hlen, hsound, hf, hun, hin⟩ := setup h0 hn fun n c h => ⟨(hc n c h).script, (hc n c h).definite, (hc n c h).utxo⟩
  have hcs : ∀ n, n < p.inputs.length → ∃ c, cs[n]? = some c := fun n h => ⟨_, List.getElem?_eq_getElem (by omega)⟩
  obtain ⟨a, res, q, r, tx', h1, h2, h3, h4, h5⟩ := C91_copies laws slaws (k := k) (ks := ks) hsound (by rw [hp2]; exact hun) (fun n h => by
    obtain ⟨c, h⟩ := hcs n h
    obtain ⟨t, j, hj, hfu, hu⟩ := hin n c h
    exact canSpend_of_coin tw (by rw [hp2]; exact hc n c h) hj rfl hfu hf hu) (fun i hi => by
    obtain ⟨n, hi⟩ := List.getElem?_of_mem hi
    obtain ⟨c, h⟩ := hcs n (List.getElem?_eq_some_iff.mp hi).1
    obtain ⟨t, j, hj, hfu, hu⟩ := hin n c h
    cases hi.symm.trans hj.2
    exact congrArg Input.partialSigs hu.rest) hagree mall
  rw [hp2] at h5
  exact ⟨p, a, res, q, r, tx', hup, h1, h2, h3, h4, h5⟩

section Examples
/-- Descriptors whose scripts ask for a signature of each key; key `b` is the first child of the master key `b - 1`. -/
def hLib : UpdLib gL := { uLib with fingerprint := fun b : UInt8 => Demo.rep 4 (b - 1), path := fun _ => some [7], encode := fun m => mScript m.keys }
def hMini : Mini UInt8 UInt8 := ⟨1, [2, 4]⟩
def hSh : Bytes := [0xa9, 0x14] ++ (gL.hash160 mBoth).1 ++ [0x87]
def hShWsh : Bytes := [0xa9, 0x14] ++ (gL.hash160 mWsh).1 ++ [0x87]
def hWpkh : Bytes := [0x00, 0x14] ++ (gL.hash160 (mPub 4).bytes).1
def hTr : Bytes := [0x51, 0x20] ++ (Demo.rep 32 2).1
def hPrev : Tx := ⟨1, 0, [], [dOut [], dOut hSh]⟩
/-- Three coins that take both signers, one that the second can spend, and a taproot coin that the first can spend. -/
def hCoins : List (Coin hLib) := [
  ⟨.plain (.wsh hMini), dOut mWsh, none, some (dOut mWsh)⟩,
  ⟨.plain (.shWsh hMini), dOut hShWsh, none, some (dOut hShWsh)⟩,
  ⟨.plain (.sh hMini), dOut hSh, some hPrev, none⟩,
  ⟨.plain (.wpkh (4 : UInt8)), dOut hWpkh, none, some (dOut hWpkh)⟩,
  ⟨.tr (2 : UInt8) [], dOut hTr, none, some (dOut hTr)⟩]
def hTx : Tx := ⟨2, 0, [⟨⟨Demo.rep 32 1, 0⟩, [], 0xFFFFFFFD, []⟩, ⟨⟨Demo.rep 32 1, 5⟩, [], 0xFFFFFFFD, []⟩,
  ⟨⟨V2.txid gL hPrev, 1⟩, [], 0xFFFFFFFD, []⟩, ⟨⟨Demo.rep 32 2, 0⟩, [], 0xFFFFFFFD, []⟩, ⟨⟨Demo.rep 32 3, 7⟩, [], 0xFFFFFFFD, []⟩],
  [⟨500, [0x51]⟩]⟩

theorem hIs : MiniIs hLib hMini ⟨(1 : UInt8), [mPub 2, mPub 4]⟩ := ⟨rfl, deriveKeys_ok.mp rfl⟩

theorem hDefinite (d : Descriptor hLib.Shape hLib.Key) : Definite hLib d := by
  intro k _ pk _ h; cases h

theorem hKey {b : UInt8} {q : gL.pubkey.T} {src : KeySource} (h : KeyIs hLib (b : UInt8) q src) :
    q = mPub b ∧ src = (Demo.rep 4 (b - 1), [7]) := by
  obtain ⟨h1, h2, h3⟩ := h
  refine ⟨?_, Prod.ext h3.symm (Option.some.inj h2).symm⟩
  change (if b = 0xff then Except.error _ else Except.ok (mPub b)) = _ at h1
  split at h1
  · cases h1
  · injection h1 with h1; exact h1.symm

theorem mPub_inj {a b : UInt8} (h : mPub a = mPub b) : a = b := by
  have := congrArg (fun x : gL.pubkey.T => x.bytes.head?) h
  exact Option.some.inj this

/-- Each of the two signers has one of the keys. -/
theorem hHas (ks : List UInt8) (b : UInt8) (hb : b = 2 ∨ b = 4) (hm : b ∈ ks) : ∃ prov ∈ [gKeys, pbKeys], Has hLib gS prov ks (mPub b) := by
  have key : ∀ (j : UInt8) q src, KeyIs hLib (j : UInt8) q src → hLib.inner q = hLib.inner (mPub b) → src = (Demo.rep 4 (b - 1), [7]) := by
    intro j q src h e
    obtain ⟨rfl, rfl⟩ := hKey h
    rw [mPub_inj e]
  rcases hb with rfl | rfl
  · refine ⟨gKeys, by simp, (2 : UInt8), rfl, ⟨(2 : UInt8), hm, rfl⟩, fun j _ q src h e => ?_⟩
    rw [key j q src h e]; rfl
  · refine ⟨pbKeys, by simp, (4 : UInt8), rfl, ⟨(4 : UInt8), hm, rfl⟩, fun j _ q src h e => ?_⟩
    rw [key j q src h e]; rfl

theorem hBoth : ∀ pk ∈ [mPub 2, mPub 4], ∃ prov ∈ [gKeys, pbKeys], Has hLib gS prov hMini.keys pk := by
  intro pk hpk
  simp only [List.mem_cons, List.not_mem_nil, or_false] at hpk
  rcases hpk with rfl | rfl
  · exact hHas _ _ (.inl rfl) (by decide)
  · exact hHas _ _ (.inr rfl) (by decide)

theorem hEnc : hLib.encode ⟨(1 : UInt8), [mPub 2, mPub 4]⟩ = mBoth := rfl
theorem hScripts : ScriptOf hLib (.plain (.wsh hMini)) mWsh ∧ ScriptOf hLib (.plain (.shWsh hMini)) hShWsh ∧ ScriptOf hLib (.plain (.sh hMini)) hSh := by
  have h1 := ScriptOf.wsh hIs
  have h2 := ScriptOf.shWsh hIs
  have h3 := ScriptOf.sh hIs
  rw [hEnc] at h1 h2 h3
  unfold hShWsh hSh mWsh
  exact ⟨h1, h2, h3⟩

theorem hCoins_shared : ∀ n c, hCoins[n]? = some c → SharedCoin hLib gS mEnough [gKeys, pbKeys] hTx n c := by
  intro n c h
  have hn : n < 5 := (List.getElem?_eq_some_iff.mp h).1
  have hl : mBoth.length = 67 := by decide +kernel
  match n, hn with
  | 0, _ =>
    cases h
    refine ⟨.wsh hIs ⟨by decide, rfl⟩ hBoth, hScripts.1, hDefinite _, fun t ht => ?_⟩
    exact ⟨.inl rfl, fun tx htx => (by cases htx), fun _ => trivial⟩
  | 1, _ =>
    cases h
    refine ⟨.shWsh hIs ⟨by decide, rfl⟩ hBoth, hScripts.2.1, hDefinite _, fun t ht => ?_⟩
    exact ⟨.inl rfl, fun tx htx => (by cases htx), fun _ => trivial⟩
  | 2, _ =>
    cases h
    refine ⟨.sh hIs ⟨by decide, rfl⟩ hBoth
      (by rintro ⟨h, e⟩; have := (congrArg List.length e : mBoth.length = _); simp [hl, h.2] at this)
      (by rintro ⟨h, e⟩; have := (congrArg List.length e : mBoth.length = _); simp [hl, h.2] at this), hScripts.2.2, hDefinite _, fun t ht => ?_⟩
    cases ht
    refine ⟨.inr ⟨rfl, by simp⟩, fun tx htx => ?_, fun h => by cases h⟩
    cases htx
    exact ⟨rfl, rfl⟩
  | 3, _ =>
    cases h
    refine ⟨.wpkh (pk := mPub 4) rfl (hHas [4] _ (.inr rfl) (by decide)), .wpkh (pk := mPub 4) rfl rfl, hDefinite _, fun t ht => ?_⟩
    exact ⟨.inl rfl, fun tx htx => (by cases htx), fun _ => trivial⟩
  | 4, _ =>
    cases h
    refine ⟨.tr (pk := mPub 2) (src := (Demo.rep 4 1, [7])) ⟨rfl, rfl, rfl⟩ ⟨gKeys, by simp, (2 : UInt8), rfl⟩ ?_ ?_,
      .tr (pk := mPub 2) .nil rfl .empty, hDefinite _, fun t ht => ?_⟩
    · intro prov hp sk hsk
      simp only [List.mem_cons, List.not_mem_nil, or_false] at hp
      rcases hp with rfl | rfl
      · have : answer (gKeys (.bip32 (Demo.rep 4 1, [7]))) = some (2 : UInt8) := rfl
        cases this.symm.trans hsk; rfl
      · have : answer (pbKeys (.bip32 (Demo.rep 4 1, [7]))) = none := by decide +kernel
        rw [this] at hsk; cases hsk
    · rintro hh ⟨l, hl, -⟩
      cases hl
    · exact ⟨.inl rfl, fun tx htx => (by cases htx), fun _ => trivial⟩

-- Two signers complete a transaction that neither could complete alone, one after the other or on copies.
example : ∃ p0 p q r tx', Psbt.fromUnsignedTx gL hTx = .ok p0 ∧ UpdatesAll hLib (fund p0 hCoins) 0 hCoins p ∧
    Spec.V0.signInTurn gS p [gKeys, pbKeys] = .ok q ∧ q.finalizeMut mM false = .ok (r, []) ∧ r.extract mM = .ok tx' ∧ tx'.input.length = 5 := by
  obtain ⟨p, q, r, tx', h1, h2, h3, h4, -, -, -, h5, -⟩ :=
    C97_completed mM_laws mM_scripts (U := hLib) (fun _ _ => rfl) (tx := hTx) rfl (cs := hCoins) rfl hCoins_shared false
  exact ⟨_, p, q, r, tx', rfl, h1, h2, h3, h4, h5⟩
example : ∃ p0 p a res q r tx', Psbt.fromUnsignedTx gL hTx = .ok p0 ∧ UpdatesAll hLib (fund p0 hCoins) 0 hCoins p ∧
    p.sign gS gKeys = .ok (a, res) ∧ Spec.V0.combineCopies gS p a [pbKeys] = some q ∧
    q.finalizeMut mM true = .ok (r, []) ∧ r.extract mM = .ok tx' ∧ tx'.input.length = 5 := by
  obtain ⟨p, a, res, q, r, tx', h1, h2, h3, h4, h5, -, -, -, h6, -⟩ :=
    C97_copies mM_laws mM_scripts (U := hLib) (fun _ _ => rfl) (k := gKeys) (ks := [pbKeys]) (tx := hTx) rfl (cs := hCoins) rfl hCoins_shared (by
      intro a ha b hb
      simp only [List.mem_cons, List.not_mem_nil, or_false] at ha hb
      rcases ha with rfl | rfl <;> rcases hb with rfl | rfl
      · exact agree_self _
      · exact pb_agree
      · exact agree_symm pb_agree
      · exact agree_self _) true
  exact ⟨_, p, a, res, q, r, tx', rfl, h1, h2, h3, h4, h5, h6⟩
end Examples

end Psbt.V0
