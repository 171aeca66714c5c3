/- C101: the fee a PSBT states and the fee that is paid. -/
import Verif.Spec.Chain
import Verif.Props.V0Checks
import Verif.Props.V0Extract
import Verif.Props.V0Taproot
import Verif.Props.V0Update
import Verif.Props.V2Extract
import Verif.Props.V2Sign
import Verif.Props.SighashCache
import Verif.Lemmas.V0Finalize
namespace Psbt

variable {L : Lib}

/-- The bytes of which the id is the hash determine the outputs. -/
theorem outputs_of_bytes {a b : Tx} (ha : a.Small) (hb : b.Small) (h : Spec.unsignedTxBytes a = Spec.unsignedTxBytes b) : a.output = b.output := by
  rw [unsignedTxBytes_fun] at h
  have strip : ∀ t : Tx, t.Small → encTxLegacy t = encTxLegacy { t with input := t.input.map TxIn.stripped } ∧
      ({ t with input := t.input.map TxIn.stripped } : Tx).Small ∧ ∀ i ∈ t.input.map TxIn.stripped, i.witness = [] := by
    rintro t ⟨h1, h2, h3, h4⟩
    refine ⟨?_, ⟨by simpa using h1, h2, ?_, h4⟩, ?_⟩
    · simp only [encTxLegacy, encList, List.length_map, List.flatMap_map]
      rfl
    · intro i hi
      obtain ⟨j, hj, rfl⟩ := List.mem_map.mp hi
      exact ⟨(h3 j hj).1, by simp [TxIn.stripped], by simp [TxIn.stripped]⟩
    · intro i hi
      obtain ⟨j, -, rfl⟩ := List.mem_map.mp hi
      rfl
  obtain ⟨e1, s1, w1⟩ := strip a ha
  obtain ⟨e2, s2, w2⟩ := strip b hb
  have d1 := decTxLegacy_enc s1 w1 []
  have d2 := decTxLegacy_enc s2 w2 []
  rw [← e1, h, e2, d2] at d1
  injection d1 with d1
  injection d1 with d1 _
  exact (congrArg Tx.output d1).symm

/-- A transaction with the id named by an outpoint has the output that exists. -/
theorem creates_eq {chain : List Tx} (hc : ∀ x ∈ chain, x.Small) {o : OutPoint} {u v : TxOut} {tx : Tx} (ht : tx.Small)
    (h : Spec.Creates L chain o u) (hi : Spec.txid L tx = o.txid) (hv : tx.output[o.vout.toNat]? = some v) :
    v = u ∨ Spec.SameId L chain [tx] := by
  obtain ⟨x, hx, hid, hu⟩ := h
  by_cases he : Spec.unsignedTxBytes x = Spec.unsignedTxBytes tx
  · left
    rw [outputs_of_bytes (hc x hx) ht he, hv] at hu
    exact Option.some.inj hu
  · exact .inr ⟨_, List.mem_map_of_mem hx, _, List.mem_map_of_mem List.mem_cons_self, he, hid.trans hi.symm⟩

theorem SameId.mono {xs ys zs : List Tx} (h : Spec.SameId L xs ys) (hs : ∀ y ∈ ys, y ∈ zs) : Spec.SameId L xs zs := by
  obtain ⟨a, ha, b, hb, h1, h2⟩ := h
  obtain ⟨y, hy, rfl⟩ := List.mem_map.mp hb
  exact ⟨a, ha, _, List.mem_map_of_mem (hs y hy), h1, h2⟩

namespace V0
open Spec.V0

/-- The outputs that the PSBT states for some inputs are those that exist, if this holds for each. -/
theorem funding_eq {chain : List Tx} {B : Prop} : ∀ {ts : List TxIn} {is : List (Input L)} {us vs : List TxOut}, Funding ts is vs →
    Spec.Spends L chain (ts.map TxIn.previousOutput) us →
    (∀ (n : Nat) t i u v, ts[n]? = some t → is[n]? = some i → us[n]? = some u → FundedBy t i v → Spec.Creates L chain t.previousOutput u → v = u ∨ B) → vs = us ∨ B
  | _, _, _, _, .nil, .nil, _ => .inl rfl
  | _, _, _, _, .cons h hs, .cons k ks, H => by
    rcases H 0 _ _ _ _ rfl rfl rfl h k with e | b
    · rcases funding_eq hs ks (fun n t i u v h1 h2 h3 => H (n + 1) t i u v (by simpa using h1) (by simpa using h2) (by simpa using h3)) with e' | b
      · exact .inl (by rw [e, e'])
      · exact .inr b
    · exact .inr b

/-- C101, for PSBT v0. If the signer's checks accept a PSBT in which every input carries the transaction it spends from, and a witness UTXO beside
it is the output spent, then the fee computed is the one paid, unless two transactions have the same id. The checks do not compare
the two kinds of UTXO, and accept witness UTXOs alone, about which nobody can tell without the chain. -/
theorem C101_v0_checked_partial {p : Psbt L} {chain : List Tx} {us : List TxOut} {f : UInt64}
    (hc : ∀ x ∈ chain, x.Small) (hp : ∀ x ∈ previous p, x.Small)
    (hk : p.signerChecks = .ok ()) (hw : FullyFunded p) (hf : p.fee = .ok f)
    (hu : Spec.Spends L chain (p.unsignedTx.input.map TxIn.previousOutput) us) :
    Spec.Pays us (Spec.total (p.unsignedTx.output.map TxOut.value)) f.toNat ∨ Spec.SameId L chain (previous p) := by
  obtain ⟨vs, h1, -, -, h2⟩ := (C49_fee_iff p f).mp hf
  have := (C52_accepts_iff_partial p).mp hk
  rcases funding_eq (B := Spec.SameId L chain (previous p)) h1 hu (fun n t i u v ht hi _ hv hcr => by
    obtain ⟨tx, htx, ha⟩ := hw n t i ⟨ht, hi⟩
    have hmem : tx ∈ previous p := List.mem_filterMap.mpr ⟨i, List.mem_of_getElem? hi, htx⟩
    obtain ⟨t', ⟨ht', -⟩, hid⟩ := (this n i hi).2.1 (by rw [htx]; simp)
    rw [ht] at ht'
    cases ht'
    have hout : tx.output[t.previousOutput.vout.toNat]? = some v := by
      cases hv with
      | witness h => exact ha v h
      | nonWitness _ h h' => rw [htx] at h; cases h; exact h'
    exact (creates_eq hc (hp _ hmem) hcr (hid tx htx) hout).imp_right fun h => SameId.mono h (by simpa using hmem)) with e | b
  · subst e; exact .inl h2
  · exact .inr b

variable {U : UpdLib L}

/-- C101. Filling in an input from a descriptor compares everything: afterwards the output that fee, signing and finalizing use for
the input is the one that exists, if the input carries the transaction it spends from. -/
theorem C101_v0_updated {p q : Psbt L} {n : Nat} {d : Descriptor U.Shape U.Key} (hd : Definite U d) {chain : List Tx}
    (hc : ∀ x ∈ chain, x.Small) (hp : ∀ x ∈ previous p, x.Small) (h : p.updateInput U n d = .ok (q, .ok ()))
    {t : TxIn} {j : Input L} {u v : TxOut} (hj : HasInput q n t j) (hv : FundedBy t j v) (hn : j.nonWitnessUtxo ≠ none)
    (hu : Spec.Creates L chain t.previousOutput u) : v = u ∨ Spec.SameId L chain (previous p) := by
  obtain ⟨t', i, w, j', h1, h2, h3, h5, rfl⟩ := (C71_updated_iff hd).mp h
  have hlt := (List.getElem?_eq_some_iff.mp h1.2).1
  obtain ⟨rfl, rfl⟩ := hasInput_unique hj (⟨h1.1, by simp [withInput, hlt]⟩ : HasInput (withInput p n j') n t' j')
  cases fundedBy_unique hv (funded_after h2 h5)
  obtain ⟨tx, htx⟩ := Option.ne_none_iff_exists'.mp hn
  rw [h5.utxo.2] at htx
  obtain ⟨hid, hout⟩ := h2.2.1 tx htx
  have hmem : tx ∈ previous p := List.mem_filterMap.mpr ⟨i, List.mem_of_getElem? h1.2, htx⟩
  exact (creates_eq hc (hp _ hmem) hu hid hout).imp_right fun h => SameId.mono h (by simpa using hmem)

/-- A transaction with a P2WSH output, and an input that spends it and carries it. -/
def aWsh : Tx := ⟨2, 0, [⟨⟨Demo.rep 32 1, 0⟩, [], 0, []⟩], [⟨900, uWshSpk⟩]⟩
-- The hypotheses are met.
example : ∃ q t j, (kP (Spec.txid gL aWsh) { Input.default gL with nonWitnessUtxo := some aWsh }).updateInput uLib 0 uWsh = .ok (q, .ok ()) ∧
    HasInput q 0 t j ∧ FundedBy t j ⟨900, uWshSpk⟩ ∧ j.nonWitnessUtxo ≠ none ∧
    Spec.Creates gL [aWsh] t.previousOutput ⟨900, uWshSpk⟩ ∧ ∀ x ∈ [aWsh], x.Small :=
  ⟨_, _, _, rfl, ⟨rfl, rfl⟩, .nonWitness rfl rfl rfl, by decide +kernel, ⟨aWsh, List.mem_cons_self, rfl, rfl⟩, by
    intro x hx; cases List.mem_singleton.mp hx; unfold Tx.Small TxIn.Small; decide +kernel⟩

/-! ### Signatures that depend on the amounts -/

theorem withUtxos_input {p : Psbt L} {us : List TxOut} {n : Nat} {t : TxIn} {i : Input L} {u : TxOut} (h : HasInput p n t i) (hu : us[n]? = some u) :
    HasInput (withUtxos p us) n t { i with witnessUtxo := some u } := by
  refine ⟨h.1, ?_⟩
  simp [withUtxos, List.getElem?_zipWith, h.2, hu]

/-- A BIP-143 message of a spend of that kind has the amount of the output and its script code. -/
theorem segwit_message {tx : Tx} {n : Nat} {i : Input L} {u : TxOut} {ty : EcdsaTy} {m : Hash32} {o : OutputType}
    (ho : Spec.SpendType u.scriptPubkey i.redeemScript o) (hs : segwitV0 o) (h : Message tx n i u ty m) :
    ∃ code, SegwitCode i u code ∧ segwitSighash L tx n code u.value ty = some m := by
  have uniq : ∀ o', Spec.SpendType u.scriptPubkey i.redeemScript o' → ¬ segwitV0 o' → False := by
    intro o' h' hn
    have := (outputTypeOf_iff.mpr ho).symm.trans (outputTypeOf_iff.mpr h')
    cases this
    exact hn hs
  cases h with
  | bare a b => exact (uniq _ a (by simp [segwitV0])).elim
  | sh a b c => exact (uniq _ a (by simp [segwitV0])).elim
  | wpkh a b => exact ⟨_, .wpkh a, b⟩
  | shWpkh a b c => exact ⟨_, .shWpkh a b, c⟩
  | wsh a b c => exact ⟨_, .wsh a b, c⟩
  | shWsh a b c d e => exact ⟨_, .shWsh a b c d, e⟩

theorem segwitCode_small {i : Input L} {u : TxOut} {code : Bytes} (hw : ∀ w, i.witnessScript = some w → w.length < 2 ^ 64)
    (h : SegwitCode i u code) : code.length < 2 ^ 64 := by
  cases h with
  | @wpkh h => have := h.2; simp only [List.length_append, List.length_cons, List.length_nil]; omega
  | @shWpkh h => have := h.2; simp only [List.length_append, List.length_cons, List.length_nil]; omega
  | wsh _ h => exact hw _ h
  | shWsh _ _ _ h => exact hw _ h

/-- C101. If an input has the same message to sign with the output that the PSBT states and with another one, of the same kind of spend, then
both have the same amount, unless the hash function fails. So a signature made for a wrong amount is not a signature for the
output that exists. -/
theorem C101_amount {p q : Psbt L} {n : Nat} {k : Kind} {m : Hash32} (hs : p.unsignedTx.Small) (hs' : q.unsignedTx.Small) (hn : n < 2 ^ 32)
    (hu : SmallUtxos p) (hu' : SmallUtxos q) (hw : ∀ i ∈ p.inputs ++ q.inputs, ∀ w, i.witnessScript = some w → w.length < 2 ^ 64)
    (h : SignsAs p n k m) (h' : SignsAs q n k m) :
    (∃ t i u t' i' u', HasInput p n t i ∧ FundedBy t i u ∧ HasInput q n t' i' ∧ FundedBy t' i' u' ∧ u.value = u'.value) ∨ HashBreaks p q n k := by
  cases h with
  | segwit a b c d e =>
    cases h' with
    | segwit a' b' c' d' e' =>
      obtain ⟨x, y, z, e1, e2, e3, e4⟩ := e
      obtain ⟨rfl, rfl⟩ := hasInput_unique a e1
      cases fundedBy_unique b e2
      obtain ⟨x', y', z', f1, f2, f3, f4⟩ := e'
      obtain ⟨rfl, rfl⟩ := hasInput_unique a' f1
      cases fundedBy_unique b' f2
      obtain ⟨code, g1, g2⟩ := segwit_message c d e4
      obtain ⟨code', g1', g2'⟩ := segwit_message c' d' f4
      rcases V2.C37_segwit_commits hs hs' (segwitCode_small (hw _ (List.mem_append_left _ (List.mem_of_getElem? a.2))) g1)
        (segwitCode_small (hw _ (List.mem_append_right _ (List.mem_of_getElem? a'.2))) g1') g2 g2' with r | r | r
      · exact .inr ⟨_, _, _, _, _, _, _, _, _, _, a, b, g1, e3, a', b', g1', f3, .inl r⟩
      · exact .inr ⟨_, _, _, _, _, _, _, _, _, _, a, b, g1, e3, a', b', g1', f3, .inr r⟩
      · exact .inl ⟨_, _, _, _, _, _, a, b, a', b', r.2.2.2.2.1⟩
  | taproot a =>
    cases h' with
    | taproot a' =>
      rcases C62_commits hs hs' hu hu' hn hn a a' with ⟨xs, ys, h1, h2, h3⟩ | r
      · exact .inr ⟨_, _, xs, ys, h1, h2, h3⟩
      · obtain ⟨t, i, u, t', i', h1, h2, h3, h4, -⟩ := r.2.2.2.2.1
        exact .inl ⟨t, i, u, t', i', u, h1, h2, h3, h4, rfl⟩

theorem small_withUtxos {p : Psbt L} {us : List TxOut} (h : ∀ u ∈ us, u.scriptPubkey.length < 2 ^ 64) : SmallUtxos (withUtxos p us) := by
  rintro n t i u ⟨-, h2⟩ hf
  simp only [withUtxos, List.getElem?_zipWith] at h2
  split at h2
  · rename_i a b _ hb
    cases h2
    cases hf with
    | witness e => cases e; exact h _ (List.mem_of_getElem? hb)
    | nonWitness e => cases e
  · cases h2

theorem scripts_withUtxos {p : Psbt L} {us : List TxOut} (hw : ∀ i ∈ p.inputs, ∀ w, i.witnessScript = some w → w.length < 2 ^ 64) :
    ∀ i ∈ p.inputs ++ (withUtxos p us).inputs, ∀ w, i.witnessScript = some w → w.length < 2 ^ 64 := by
  intro i hi
  rcases List.mem_append.mp hi with hi | hi
  · exact hw i hi
  · obtain ⟨n, hn⟩ := List.mem_iff_getElem?.mp hi
    simp only [withUtxos, List.getElem?_zipWith] at hn
    split at hn
    · rename_i a b ha _
      cases hn
      exact hw a (List.mem_of_getElem? ha)
    · cases hn

theorem funding_get {ts : List TxIn} {is : List (Input L)} {us : List TxOut} (h : Funding ts is us) {n : Nat} {t : TxIn} {i : Input L}
    (ht : ts[n]? = some t) (hi : is[n]? = some i) : ∃ u, us[n]? = some u ∧ FundedBy t i u := by
  induction h generalizing n with
  | nil => simp at ht
  | cons a _ ih =>
    cases n with
    | zero => cases ht; cases hi; exact ⟨_, rfl, a⟩
    | succ n => exact ih (by simpa using ht) (by simpa using hi)

/-- Amounts stated and amounts that exist, added up. -/
theorem funding_total {B : Prop} : ∀ {ts : List TxIn} {is : List (Input L)} {us vs : List TxOut}, Funding ts is vs → us.length = ts.length →
    (∀ (n : Nat) t i u v, ts[n]? = some t → is[n]? = some i → us[n]? = some u → FundedBy t i v → v.value = u.value ∨ B) →
    vs.map TxOut.value = us.map TxOut.value ∨ B
  | _, _, us, _, .nil, hl, _ => by cases us with | nil => exact .inl rfl | cons => cases hl
  | _, _, [], _, .cons _ _, hl, _ => by cases hl
  | _, _, u :: us, _, .cons h hs, hl, H => by
    rcases H 0 _ _ _ _ rfl rfl rfl h with e | b
    · rcases funding_total (us := us) hs (by simpa using hl)
        (fun n t i u v h1 h2 h3 => H (n + 1) t i u v (by simpa using h1) (by simpa using h2) (by simpa using h3)) with e' | b
      · exact .inl (by simp only [List.map_cons, e, e'])
      · exact .inr b
    · exact .inr b

theorem spends_length {chain : List Tx} {os : List OutPoint} {us : List TxOut} (h : Spec.Spends L chain os us) : us.length = os.length := by
  induction h with
  | nil => rfl
  | cons _ _ ih => simp [ih]

/-- C101. If every input is spent with segwit or taproot signatures, and for each the message signed is the one that counts for the outputs that
exist, then the fee computed is the one paid, unless a hash function fails. -/
theorem C101_all_signed {p : Psbt L} {chain : List Tx} {us : List TxOut} {f : UInt64} {k : Nat → Kind} {m : Nat → Hash32}
    (hs : p.unsignedTx.Small) (hl : p.inputs.length ≤ 2 ^ 32) (hv : SmallUtxos p) (hv' : ∀ u ∈ us, u.scriptPubkey.length < 2 ^ 64)
    (hw : ∀ i ∈ p.inputs, ∀ w, i.witnessScript = some w → w.length < 2 ^ 64)
    (h : ∀ n, n < p.inputs.length → SignsAs p n (k n) (m n) ∧ SignsAs (withUtxos p us) n (k n) (m n))
    (hf : p.fee = .ok f) (hu : Spec.Spends L chain (p.unsignedTx.input.map TxIn.previousOutput) us) :
    Spec.Pays us (Spec.total (p.unsignedTx.output.map TxOut.value)) f.toNat ∨
      ∃ n, n < p.inputs.length ∧ HashBreaks p (withUtxos p us) n (k n) := by
  obtain ⟨vs, h1, -, -, h2⟩ := (C49_fee_iff p f).mp hf
  rcases funding_total (B := ∃ n, n < p.inputs.length ∧ HashBreaks p (withUtxos p us) n (k n)) h1 (by simpa using spends_length hu)
    (fun n t i u v ht hi hun hfu => by
      have hlt := (List.getElem?_eq_some_iff.mp hi).1
      obtain ⟨a, b⟩ := h n hlt
      rcases C101_amount hs (q := withUtxos p us) hs (by omega) hv (small_withUtxos hv') (scripts_withUtxos hw) a b with r | r
      · left
        obtain ⟨t1, i1, u1, t2, i2, u2, r1, r2, r3, r4, e⟩ := r
        obtain ⟨rfl, rfl⟩ := hasInput_unique (⟨ht, hi⟩ : HasInput p n t i) r1
        cases fundedBy_unique hfu r2
        obtain ⟨rfl, rfl⟩ := hasInput_unique (withUtxos_input ⟨ht, hi⟩ hun) r3
        cases fundedBy_unique (.witness rfl) r4
        exact e
      · exact .inr ⟨n, hlt, r⟩) with e | b
  · left; unfold Spec.Pays; rw [← e]; exact h2
  · exact .inr b

/-- C101. One taproot signature of a type without ANYONECANPAY is enough for this. -/
theorem C101_one_taproot {p : Psbt L} {chain : List Tx} {us : List TxOut} {f : UInt64} {n : Nat} {leaf : Option Hash32} {m : Hash32} {ty : TapTy}
    (hs : p.unsignedTx.Small) (hn : n < 2 ^ 32) (hv : SmallUtxos p) (hv' : ∀ u ∈ us, u.scriptPubkey.length < 2 ^ 64)
    (h : TapSigns p n leaf m ty) (h' : TapSigns (withUtxos p us) n leaf m ty) (ht : tapCommitsInputs ty)
    (hf : p.fee = .ok f) (hu : Spec.Spends L chain (p.unsignedTx.input.map TxIn.previousOutput) us) :
    Spec.Pays us (Spec.total (p.unsignedTx.output.map TxOut.value)) f.toNat ∨ HashBreaks p (withUtxos p us) n (.taproot leaf) := by
  obtain ⟨vs, h1, -, -, h2⟩ := (C49_fee_iff p f).mp hf
  rcases C62_commits hs (p' := withUtxos p us) hs hv (small_withUtxos hv') hn hn h h' with ⟨xs, ys, g1, g2, g3⟩ | r
  · exact .inr ⟨_, _, xs, ys, g1, g2, g3⟩
  · left
    obtain ⟨-, -, -, ws, w1, w2⟩ := r.2.2.2.2.2.1 ht
    cases funding_unique h1 w1
    have hlen := spends_length hu
    rcases funding_total (B := False) w1 (us := us) (by simpa using hlen) (fun n t i u v ht hi hun hfu => by
      left
      obtain ⟨v', hv1, hv2⟩ : ∃ v', vs[n]? = some v' ∧ FundedBy t i v' := funding_get w1 ht hi
      cases fundedBy_unique hfu hv2
      have hin := withUtxos_input (p := p) ⟨ht, hi⟩ hun
      obtain ⟨v'', hv3, hv4⟩ := funding_get w2 hin.1 hin.2
      cases fundedBy_unique (.witness rfl) hv4
      rw [hv1] at hv3
      cases hv3
      rfl) with e | b
    · unfold Spec.Pays; rw [← e]; exact h2
    · exact b.elim

/-! ### Cases that meet the hypotheses, and where the claim fails -/

/-- A chain of one transaction, with outputs of several kinds. -/
def aTx : Tx := ⟨2, 0, [⟨⟨Demo.rep 32 1, 0⟩, [], 0, []⟩], [⟨5000, V2.spkBare⟩, ⟨7000, V2.spkWpkh⟩, ⟨9000, V2.spkTr⟩, ⟨4000, V2.spkWpkh⟩]⟩
/-- The same with another first amount. -/
def aFake : Tx := { aTx with output := [⟨600, V2.spkBare⟩] }
/-- A PSBT that spends the outputs of that transaction with these indices. -/
def aP (is : List (UInt32 × Input mL)) : Psbt mL where
  unsignedTx := ⟨2, 0, is.map fun x => ⟨⟨Spec.txid mL aTx, x.1⟩, [], 0xFFFFFFFF, []⟩, [⟨500, [0x51]⟩]⟩
  version := 0
  xpub := .empty
  proprietary := .empty
  unknown := .empty
  inputs := is.map Prod.snd
  outputs := [Output.default mL]
/-- Input maps with a full transaction, with an output. -/
def aFull (t : Tx) : Input mL := { Input.default mL with nonWitnessUtxo := some t }
def aWit (v : UInt64) (spk : Bytes) : Input mL := { Input.default mL with witnessUtxo := some ⟨v, spk⟩ }
def aKey (i : Input mL) : Input mL := { i with bip32Derivation := BMap.empty.insert (Demo.val 33 (by decide) 5) (Demo.rep 4 1, [7]) }

theorem aCreates {n : UInt32} {u : TxOut} (h : aTx.output[n.toNat]? = some u) : Spec.Creates mL [aTx] ⟨Spec.txid mL aTx, n⟩ u :=
  ⟨aTx, List.mem_cons_self, rfl, h⟩
theorem aSmall : ∀ x ∈ [aTx], x.Small := by
  intro x hx
  cases List.mem_singleton.mp hx
  unfold Tx.Small TxIn.Small
  decide +kernel

-- Those of `C101_v0_checked_partial`: two inputs, and no two transactions with the same id.
example : (aP [(0, aFull aTx), (1, { aFull aTx with witnessUtxo := some ⟨7000, V2.spkWpkh⟩ })]).signerChecks = .ok () ∧
    (aP [(0, aFull aTx), (1, { aFull aTx with witnessUtxo := some ⟨7000, V2.spkWpkh⟩ })]).fee = .ok 11500 ∧
    Spec.Spends mL [aTx] [⟨Spec.txid mL aTx, 0⟩, ⟨Spec.txid mL aTx, 1⟩] [⟨5000, V2.spkBare⟩, ⟨7000, V2.spkWpkh⟩] ∧
    ¬ Spec.SameId mL [aTx] (previous (aP [(0, aFull aTx), (1, { aFull aTx with witnessUtxo := some ⟨7000, V2.spkWpkh⟩ })])) := by
  refine ⟨by decide +kernel, by decide +kernel, .cons (aCreates rfl) (.cons (aCreates rfl) .nil), ?_⟩
  unfold Spec.SameId
  decide +kernel
example : FullyFunded (aP [(0, aFull aTx)]) := by
  rintro n t i ⟨h1, h2⟩
  have : i = aFull aTx := by simpa [aP] using List.mem_of_getElem? h2
  subst this
  exact ⟨aTx, rfl, fun u h => by cases h⟩

/-- The messages of two inputs, of which one is taproot. -/
def aBoth : Psbt mL := aP [(1, aWit 7000 V2.spkWpkh), (2, aWit 9000 V2.spkTr)]
def aOuts : List TxOut := [⟨7000, V2.spkWpkh⟩, ⟨9000, V2.spkTr⟩]
def aMsg (p : Psbt mL) (n : Nat) : Hash32 := match p.sighashEcdsa n p.unsignedTx with | .ok (m, _) => m | _ => Demo.rep 32 0
def aTap (p : Psbt mL) (n : Nat) : Hash32 := match p.sighashTaproot n p.unsignedTx none with | .ok (m, _) => m | _ => Demo.rep 32 0
-- Those of `C101_all_signed` and `C101_one_taproot`, with the amounts that exist: the messages are those of the PSBT itself.
example : withUtxos aBoth aOuts = aBoth ∧ aBoth.fee = .ok 15500 ∧
    Spec.Spends mL [aTx] (aBoth.unsignedTx.input.map TxIn.previousOutput) aOuts := by
  refine ⟨by decide +kernel, by decide +kernel, .cons (aCreates rfl) (.cons (aCreates rfl) .nil)⟩
example : SignsAs aBoth 0 .segwit (aMsg aBoth 0) ∧ SignsAs aBoth 1 (.taproot none) (aTap aBoth 1) := by
  constructor
  · exact .segwit (o := .wpkh) ⟨rfl, rfl⟩ (.witness rfl) (outputTypeOf_iff.mp (by decide +kernel)) trivial (ty := ⟨0x01, by decide⟩)
      ⟨_, _, _, ⟨rfl, rfl⟩, .witness rfl, .inl ⟨rfl, rfl⟩, .wpkh (h := Demo.rep 20 9) rfl (by decide +kernel)⟩
  · refine .taproot (ty := ⟨0x00, by decide⟩) ((C62_message_iff ?_ ..).mp (by decide +kernel))
    rintro n t i tx _ h2 h3 h4
    have : i = aWit 7000 V2.spkWpkh ∨ i = aWit 9000 V2.spkTr := by simpa [aBoth, aP] using List.mem_of_getElem? h2
    rcases this with rfl | rfl <;> cases h3

/-- C101 fails: signing does not look at whether the full transaction that an input carries is the one it spends from. It signs here, with the
message that counts, while the fee computed is 100 and the fee paid 4500. -/
theorem C101_v0_unchecked_counterexample : ∃ (p : Psbt mL) (us : List TxOut) (f : UInt64) (m : Hash32) (ty : EcdsaTy),
    p.fee = .ok f ∧ Spec.Spends mL [aTx] (p.unsignedTx.input.map TxIn.previousOutput) us ∧
    ¬ Spec.Pays us (Spec.total (p.unsignedTx.output.map TxOut.value)) f.toNat ∧ ¬ Spec.SameId mL [aTx] (previous p) ∧
    p.sighashEcdsa 0 p.unsignedTx = .ok (m, ty) ∧ (withUtxos p us).sighashEcdsa 0 p.unsignedTx = .ok (m, ty) ∧
    ∃ q used i, p.sign mixSig caKeys = .ok (q, .ok used) ∧ q.inputs = [i] ∧
      i.partialSigs.get (mixSig.pub caKey) = some ⟨mixSig.signEcdsa m caKey, ty⟩ := by
  refine ⟨aP [(0, aKey (aFull aFake))], [⟨5000, V2.spkBare⟩], 100, aMsg (aP [(0, aKey (aFull aFake))]) 0, ⟨0x01, by decide⟩, by decide +kernel,
    .cons (aCreates rfl) .nil, by unfold Spec.Pays; decide +kernel, by unfold Spec.SameId; decide +kernel, by decide +kernel, by decide +kernel,
    _, _, _, rfl, rfl, by decide +kernel⟩

/-- C101 fails: the signer's checks do not compare a witness UTXO with the transaction beside it, and the former is used. -/
theorem C101_v0_contradiction_counterexample : ∃ (p : Psbt mL) (us : List TxOut) (f : UInt64), p.signerChecks = .ok () ∧
    (∀ i ∈ p.inputs, i.nonWitnessUtxo = some aTx) ∧ p.fee = .ok f ∧
    Spec.Spends mL [aTx] (p.unsignedTx.input.map TxIn.previousOutput) us ∧
    ¬ Spec.Pays us (Spec.total (p.unsignedTx.output.map TxOut.value)) f.toNat ∧ ¬ Spec.SameId mL [aTx] (previous p) := by
  refine ⟨aP [(1, { aFull aTx with witnessUtxo := some ⟨600, V2.spkWpkh⟩ })], [⟨7000, V2.spkWpkh⟩], 100, by decide +kernel, by decide +kernel,
    by decide +kernel, .cons (aCreates rfl) .nil, by unfold Spec.Pays; decide +kernel, by unfold Spec.SameId; decide +kernel⟩

/-- One BIP-143 signature is not enough, unlike one of taproot: the amount of another input is free. -/
theorem C101_one_segwit_counterexample : ∃ (p : Psbt mL) (us : List TxOut) (f : UInt64) (m : Hash32), p.signerChecks = .ok () ∧ p.fee = .ok f ∧
    Spec.Spends mL [aTx] (p.unsignedTx.input.map TxIn.previousOutput) us ∧
    SignsAs p 0 .segwit m ∧ SignsAs (withUtxos p us) 0 .segwit m ∧
    ¬ Spec.Pays us (Spec.total (p.unsignedTx.output.map TxOut.value)) f.toNat := by
  refine ⟨aP [(1, aWit 7000 V2.spkWpkh), (3, aWit 1 V2.spkWpkh)], [⟨7000, V2.spkWpkh⟩, ⟨4000, V2.spkWpkh⟩], 6501,
    aMsg (aP [(1, aWit 7000 V2.spkWpkh), (3, aWit 1 V2.spkWpkh)]) 0, by decide +kernel, by decide +kernel,
    .cons (aCreates rfl) (.cons (aCreates rfl) .nil), ?_, ?_, by unfold Spec.Pays; decide +kernel⟩ <;>
  exact .segwit (o := .wpkh) ⟨rfl, rfl⟩ (.witness rfl) (outputTypeOf_iff.mp (by decide +kernel)) trivial (ty := ⟨0x01, by decide⟩)
      ⟨_, _, _, ⟨rfl, rfl⟩, .witness rfl, .inl ⟨rfl, rfl⟩, .wpkh (h := Demo.rep 20 9) rfl (by decide +kernel)⟩

end V0

namespace V2

open _root_.Psbt.Spec (previous)

/-- C101, for PSBT v2. The fee computed is the one paid if the input's UTXO fields are right: every input carries a transaction with the id that the
input names, and a witness UTXO beside it is the output spent. The crate never checks either. -/
theorem C101_v2_partial {p : Psbt L} {chain : List Tx} {us : List TxOut} {f : UInt64}
    (hc : ∀ x ∈ chain, x.Small) (hp : ∀ x ∈ previous p, x.Small)
    (hw : ∀ i ∈ p.inputs, ∃ tx, i.nonWitnessUtxo = some tx ∧ Spec.txid L tx = i.previousTxid ∧
      ∀ u, i.witnessUtxo = some u → tx.output[i.spentOutputIndex.toNat]? = some u)
    (hf : p.fee = .ok f) (hu : Spec.Spends L chain (p.inputs.map fun i => ⟨i.previousTxid, i.spentOutputIndex⟩) us) :
    Spec.Pays us (Spec.totalOut p) f.toNat ∨ Spec.SameId L chain (previous p) := by
  obtain ⟨vs, h1, -, -, h2⟩ := (C30_fee_iff p f).mp hf
  have key : vs = us ∨ Spec.SameId L chain (previous p) := by
    have hsub : ∀ i ∈ p.inputs, ∀ tx, i.nonWitnessUtxo = some tx → tx ∈ previous p :=
      fun i hi tx h => List.mem_filterMap.mpr ⟨i, hi, h⟩
    revert hu hw hsub
    generalize hprev : previous p = prev at *
    clear h2 hf
    generalize p.inputs = is at h1
    intro hw hu hsub
    induction h1 generalizing us with
    | nil => cases hu; exact .inl rfl
    | cons a _ ih =>
      cases hu with
      | cons k ks =>
        rename_i i v is' vs' _ u' us'
        obtain ⟨tx, htx, hid, ha⟩ := hw i List.mem_cons_self
        have hout : tx.output[i.spentOutputIndex.toNat]? = some v := by
          cases a with
          | witness h => exact ha _ h
          | nonWitness _ h h' => rw [htx] at h; cases h; exact h'
        have hm := hsub i List.mem_cons_self tx htx
        rcases creates_eq hc (hp tx hm) k hid hout with e | b
        · rcases ih (fun j hj => hw j (List.mem_cons_of_mem _ hj)) ks (fun j hj => hsub j (List.mem_cons_of_mem _ hj)) with e' | b
          · exact .inl (by rw [e, e'])
          · exact .inr b
        · exact .inr (SameId.mono b (by simpa using hm))
  rcases key with e | b
  · subst e; exact .inl h2
  · exact .inr b

/-- A PSBT v2 with one input, that spends output 0 of the chain's transaction and carries this one. -/
def aV2 (t : Tx) : Psbt V0.mL :=
  ⟨{ Global.new V0.mL with inputCount := 1, outputCount := 1 },
    [{ Input.new V0.mL ⟨Spec.txid V0.mL V0.aTx, 0⟩ with nonWitnessUtxo := some t }], [Output.new V0.mL ⟨500, [0x51]⟩]⟩
def aV2Tx (p : Psbt V0.mL) : Tx := match p.unsignedTx with | .ok t => t | .error _ => ⟨0, 0, [], []⟩
def aV2Msg (p : Psbt V0.mL) : Hash32 := match p.sighashEcdsa 0 (aV2Tx p) with | .ok (m, _) => m | _ => Demo.rep 32 0

-- The hypotheses are met.
example : (aV2 V0.aTx).fee = .ok 4500 ∧ Spec.Spends V0.mL [V0.aTx] ((aV2 V0.aTx).inputs.map fun i => ⟨i.previousTxid, i.spentOutputIndex⟩) [⟨5000, spkBare⟩] ∧
    ∀ i ∈ (aV2 V0.aTx).inputs, ∃ tx, i.nonWitnessUtxo = some tx ∧ Spec.txid V0.mL tx = i.previousTxid ∧
      ∀ u, i.witnessUtxo = some u → tx.output[i.spentOutputIndex.toNat]? = some u := by
  refine ⟨by decide +kernel, .cons (V0.aCreates rfl) .nil, ?_⟩
  intro i hi
  cases List.mem_singleton.mp hi
  exact ⟨V0.aTx, rfl, rfl, fun u h => by cases h⟩

/-- C101 fails for PSBT v2: nothing compares the full transaction that an input carries with the id the input names. Signing, the fee and its limit
use it: the message is the one that counts, the fee computed is 100 and the fee paid 4500. -/
theorem C101_v2_counterexample : ∃ (p : Psbt V0.mL) (us : List TxOut) (f : UInt64) (tx : Tx) (m : Hash32) (ty : EcdsaTy),
    p.fee = .ok f ∧ Spec.Spends V0.mL [V0.aTx] (p.inputs.map fun i => ⟨i.previousTxid, i.spentOutputIndex⟩) us ∧
    ¬ Spec.Pays us (Spec.totalOut p) f.toNat ∧ ¬ Spec.SameId V0.mL [V0.aTx] (previous p) ∧ p.unsignedTx = .ok tx ∧
    p.sighashEcdsa 0 tx = .ok (m, ty) ∧
    (⟨p.global, p.inputs.map fun i => { i with nonWitnessUtxo := some V0.aTx }, p.outputs⟩ : Psbt V0.mL).sighashEcdsa 0 tx = .ok (m, ty) := by
  refine ⟨aV2 V0.aFake, [⟨5000, spkBare⟩], 100, aV2Tx (aV2 V0.aFake), aV2Msg (aV2 V0.aFake), ⟨0x01, by decide⟩, by decide +kernel,
    .cons (V0.aCreates rfl) .nil, by unfold Spec.Pays; decide +kernel, by unfold Spec.SameId; decide +kernel, by decide +kernel, by decide +kernel, by decide +kernel⟩

end V2
end Psbt
