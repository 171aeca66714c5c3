/- C89: what is signed in a PSBT v0 is the transaction that is extracted. -/
import Verif.Spec.V0Messages
import Verif.Props.V0HandOver
import Verif.Props.V0Complete
namespace Psbt.V0
open Psbt Spec Spec.V0

variable {L : Lib} {M : MsLib L}

/-- The transaction without script sigs and witnesses. -/
def unscripted (t : Tx) : Tx := { t with input := t.input.map fun i => ⟨i.previousOutput, [], i.sequence, []⟩ }

theorem legacy_bare (t : Tx) (n : Nat) (code : Bytes) (ty : EcdsaTy) : legacySighash L (unscripted t) n code ty = legacySighash L t n code ty := by
  unfold legacySighash unscripted
  simp only [List.getElem?_map]
  cases t.input[n]? with
  | none => rfl
  | some inp =>
    simp only [Option.map_some]
    have : ∀ base acp, legacyInputs (t.input.map fun i => ⟨i.previousOutput, [], i.sequence, []⟩) n
        ⟨inp.previousOutput, [], inp.sequence, []⟩ code base acp = legacyInputs t.input n inp code base acp := by
      intro base acp
      unfold legacyInputs
      split
      · rfl
      · apply List.ext_getElem?
        intro k
        simp only [List.getElem?_mapIdx, List.getElem?_map]
        cases t.input[k]? <;> rfl
    simp only [this]

theorem segwit_bare (t : Tx) (n : Nat) (code : Bytes) (v : UInt64) (ty : EcdsaTy) :
    segwitSighash L (unscripted t) n code v ty = segwitSighash L t n code v ty := by
  unfold segwitSighash unscripted
  simp only [List.getElem?_map]
  cases t.input[n]? with
  | none => rfl
  | some inp =>
    simp only [Option.map_some]
    unfold segwitPreimage singleOutputHash
    simp only [List.flatMap_map]

theorem tap_bare (t : Tx) (n : Nat) (q : Prevouts) (leaf : Option Hash32) (ty : TapTy) :
    tapSighash L (unscripted t) n q leaf ty = tapSighash L t n q leaf ty := by
  have h1 : ∀ acp, tapInputsPart L (unscripted t) acp q = tapInputsPart L t acp q := by
    intro acp
    unfold tapInputsPart unscripted
    simp only [List.flatMap_map]
  have h2 : ∀ acp, tapInputPart (unscripted t) n acp q = tapInputPart t n acp q := by
    intro acp
    unfold tapInputPart unscripted
    simp only [List.getElem?_map]
    cases t.input[n]? <;> rfl
  have h3 : ∀ b, tapOutputPart L (unscripted t) n b = tapOutputPart L t n b := fun _ => rfl
  have h4 : (unscripted t).input.length = t.input.length := by simp [unscripted]
  unfold tapSighash tapPreimage
  simp only [h1, h2, h3, h4]
  rfl

theorem sameMessages_of {t t' : Tx} (h : unscripted t = unscripted t') : SameMessages L t t' := fun n =>
  ⟨fun code ty => by rw [← legacy_bare t, ← legacy_bare t', h], fun code v ty => by rw [← segwit_bare t, ← segwit_bare t', h],
    fun q leaf ty => by rw [← tap_bare t, ← tap_bare t', h]⟩

/-- C89. Transactions that differ only in script sigs and witnesses have the same messages to sign. -/
theorem C89_same_messages {t u : Tx} (h : SameSpend t u) : SameMessages L t u := by
  obtain ⟨h1, h2, h3, h4⟩ := h
  apply sameMessages_of
  have : ∀ l : List TxIn, (l.map fun i => (⟨i.previousOutput, [], i.sequence, []⟩ : TxIn)) =
      (l.map fun i => (i.previousOutput, i.sequence)).map fun x => (⟨x.1, [], x.2, []⟩ : TxIn) := by
    intro l; rw [List.map_map]; rfl
  unfold unscripted
  rw [this, this, h4, h1, h2, h3]

variable {S : SigLib L} {U : UpdLib L}

/-- C89, end to end. A PSBT is made from a transaction and goes through any calls, combining with anything: to `r`, and on to `q`.
Whatever transaction is extracted from `q` in the end, in whichever way, has the messages of the first transaction … -/
theorem C89_end_to_end {tx : Tx} {p q : Psbt L} (hc : Psbt.fromUnsignedTx L tx = .ok p) (h : History S M U p q) {t : Tx}
    (ht : q.extract M = .ok t ∨ q.extractUnchecked = t ∨ q.extractTx = .ok t ∨ ∃ max, q.extractWithLimit max = .ok t) :
    SameMessages L t tx := by
  obtain ⟨h1, h2, h3, h4⟩ := C82_end_to_end hc h
  rcases ht with ht | ht | ht | ⟨max, ht⟩
  · exact C89_same_messages (h1 _ ht)
  · rw [← ht]; exact C89_same_messages h2
  · exact C89_same_messages (h3 _ ht)
  · exact C89_same_messages (h4 _ _ ht)

theorem message_of_same {t t' : Tx} (h : SameMessages L t t') {n : Nat} {i : Input L} {u : TxOut} {ty : EcdsaTy} {m : Hash32}
    (hm : Message t n i u ty m) : Message t' n i u ty m := by
  obtain ⟨h1, h2, -⟩ := h n
  cases hm with
  | bare a b => exact .bare a (h1 .. ▸ b)
  | sh a b c => exact .sh a b (h1 .. ▸ c)
  | wpkh a b => exact .wpkh a (h2 .. ▸ b)
  | shWpkh a b c => exact .shWpkh a b (h2 .. ▸ c)
  | wsh a b c => exact .wsh a b (h2 .. ▸ c)
  | shWsh a b c d e => exact .shWsh a b c d (h2 .. ▸ e)

/-- C89. … so what anyone has signed on the way, with ECDSA or for taproot, is a message of the transaction extracted. -/
theorem C89_signed {tx : Tx} {p r q : Psbt L} (hc : Psbt.fromUnsignedTx L tx = .ok p) (hr : History S M U p r) (hq : History S M U p q) {t : Tx}
    (ht : q.extract M = .ok t ∨ q.extractUnchecked = t ∨ q.extractTx = .ok t ∨ ∃ max, q.extractWithLimit max = .ok t) {n : Nat} :
    (∀ m ty, Signs r n m ty → ∃ x i u, HasInput r n x i ∧ FundedBy x i u ∧ DeclaredType i ty ∧ Message t n i u ty m) ∧
    ∀ leaf m ty, TapSigns r n leaf m ty → ∃ x i u us, HasInput r n x i ∧ FundedBy x i u ∧ DeclaredTapType i ty ∧
      TapMessage L t n u us leaf ty m ∧ (tapCommitsInputs ty → Funding tx.input r.inputs us) := by
  have hm := C89_end_to_end hc hq ht
  have e : r.unsignedTx = tx := by
    rw [(C82_history hr).1]
    unfold Psbt.fromUnsignedTx at hc
    rw [bind_ok] at hc
    obtain ⟨u, -, hc⟩ := hc
    cases hc; rfl
  have hm' : SameMessages L tx t := fun n => ⟨fun c y => ((hm n).1 c y).symm, fun c v y => ((hm n).2.1 c v y).symm,
    fun a b c => ((hm n).2.2 a b c).symm⟩
  constructor
  · rintro m ty ⟨x, i, u, h1, h2, h3, h4⟩
    rw [e] at h4
    exact ⟨x, i, u, h1, h2, h3, message_of_same hm' h4⟩
  · rintro leaf m ty ⟨x, i, u, h1, h2, -, h4, h5⟩
    rw [e] at h5
    rcases h5 with ⟨a, b⟩ | ⟨a, us, c, b⟩
    · refine ⟨x, i, u, [], h1, h2, h4, .inl ⟨a, by rw [(hm n).2.2]; exact b⟩, fun hc => ?_⟩
      unfold tapCommitsInputs at hc
      rcases a with a | a | a <;> rw [a] at hc <;> exact absurd hc (by decide)
    · exact ⟨x, i, u, us, h1, h2, h4, .inr ⟨a, by rw [(hm n).2.2]; exact b⟩, fun _ => c⟩

theorem extract_sameSpend {q : Psbt L} {t : Tx} (ht : q.extract M = .ok t) : SameSpend t q.unsignedTx := by
  obtain ⟨hl, -, -, -, h1, h2, h3, h4, h5⟩ := extract_ok.mp ht
  refine ⟨h1, h2, h3, List.ext_getElem? fun n => ?_⟩
  rw [List.getElem?_map, List.getElem?_map]
  cases hs : t.input[n]? with
  | none => rw [List.getElem?_eq_none_iff.mpr (by rw [← h4]; exact List.getElem?_eq_none_iff.mp hs)]
  | some s =>
    have hn : n < q.unsignedTx.input.length := by rw [← h4]; exact (List.getElem?_eq_some_iff.mp hs).1
    obtain ⟨x, hx⟩ : ∃ x, q.unsignedTx.input[n]? = some x := ⟨_, List.getElem?_eq_getElem hn⟩
    obtain ⟨i, hi⟩ : ∃ i, q.inputs[n]? = some i := ⟨_, List.getElem?_eq_getElem (by rw [hl]; exact hn)⟩
    obtain ⟨f1, f2, -⟩ := h5 n x i s ⟨hx, hi⟩ hs
    rw [hx]
    simp only [Option.map_some, f1, f2]

/-- C89. If the interpreter looks at the transaction only to compute messages, then whatever `extract` gives, the interpreter
accepts: in the transaction extracted, with its own script sigs, witnesses, sequence numbers and lock time. -/
theorem C89_accepted (hM : ReadsMessages M) {q : Psbt L} {t : Tx} (hun : ∀ x ∈ q.unsignedTx.input, x.scriptSig = [] ∧ x.witness = [])
    (ht : q.extract M = .ok t) :
    ∃ us, Funding t.input q.inputs us ∧ us.length = t.input.length ∧ ∀ (n : Nat) x, t.input[n]? = some x → ∃ u, us[n]? = some u ∧
      M.interp ⟨u.scriptPubkey, x.scriptSig, x.witness, x.sequence, t.lockTime, t, n, us⟩ = none := by
  have hsp := extract_sameSpend ht
  have hm : SameMessages L t q.unsignedTx := C89_same_messages hsp
  obtain ⟨hl, -, -, hv, h1, h2, h3, h4, h5⟩ := extract_ok.mp ht
  have hfund : ∃ us, Funding q.unsignedTx.input q.inputs us := by
    cases hq : q.inputs with
    | nil =>
      rw [hq] at hl
      cases hx : q.unsignedTx.input with
      | nil => exact ⟨[], .nil⟩
      | cons a b => rw [hx] at hl; cases hl
    | cons i is =>
      obtain ⟨-, -, -, us, -, -, h, -⟩ := hv 0 i (by rw [hq]; rfl)
      rw [hq] at h
      exact ⟨us, h⟩
  obtain ⟨us, hus⟩ := hfund
  obtain ⟨l1, l2, g⟩ := funding_iff.mp hus
  have hpo : ∀ (n : Nat) x y, q.unsignedTx.input[n]? = some x → t.input[n]? = some y →
      y.previousOutput = x.previousOutput ∧ y.sequence = x.sequence := by
    intro n x y hx hy
    have := congrArg (·[n]?) hsp.2.2.2
    simp only [List.getElem?_map, hx, hy, Option.map_some, Option.some.injEq, Prod.mk.injEq] at this
    exact this
  refine ⟨us, funding_iff.mpr ⟨by rw [h4]; exact l1, l2, fun n u hu => ?_⟩, by rw [h4]; exact l1.symm, fun n x hx => ?_⟩
  · obtain ⟨x, i, hx, hi, hf⟩ := g n u hu
    obtain ⟨y, hy⟩ : ∃ y, t.input[n]? = some y :=
      ⟨_, List.getElem?_eq_getElem (by rw [h4]; exact (List.getElem?_eq_some_iff.mp hx).1)⟩
    refine ⟨y, i, hy, hi, ?_⟩
    cases hf with
    | witness a => exact .witness a
    | nonWitness a b c => exact .nonWitness a b (by rw [(hpo n x y hx hy).1]; exact c)
  · have hn : n < q.unsignedTx.input.length := by rw [← h4]; exact (List.getElem?_eq_some_iff.mp hx).1
    obtain ⟨u, hu⟩ : ∃ u, us[n]? = some u := ⟨_, List.getElem?_eq_getElem (by rw [← l1]; exact hn)⟩
    refine ⟨u, hu, ?_⟩
    obtain ⟨y, i, hy, hi, hf⟩ := g n u hu
    obtain ⟨y', i', u', us', ⟨a1, a2⟩, a3, a4, a5⟩ := hv n i hi
    rw [hy] at a1; rw [hi] at a2
    cases a1; cases a2
    cases funding_unique hus a4
    cases fundedBy_unique hf a3
    obtain ⟨b1, b2, b3, b4⟩ := h5 n y i x ⟨hy, hi⟩ hx
    obtain ⟨e1, e2⟩ := hun y (List.mem_of_getElem? hy)
    have c1 : i.finalScriptSig.getD [] = x.scriptSig := by
      rcases b3 with b | ⟨b, b'⟩
      · rw [b]; rfl
      · rw [b, b', e1]; rfl
    have c2 : i.finalScriptWitness.getD [] = x.witness := by
      rcases b4 with b | ⟨b, b'⟩
      · rw [b]; rfl
      · rw [b, b', e2]; rfl
    rw [hM _ _ _ _ _ _ _ _ _ hm h4, ← c1, ← c2, b2, h2]
    exact a5

section Examples
theorem accepted_same {t t' : Tx} (h : SameMessages L t t') (hl : t.input.length = t'.input.length) {S : SigLib L}
    {out : S.Keypair → FixedBytes 32} {spk s : Bytes} {w : List Bytes} {seq lt : UInt32} {n : Nat} {us : List TxOut}
    (ha : Accepted S out ⟨spk, s, w, seq, lt, t, n, us⟩) : Accepted S out ⟨spk, s, w, seq, lt, t', n, us⟩ := by
  obtain ⟨h1, h2, h3⟩ := h n
  generalize e : (⟨spk, s, w, seq, lt, t, n, us⟩ : InterpArgs) = a at ha
  cases ha with
  | pkh sk m ty spk csv cltv tx n us a b c d => cases e; exact .pkh _ _ _ _ _ _ _ _ _ a (b.trans hl) c (h1 .. ▸ d)
  | wpkh sk m ty u csv cltv tx n us a b c d => cases e; exact .wpkh _ _ _ _ _ _ _ _ _ a (b.trans hl) c (h2 .. ▸ d)
  | shWpkh sk m ty u r csv cltv tx n us a b c d f => cases e; exact .shWpkh _ _ _ _ _ _ _ _ _ _ a b (c.trans hl) d (h2 .. ▸ f)
  | tr kp m ty u csv cltv tx n us q a b c d f => cases e; exact .tr _ _ _ _ _ _ _ _ _ _ a (b.trans hl) c d (h3 .. ▸ f)

/-- The strict interpreter reads only messages; so the transaction completed in the example of C88 is accepted by it. -/
theorem yM_reads : ReadsMessages yM := by
  intro spk s w seq lt t t' n us h hl
  have h' : SameMessages gL t' t := fun n => ⟨fun c y => ((h n).1 c y).symm, fun c v y => ((h n).2.1 c v y).symm,
    fun a b c => ((h n).2.2 a b c).symm⟩
  have : Accepted gS (fun kp => Demo.rep 32 kp.2) ⟨spk, s, w, seq, lt, t, n, us⟩ ↔
      Accepted gS (fun kp => Demo.rep 32 kp.2) ⟨spk, s, w, seq, lt, t', n, us⟩ :=
    ⟨accepted_same h hl, accepted_same h' hl.symm⟩
  by_cases ha : Accepted gS (fun kp => Demo.rep 32 kp.2) ⟨spk, s, w, seq, lt, t, n, us⟩
  · exact (if_pos ha).trans (if_pos (this.mp ha)).symm
  · exact (if_neg ha).trans (if_neg fun h => ha (this.mpr h)).symm

example : ∃ (q : Psbt gL) (tx : Tx), q.extract yM = .ok tx ∧ tx.input.length = 4 ∧ ∀ x ∈ q.unsignedTx.input, x.scriptSig = [] ∧ x.witness = [] := by
  obtain ⟨q, used, r, tx, h1, h2, h3, -, -, -, h4, -⟩ := C88_completed yM_laws (p := yP) (zSound _ (by decide)) (by decide)
    yP_inputs false
  refine ⟨r, tx, h3, h4, ?_⟩
  have h5 : r.unsignedTx = yP.unsignedTx := (C82_transaction_kept (S := gS) (M := yM) (U := uLib) (o := q) (.finalizeMut h2)).1.trans
    (C82_transaction_kept (S := gS) (M := yM) (U := uLib) (o := yP) (.sign h1)).1
  rw [h5]
  decide

/-- Something is signed on the way, in `ho1`; the transaction extracted in the end has a witness the first one has not. -/
example : ∃ q t, Psbt.fromUnsignedTx gL (gP [zKeyed]).unsignedTx = .ok ho0 ∧ History gS V2.FM uLib ho0 ho1 ∧ (∃ m, Signs ho1 0 m ⟨1, by decide⟩) ∧
    History gS V2.FM uLib ho0 q ∧ q.extractTx = .ok t ∧ t ≠ (gP [zKeyed]).unsignedTx := by
  have h0 : History gS V2.FM uLib ho0 ho1 := .step (o := ho0) .refl (.setInput 0 hoFilled)
  have h : History gS V2.FM uLib ho0 (zOne (ho1.combine (gQ ho1)).1 0) :=
    .step (o := ho1) (.step (o := gQ ho1) h0 (.combine rfl))
      (.finalizeInp (n := 0) (V2.ok!_eq (d := ho1) (by decide +kernel)))
  have hs : ∃ x : Hash32 × EcdsaTy, ho1.sighashEcdsa 0 ho1.unsignedTx = .ok x ∧ x.2 = ⟨1, by decide⟩ := ⟨_, rfl, by decide +kernel⟩
  obtain ⟨⟨m, ty⟩, hs, rfl⟩ := hs
  exact ⟨_, (zOne (ho1.combine (gQ ho1)).1 0).extractUnchecked, rfl, h0, ⟨m, (sighashEcdsa_iff ..).mp hs⟩, h, by decide +kernel, by decide +kernel⟩
end Examples

end Psbt.V0
