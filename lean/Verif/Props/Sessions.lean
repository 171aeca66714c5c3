/- C121: signing and combining in every arrangement. -/
import Verif.Lemmas.Sessions
import Verif.Lemmas.V0Sessions
import Verif.Props.V0ScriptPath
namespace Psbt

variable {L : Lib} {S : SigLib L}

/-! ### PSBT v2 -/
namespace V2
open Psbt.Spec (Session afterSession HasSig)

/-- C121. However signing and combining are interleaved, with any number of copies made on the way, nothing fails; nothing
but partial signatures and modifiable flags differs from the original; and the signatures are exactly those of the original
and those in a copy of the original signed by one of the signers alone. -/
theorem C121_v2 (hd : Spec.Deterministic S) {p : Psbt L} {s : Session (Provider S)}
    (hk : ∀ k ∈ s.signers, ∃ b u, Signer.sign S p k = .ok (b, u) ∧ Spec.KeepsSignatures p b) :
    ∃ q, afterSession S p s = some q ∧ Spec.erase q = Spec.erase p ∧
      ∀ n pk g, HasSig q n pk g ↔
        HasSig p n pk g ∨ ∃ k ∈ s.signers, ∃ b u, Signer.sign S p k = .ok (b, u) ∧ HasSig b n pk g := by
  obtain ⟨q, h1, h2⟩ := afterSession_sigsOf hd hk
  exact ⟨q, h1, h2.rest, h2.sigs⟩

/-- C121. Two sessions with the same signers, whatever the order, the grouping and the repetitions, end with the same PSBT,
provided nothing signed is combined into something that nobody signed. -/
theorem C121_v2_same (hd : Spec.Deterministic S) {p : Psbt L} {s t : Session (Provider S)} (hs : s.Forward) (ht : t.Forward)
    (hm : ∀ k, k ∈ s.signers ↔ k ∈ t.signers)
    (hk : ∀ k ∈ s.signers, ∃ b u, Signer.sign S p k = .ok (b, u) ∧ Spec.KeepsSignatures p b) :
    ∃ q, afterSession S p s = some q ∧ afterSession S p t = some q := by
  obtain ⟨q, h1, h2⟩ := afterSession_signedBy hd hs hk
  obtain ⟨r, h3, h4⟩ := afterSession_signedBy hd ht fun k h => hk k ((hm k).mpr h)
  have := signedBy_same hm (fun k h => let ⟨b, u, h, _⟩ := hk k h; ⟨b, u, h⟩) h2 h4
  subst this
  exact ⟨q, h1, h3⟩

/-- C121. Without the proviso the two PSBTs differ at most in the modifiable flags. -/
theorem C121_v2_same_but_flags (hd : Spec.Deterministic S) {p : Psbt L} {s t : Session (Provider S)}
    (hm : ∀ k, k ∈ s.signers ↔ k ∈ t.signers)
    (hk : ∀ k ∈ s.signers, ∃ b u, Signer.sign S p k = .ok (b, u) ∧ Spec.KeepsSignatures p b) :
    ∃ q r, afterSession S p s = some q ∧ afterSession S p t = some r ∧
      q = { r with global := { r.global with txModifiableFlags := q.global.txModifiableFlags } } := by
  obtain ⟨q, h1, h2⟩ := afterSession_sigsOf hd hk
  obtain ⟨r, h3, h4⟩ := afterSession_sigsOf hd fun k h => hk k ((hm k).mpr h)
  refine ⟨q, r, h1, h3, has_ext (b := reflag r q.global.txModifiableFlags) (h2.rest.trans h4.rest.symm) rfl fun n pk g => ?_⟩
  rw [reflag_has, h2.sigs, h4.sigs]
  simp only [hm]

/-- A copy signed by both, combined with a copy signed by the second and then the first, signed again. -/
def seA : Session (Provider SS) := .sign (.combine (.sign (.sign .original sKeys) paKeys) (.sign (.sign .original paKeys) sKeys)) sKeys
/-- Two signed copies and the original combined. -/
def seB : Session (Provider SS) := .combine (.sign .original paKeys) (.combine (.sign .original sKeys) (.combine .original .original))

theorem se_keeps : ∀ k ∈ [sKeys, paKeys], ∃ b u, Signer.sign SS paP k = .ok (b, u) ∧ Spec.KeepsSignatures paP b := by
  have none : ∀ b : Psbt SL, Spec.KeepsSignatures paP b := by
    intro b n i j pk s hi _ hg
    have : ∀ i ∈ paP.inputs, i.partialSigs = .empty := by decide +kernel
    rw [this i (List.mem_of_getElem? hi)] at hg
    cases hg
  intro k hk
  simp only [List.mem_cons, List.not_mem_nil, or_false] at hk
  rcases hk with rfl | rfl
  · exact ⟨_, _, rfl, none _⟩
  · exact ⟨_, _, rfl, none _⟩

example : seA.Forward ∧ seB.Forward ∧ (∀ k, k ∈ seA.signers ↔ k ∈ seB.signers) ∧
    ∀ k ∈ seA.signers, ∃ b u, Signer.sign SS paP k = .ok (b, u) ∧ Spec.KeepsSignatures paP b := by
  refine ⟨by simp [seA, Session.Forward, Session.signers], by simp [seB, Session.Forward, Session.signers], ?_, ?_⟩
  · intro k; simp [seA, seB, Session.signers]; grind
  · intro k hk; exact se_keeps k (by simp [seA, Session.signers] at hk; simp; grind)
example : (afterSession SS paP seA).map (fun q => q.inputs.map fun i => i.partialSigs.l.length) = some [2, 1] ∧
    afterSession SS paP seA = afterSession SS paP seB := by decide +kernel

/-- C121 fails without the proviso: the original combined with a signed copy has the signatures of the copy, but still says
that inputs and outputs may be added. -/
theorem C121_v2_flags_counterexample : ∃ (p q r : Psbt SL) (k : Provider SS), Spec.Deterministic SS ∧
    (∃ b u, Signer.sign SS p k = .ok (b, u) ∧ Spec.KeepsSignatures p b) ∧
    afterSession SS p (.combine .original (.sign .original k)) = some q ∧
    afterSession SS p (.combine (.sign .original k) .original) = some r ∧
    q.inputs = r.inputs ∧ q.global.txModifiableFlags = 0x03 ∧ r.global.txModifiableFlags = 0x04 :=
  ⟨paP, paCombined paP (paSigned sKeys paP), paSigned sKeys paP, sKeys, demo_deterministic, se_keeps sKeys (by simp), by decide +kernel,
    by decide +kernel, by decide +kernel, by decide +kernel, by decide +kernel⟩

end V2

/-! ### PSBT v0 -/
namespace V0
open Psbt.Spec (Session)

/-- C121, v0. However signing and combining are interleaved, with any number of copies made on the way, nothing panics or
fails to combine, whatever the signers report; nothing but signatures differs from the original; and the signatures, ECDSA and
taproot, are exactly those of the original and those in a copy of the original signed by one of the signers alone. -/
theorem C121_v0 (hd : Spec.Deterministic S) {p : Psbt L} {s : Session (Provider S)}
    (hk : ∀ k ∈ s.signers, ∃ b r, p.sign S k = .ok (b, r) ∧ Spec.V0.KeepsSignatures p b)
    (ha : ∀ k ∈ s.signers, ∀ k' ∈ s.signers, Spec.V0.AgreeOnKeys S k k') :
    ∃ q, Spec.V0.afterSession S p s = some q ∧ Spec.V0.erase q = Spec.V0.erase p ∧
      ∀ n x g, Spec.V0.HasSig q n x g ↔
        Spec.V0.HasSig p n x g ∨ ∃ k ∈ s.signers, ∃ b r, p.sign S k = .ok (b, r) ∧ Spec.V0.HasSig b n x g := by
  obtain ⟨q, h1, h2⟩ := afterSession_signedBy hd ⟨hk, ha⟩
  exact ⟨q, h1, h2.rest, h2.sigs⟩

/-- C121, v0. Two sessions with the same signers, whatever the order, the grouping and the repetitions, end with the same
PSBT. -/
theorem C121_v0_same (hd : Spec.Deterministic S) {p : Psbt L} {s t : Session (Provider S)}
    (hm : ∀ k, k ∈ s.signers ↔ k ∈ t.signers)
    (hk : ∀ k ∈ s.signers, ∃ b r, p.sign S k = .ok (b, r) ∧ Spec.V0.KeepsSignatures p b)
    (ha : ∀ k ∈ s.signers, ∀ k' ∈ s.signers, Spec.V0.AgreeOnKeys S k k') :
    ∃ q, Spec.V0.afterSession S p s = some q ∧ Spec.V0.afterSession S p t = some q := by
  obtain ⟨q, h1, h2⟩ := afterSession_signedBy hd ⟨hk, ha⟩
  obtain ⟨r, h3, h4⟩ := afterSession_signedBy (s := t) hd (canSign_mono ⟨hk, ha⟩ fun k h => (hm k).mpr h)
  have := signedBy_same hm h2 h4
  subst this
  exact ⟨q, h1, h3⟩

theorem inTurn_session {p q : Psbt L} {ks : List (Provider S)} {s : Session (Provider S)} (hs : Spec.V0.afterSession S p s = some q)
    {r : Psbt L} (h : Spec.V0.signInTurn S q ks = .ok r) : Spec.V0.afterSession S p (ks.foldl .sign s) = some r := by
  induction ks generalizing q s with
  | nil => cases h; exact hs
  | cons k ks ih =>
    simp only [Spec.V0.signInTurn] at h
    cases e : q.sign S k with
    | error x => rw [e] at h; cases h
    | ok x =>
      rw [e] at h
      exact ih (s := .sign s k) (by simp only [Spec.V0.afterSession, hs, e]) h

theorem inTurn_signers (ks : List (Provider S)) (s : Session (Provider S)) : (ks.foldl Session.sign s).signers = s.signers ++ ks := by
  induction ks generalizing s with
  | nil => simp
  | cons k ks ih => simp [ih, Session.signers]

theorem inTurn_runs {p q r : Psbt L} {ks : List (Provider S)} (he : Spec.V0.erase q = Spec.V0.erase p)
    (h : Spec.V0.signInTurn S q ks = .ok r) : ∀ k ∈ ks, ∃ b u, p.sign S k = .ok (b, u) := by
  induction ks generalizing q with
  | nil => nofun
  | cons k ks ih =>
    simp only [Spec.V0.signInTurn] at h
    cases e : q.sign S k with
    | error x => rw [e] at h; cases h
    | ok x =>
      rw [e] at h
      intro k' hk'
      rcases List.mem_cons.mp hk' with rfl | hk'
      · exact sign_runs he.symm e
      · exact ih ((C50_frame e).trans he) h k' hk'

theorem session_inTurn (hd : Spec.Deterministic S) {p q : Psbt L} {s : Session (Provider S)} (hno : ∀ i ∈ p.inputs, i.partialSigs = .empty)
    (ha : ∀ k ∈ s.signers, ∀ k' ∈ s.signers, Spec.V0.AgreeOnKeys S k k') (h : Spec.V0.signInTurn S p s.signers = .ok q) :
    Spec.V0.afterSession S p s = some q := by
  have none : ∀ b : Psbt L, Spec.V0.KeepsSignatures p b := by
    intro b n i j pk s hi _ hg
    rw [hno i (List.mem_of_getElem? hi)] at hg
    cases hg
  have e := inTurn_signers s.signers .original
  simp only [Session.signers, List.nil_append] at e
  obtain ⟨r, h1, h2⟩ := C121_v0_same hd (s := s) (t := s.signers.foldl .sign .original) (by simp [e])
    (fun k hk => let ⟨b, u, h⟩ := inTurn_runs rfl h k hk; ⟨b, u, h, none b⟩) ha
  rw [inTurn_session rfl h] at h2
  cases h2; exact h1

/-- C121, v0. If the signers of a session together can spend each input, the session, however arranged, leads to a
transaction: the inputs of the PSBT at its end are finalized and a transaction can be extracted, which is the unsigned one
with a script sig and a witness in each input that the interpreter accepts. -/
theorem C121_v0_transaction {M : MsLib L} {out : S.Keypair → FixedBytes 32} {enough : MsCtx → Bytes → List L.pubkey.T → Prop}
    (hd : Spec.Deterministic S) (laws : Spec.KeyLaws S M out) (slaws : Spec.ScriptLaws S M enough) {s : Session (Provider S)} {p : Psbt L}
    (hp : Spec.V0.Sound p) (hun : ∀ t ∈ p.unsignedTx.input, t.scriptSig = [] ∧ t.witness = [])
    (hk : ∀ n < p.inputs.length, Spec.V0.CanSpend S enough out s.signers p n) (hno : ∀ i ∈ p.inputs, i.partialSigs = .empty)
    (ha : ∀ k ∈ s.signers, ∀ k' ∈ s.signers, Spec.V0.AgreeOnKeys S k k') (mall : Bool) :
    ∃ q r tx, Spec.V0.afterSession S p s = some q ∧ q.finalizeMut M mall = .ok (r, []) ∧ r.extract M = .ok tx ∧
      tx.version = p.unsignedTx.version ∧ tx.lockTime = p.unsignedTx.lockTime ∧ tx.output = p.unsignedTx.output ∧
      tx.input.length = p.unsignedTx.input.length ∧
      ∀ (n : Nat) t, p.unsignedTx.input[n]? = some t →
        ∃ g w, tx.input[n]? = some { t with scriptSig := g, witness := w } ∧ Spec.V0.Verdict M p n g w none := by
  obtain ⟨q, r, tx, h1, h2⟩ := C91_completed laws slaws hp hun hk mall
  exact ⟨q, r, tx, session_inTurn hd hno ha h1, h2⟩

/-- C121, v0. From descriptors to the transaction (C114), with the signers at work in any arrangement. -/
theorem C121_v0_from_descriptors {U : UpdLib L} {M : MsLib L} {out : S.Keypair → FixedBytes 32}
    {enough' : MsCtx → Bytes → List L.pubkey.T → Prop} {enough : Bytes → List L.xonly.T → Prop}
    (hd : Spec.Deterministic S) (laws : Spec.KeyLaws S M out) (slaws : Spec.ScriptLaws S M enough')
    (llaws : Spec.LeafLaws S M enough (Spec.V0.ProvesLeaf U))
    (tw : Spec.V0.TweakLaw U S out) (xl : Spec.V0.XonlyLaw S U) {s : Session (Provider S)} {tx : Tx} {p0 : Psbt L}
    (h0 : Psbt.fromUnsignedTx L tx = .ok p0) {cs : List (Spec.V0.Coin U)} (hn : cs.length = tx.input.length)
    (hc : ∀ (n : Nat) c, cs[n]? = some c → Spec.V0.SharedAny S enough U enough' s.signers tx n c)
    (ha : ∀ k ∈ s.signers, ∀ k' ∈ s.signers, Spec.V0.AgreeOnKeys S k k') (mall : Bool) :
    ∃ p q r tx', Spec.V0.UpdatesAll U (Spec.V0.fund p0 cs) 0 cs p ∧ Spec.V0.afterSession S p s = some q ∧
      q.finalizeMut M mall = .ok (r, []) ∧ r.extract M = .ok tx' ∧
      tx'.version = tx.version ∧ tx'.lockTime = tx.lockTime ∧ tx'.output = tx.output ∧ tx'.input.length = tx.input.length ∧
      ∀ (n : Nat) t, tx.input[n]? = some t →
        ∃ g w, tx'.input[n]? = some { t with scriptSig := g, witness := w } ∧ Spec.V0.Verdict M p n g w none := by
  obtain ⟨p, hup, hp2, hlen, hsound, hf, hun, hin⟩ := setup h0 hn fun n c h => by
    cases hc n c h with
    | known h => exact ⟨h.script, h.definite, h.utxo⟩
    | leaf h1 h2 h3 h4 h5 h6 => exact ⟨h4, h5, by rw [h1]; exact h6⟩
  have hcs : ∀ n, n < p.inputs.length → ∃ c, cs[n]? = some c := fun n h => ⟨_, List.getElem?_eq_getElem (by omega)⟩
  obtain ⟨q, r, tx', h1, h2, h3, h4⟩ := C114_completed laws slaws llaws (ks := s.signers) hsound (by rw [hp2]; exact hun) (fun n h => by
    obtain ⟨c, h⟩ := hcs n h
    obtain ⟨t, j, hj, hfu, hu⟩ := hin n c h
    cases hc n c h with
    | known h => exact .known (canSpend_of_coin tw (by rw [hp2]; exact h) hj rfl hfu hf hu)
    | leaf h1 h2 h3 h4 h5 h6 => exact .leaf (leafSpend_of_coin tw xl h1 h2 h3 h4 hj rfl hfu hf hu)) mall
  rw [hp2] at h4
  refine ⟨p, q, r, tx', hup, session_inTurn hd (fun i hi => ?_) ha h1, h2, h3, h4⟩
  obtain ⟨n, hi⟩ := List.getElem?_of_mem hi
  obtain ⟨c, h⟩ := hcs n (List.getElem?_eq_some_iff.mp hi).1
  obtain ⟨t, j, hj, hfu, hu⟩ := hin n c h
  cases hi.symm.trans hj.2
  exact congrArg Input.partialSigs hu.rest

/-- A copy signed by both, combined with a copy signed by the second and then the first, signed again. -/
def seA : Session (Provider gS) := .sign (.combine (.sign (.sign .original gKeys) pbKeys) (.sign (.sign .original pbKeys) gKeys)) gKeys
/-- The original combined with two signed copies. -/
def seB : Session (Provider gS) := .combine .original (.combine (.sign .original pbKeys) (.sign .original gKeys))

def seB' : Session (Provider gS) := .combine .original (.combine (.sign .original gKeys) (.sign .original pbKeys))

theorem se_keeps : ∀ k ∈ [gKeys, pbKeys], ∃ b r, pbP.sign gS k = .ok (b, r) ∧ Spec.V0.KeepsSignatures pbP b := by
  have none : ∀ b : Psbt gL, Spec.V0.KeepsSignatures pbP b := by
    intro b n i j pk s hi _ hg
    have : ∀ i ∈ pbP.inputs, i.partialSigs = .empty := by decide +kernel
    rw [this i (List.mem_of_getElem? hi)] at hg
    cases hg
  intro k hk
  simp only [List.mem_cons, List.not_mem_nil, or_false] at hk
  rcases hk with rfl | rfl
  · exact ⟨_, _, rfl, none _⟩
  · exact ⟨_, _, rfl, none _⟩

theorem agrees_self {S : SigLib L} (k : Provider S) : Spec.V0.AgreeOnKeys S k k := by
  intro ks sk sk' h h'
  rw [h] at h'; cases h'; rfl

theorem agrees_symm {S : SigLib L} {k k' : Provider S} (h : Spec.V0.AgreeOnKeys S k k') : Spec.V0.AgreeOnKeys S k' k :=
  fun ks sk sk' h1 h2 => (h ks sk' sk h2 h1).symm

example : (∀ k, k ∈ seA.signers ↔ k ∈ seB.signers) ∧
    (∀ k ∈ seA.signers, ∃ b r, pbP.sign gS k = .ok (b, r) ∧ Spec.V0.KeepsSignatures pbP b) ∧
    ∀ k ∈ seA.signers, ∀ k' ∈ seA.signers, Spec.V0.AgreeOnKeys gS k k' := by
  have two : ∀ k ∈ seA.signers, k = gKeys ∨ k = pbKeys := by
    intro k hk; simp [seA, Session.signers] at hk; grind
  refine ⟨?_, ?_, ?_⟩
  · intro k; simp [seA, seB, Session.signers]; grind
  · intro k hk; exact se_keeps k (by simpa using two k hk)
  · intro k hk k' hk'
    rcases two k hk with rfl | rfl <;> rcases two k' hk' with rfl | rfl
    · exact agrees_self _
    · exact pb_agree
    · exact agrees_symm pb_agree
    · exact agrees_self _
example : (Spec.V0.afterSession gS pbP seA).map (fun q => q.inputs.map fun i =>
      (i.partialSigs.l.length, i.tapKeySig.isSome, i.tapScriptSigs.l.length)) =
    some ((pbSigned pbKeys (pbSigned gKeys pbP)).inputs.map fun i => (i.partialSigs.l.length, i.tapKeySig.isSome, i.tapScriptSigs.l.length)) ∧
    Spec.V0.afterSession gS pbP seA = Spec.V0.afterSession gS pbP seB := by decide +kernel

-- Two signers on copies, each of them having one of the keys of the first three inputs.
example : ∃ q r tx, Spec.V0.afterSession gS mTwo seB' = some q ∧ q.finalizeMut mM false = .ok (r, []) ∧ r.extract mM = .ok tx ∧
    tx.input.length = 5 := by
  obtain ⟨q, r, tx, h1, h2, h3, -, -, -, h5, -⟩ := C121_v0_transaction (p := mTwo) (s := seB') pb_deterministic mM_laws mM_scripts
    (zSound _ (by decide)) (by decide) mTwo_inputs (by decide +kernel) (by
      intro a ha b hb
      simp only [seB', Session.signers, List.nil_append, List.cons_append, List.mem_cons, List.not_mem_nil, or_false] at ha hb
      rcases ha with rfl | rfl <;> rcases hb with rfl | rfl
      · exact agrees_self _
      · exact pb_agree
      · exact agrees_symm pb_agree
      · exact agrees_self _) false
  exact ⟨q, r, tx, h1, h2, h3, h5⟩
-- Two signers, a leaf script that needs both of them, one of them signing into the other's copy.
example : ∃ p0 p q r tx', Psbt.fromUnsignedTx Demo.mixLib lTx = .ok p0 ∧ Spec.V0.UpdatesAll sLib (Spec.V0.fund p0 lCoins) 0 lCoins p ∧
    Spec.V0.afterSession lS p (.combine .original (.sign (.combine (.sign .original (lKeys 5)) .original) (lKeys 6))) = some q ∧
    q.finalizeMut lM false = .ok (r, []) ∧ r.extract lM = .ok tx' ∧ tx'.input.length = 2 := by
  have det : Spec.Deterministic lS := by
    intro m sk sk' h
    cases (val_inj _ h : (sk : UInt8) = sk')
    rfl
  obtain ⟨p, q, r, tx', h1, h2, h3, h4, -, -, -, h5, -⟩ :=
    C121_v0_from_descriptors det lM_laws lM_scripts lM_leaves lTweak (fun _ => rfl) (tx := lTx) rfl (cs := lCoins) rfl
      (s := .combine .original (.sign (.combine (.sign .original (lKeys 5)) .original) (lKeys 6))) lCoins_shared (by
        intro a ha b hb
        simp only [Session.signers, List.nil_append, List.append_nil, List.cons_append, List.mem_cons, List.not_mem_nil, or_false] at ha hb
        rcases ha with rfl | rfl <;> rcases hb with rfl | rfl <;> exact lAgree _ _) false
  exact ⟨_, p, q, r, tx', rfl, h1, h2, h3, h4, h5⟩

end V0
end Psbt
