/- C126: scripts with hashes and timelocks, PSBT v2. -/
import Verif.Spec.V2Locked
import Verif.Props.V2Sessions
import Verif.Props.V0Locked
namespace Psbt.V2
open Psbt Psbt.Spec

variable {L : Lib} {S : SigLib L} {M : MsLib L} {out : S.Keypair → FixedBytes 32} {enough : MsCtx → Bytes → Demands L.pubkey.T → Prop}
  {enough₂ : MsCtx → Bytes → List L.pubkey.T → Prop}

theorem held_answer {α : Type} {m : α → Option Bytes} {s : α → Option (FixedBytes 32)} (hs : ∀ x pre, s x = some pre ↔ m x = some pre.1) {x : α}
    (h : ∃ b, m x = some b ∧ b.length = 32) : s x ≠ none := by
  obtain ⟨b, h1, h2⟩ := h
  rw [(hs x ⟨b, h2⟩).mpr h1]; simp

/-- What the satisfier answers once the signers have signed. -/
theorem hash_answers {ks : List (Provider S)} {i j : Input L} {x : Demands L.pubkey.T}
    (hm : HashesMet S ks i x) (hr : HashesRight i) (hl : NoLocks i)
    (ej : { j with partialSigs := BMap.empty } = { i with partialSigs := BMap.empty })
    (hin : ∀ pk, SomeSigner S ks i pk → j.partialSigs.get pk ≠ none) (version csv cltv : UInt32) :
    Sufficient (j.satisfier M) (fun pk => (j.satisfier M).ecdsaSig pk ≠ none) x ∧ Truthful (j.satisfier M) version csv cltv := by
  have h := Input.mk.inj ej
  have e1 : j.sha256Preimages = i.sha256Preimages := by simp_all
  have e2 : j.hash256Preimages = i.hash256Preimages := by simp_all
  have e3 : j.hash160Preimages = i.hash160Preimages := by simp_all
  have e4 : j.ripemd160Preimages = i.ripemd160Preimages := by simp_all
  have f1 : j.sequence = none := by have := hl.1; simp_all
  have f2 : j.minTime = none := by have := hl.2.1; simp_all
  have f3 : j.minHeight = none := by have := hl.2.2; simp_all
  have ans := C64_answers (M := M) j
  have s1 : ∀ x pre, (j.satisfier M).sha256 x = some pre ↔ i.sha256Preimages.get x = some pre.1 := e1 ▸ ans.sha256
  have s2 : ∀ x pre, (j.satisfier M).hash256 x = some pre ↔ i.hash256Preimages.get x = some pre.1 := e2 ▸ ans.hash256
  have s3 : ∀ x pre, (j.satisfier M).hash160 x = some pre ↔ i.hash160Preimages.get x = some pre.1 := e3 ▸ ans.hash160
  have s4 : ∀ x pre, (j.satisfier M).ripemd160 x = some pre ↔ i.ripemd160Preimages.get x = some pre.1 := e4 ▸ ans.ripemd160
  constructor
  · refine ⟨fun pk h => hin pk (hm.keys pk h), fun y hy => held_answer s1 (hm.sha256 y hy), fun y hy => held_answer s2 (hm.hash256 y hy),
      fun y hy => held_answer s3 (hm.hash160 y hy), fun y hy => held_answer s4 (hm.ripemd160 y hy), fun l h => ?_, fun l h => ?_⟩
    · rw [hm.after] at h; cases h
    · rw [hm.older] at h; cases h
  · refine ⟨fun y b hb => hr.sha256 _ _ ((s1 _ _).mp hb), fun y b hb => hr.hash256 _ _ ((s2 _ _).mp hb),
      fun y b hb => hr.hash160 _ _ ((s3 _ _).mp hb), fun y b hb => hr.ripemd160 _ _ ((s4 _ _).mp hb), fun l h => ?_, fun l h => ?_⟩
    · have := (C44_after_iff j l).mp h
      rw [f2, f3] at this
      cases l <;> simp at this
    · have := (C44_older_iff j l).mp h
      rw [f1] at this
      simp at this

theorem hashSpend_ready (laws : KeyLaws S M out) (slaws : ScriptLaws S M enough₂) (llaws : LockLaws S M enough) {ks : List (Provider S)}
    {p : Psbt L} {tx : Tx} (htx : p.unsignedTx = .ok tx) {n : Nat} (hk : CanSpendHashes S enough enough₂ ks p n) : Ready S M ks p tx n := by
  have hl := signer_unsignedTx_len htx
  cases hk with
  | known h => exact canSpend_ready laws slaws htx h
  | @hashes i u ty g1 g2 g3 g4 g5 g6 g7 =>
    have hn := (List.getElem?_eq_some_iff.mp g1.1).1
    have fields : ∀ {j : Input L}, { j with partialSigs := BMap.empty } = { i with partialSigs := BMap.empty } →
        FundedBy j u ∧ j.redeemScript = i.redeemScript ∧ j.witnessScript = i.witnessScript := by
      intro j hj
      have h := Input.mk.inj hj
      exact ⟨.witness (by rw [← g2]; simp_all), by simp_all, by simp_all⟩
    cases g7 with
    | @wsh w x hc hr hw hen hmet =>
      obtain ⟨m, hm⟩ := V0.message_any_segwit (L := L) (tx := tx) (n := n) (by omega) w u.value ty
      refine ⟨i, u, ty, m, g1, g2, g3, g4, .wsh ⟨_, hc⟩ hw hm, fun j ej hv hin q us hul hus => ?_⟩
      obtain ⟨hu', e3, e4⟩ := fields ej
      obtain ⟨ms, h1, h2⟩ := llaws.segwit w x hen
      have hnt : ¬ P2tr u.scriptPubkey := by
        rw [hc]; rintro ⟨x, hx⟩; simp at hx
      obtain ⟨a1, a2⟩ := hash_answers (M := M) hmet g6 g5 ej hin tx.version 0xFFFFFFFF 0
      obtain ⟨wit, k1, k2, k3⟩ := llaws.wsh true w x ms (hashMap M (derivationKeys q)) (j.satisfier M) u m ty 0xFFFFFFFF
        0 tx n us hen h1 hc hul hus hm a1 hv a2
      exact ⟨_, _, .other hu' hnt (.wsh (e3.trans hr) (e4.trans hw) hc (.ok h1 (.ok (h2 _).1))) k1, k2, k3⟩
    | @shWsh r w x hc hr hcw hw hen hmet =>
      obtain ⟨m, hm⟩ := V0.message_any_segwit (L := L) (tx := tx) (n := n) (by omega) w u.value ty
      refine ⟨i, u, ty, m, g1, g2, g3, g4, .shWsh ⟨_, hc⟩ hr ⟨_, hcw⟩ hw hm, fun j ej hv hin q us hul hus => ?_⟩
      obtain ⟨hu', e3, e4⟩ := fields ej
      obtain ⟨ms, h1, h2⟩ := llaws.segwit w x hen
      obtain ⟨a1, a2⟩ := hash_answers (M := M) hmet g6 g5 ej hin tx.version 0xFFFFFFFF 0
      obtain ⟨wit, k1, k2, k3⟩ := llaws.shWsh true w x ms (hashMap M (derivationKeys q)) (j.satisfier M) u r m ty 0xFFFFFFFF
        0 tx n us hen h1 hc hcw hul hus hm a1 hv a2
      exact ⟨_, _, .other hu' (V0.notTr_sh hc) (.shWsh (e3.trans hr) hc (e4.trans hw) hcw (.ok h1 (.ok (h2 _).2))) k1, k2, k3⟩

/-- C126. What holds: scripts that take preimages besides signatures are completed by any signing session, provided the preimages
are in the inputs, under the conditions of `C124_steps_partial`. -/
theorem C126_hashes_partial (hd : Spec.Deterministic S) (laws : KeyLaws S M out) (slaws : ScriptLaws S M enough₂) (llaws : LockLaws S M enough)
    (debug : Bool) {s : Session (Provider S)} {p : Psbt L} {tx : Tx} (htx : p.unsignedTx = .ok tx) (hp : Plain p)
    (hk : ∀ n < p.inputs.length, CanSpendHashes S enough enough₂ s.signers p n) :
    ∃ q r t us, afterSession S p s = some q ∧ Finalizer.new q = .ok q ∧ Finalizer.finalize M debug q = .ok r ∧ Extractor.new r = .ok r ∧
      Extractor.extractUnchecked r = .ok t ∧
      Spec.stripped t = { tx with input := tx.input.map fun x => { x with sequence := 0xFFFFFFFF } } ∧
      Psbt.Spec.Funding p.inputs us ∧
      ∀ n u, us[n]? = some u → ∃ x, t.input[n]? = some x ∧
        M.interp ⟨u.scriptPubkey, x.scriptSig, x.witness, 0xFFFFFFFF, 0, tx, n, us⟩ = none :=
  ready_steps hd debug htx hp fun n hn => hashSpend_ready laws slaws llaws htx (hk n hn)

/-- C126 fails for timelocks, whatever the PSBT states: if every way to spend the output of some input takes a timelock, the PSBT
cannot be finalized, even if the lock time and the sequence number it asks for meet the lock. -/
theorem C126_timelock_counterexample {p : Psbt L} (hn : Finalizer.new p = .ok p) {i : Input L} (hi : i ∈ p.inputs) {u : TxOut}
    (hu : Psbt.Spec.FundedBy i u) (hl : Timelocked M u.scriptPubkey) (debug : Bool) (q : Psbt L) :
    Finalizer.finalize M debug p ≠ .ok q := by
  intro h
  have hf := ((C41_new_iff p p).mp hn).2.1
  obtain ⟨-, -, h1, h2, -, us, h3, h4⟩ := (C41_finalize_iff hf debug q).mp h
  obtain ⟨n, hn⟩ := List.getElem?_of_mem hi
  have hlt := (List.getElem?_eq_some_iff.mp hn).1
  obtain ⟨j, hj⟩ : ∃ j, q.inputs[n]? = some j := ⟨_, List.getElem?_eq_getElem (by omega)⟩
  have h2 := h2 n i j hn hj
  obtain ⟨u', s, w, k1, k2, k3, k4⟩ := h4 n j hj
  generalize hr : (Except.ok j : Except (FinalizeInputErr L) (Input L)) = r at h2
  cases h2 with
  | segwit g1 g2 g3 =>
    cases hr
    obtain ⟨v, hv⟩ := Option.ne_none_iff_exists'.mp g2
    cases fundedBy_unique (.witness hv) hu
    have k1 : FundedBy (onlyFinal i _ _) u' := k1
    cases fundedBy_unique (.witness (i := onlyFinal i _ _) hv) k1
    have := hl _ rfl k4
    simp at this
  | legacy g1 g2 => cases hr; cases k3
  | noWitness g1 g2 => cases hr
  | fails g1 => cases hr

/-! ### The hypotheses can be met -/

section Examples
open V0 (gL gS mPub lkM lkScript lkDemands lkEnough lkHash lkPre lkLock)

/-- A script that takes the second signer's signature and a preimage. -/
def vkBoth : Bytes := lkScript (mPub 4) lkHash [] []
def vkWsh : Bytes := [0x00, 0x20] ++ (gL.sha256 vkBoth).1
def vkIn (spk : Bytes) : Input gL := { vIn spk with sha256Preimages := BMap.empty.insert lkHash lkPre }
def vkP : Psbt gL :=
  ⟨{ Global.new gL with inputCount := 3, outputCount := 1, fallbackLockTime := some 9 },
    [{ vkIn vkWsh with witnessScript := some vkBoth },
     { vkIn ([0xa9, 0x14] ++ (gL.hash160 vkWsh).1 ++ [0x87]) with redeemScript := some vkWsh, witnessScript := some vkBoth },
     vIn ([0x00, 0x14] ++ (gL.hash160 (mPub 4).bytes).1)],
    [Output.new gL ⟨500, [0x51]⟩]⟩
def vkTx : Tx := match vkP.unsignedTx with | .ok t => t | .error _ => ⟨0, 0, [], []⟩

theorem vkMet {i : Input gL} (h : i.bip32Derivations = (vIn []).bip32Derivations) (hs : i.sha256Preimages = (vkIn []).sha256Preimages) :
    HashesMet gS vS.signers i (lkDemands (mPub 4) lkHash [] []) where
  keys pk hpk := vSomeone h pk (by simp_all [lkDemands])
  sha256 y hy := by
    simp only [lkDemands, List.mem_cons, List.not_mem_nil, or_false] at hy
    subst hy
    exact ⟨lkPre, by rw [hs]; exact BMap.get_insert_self .., by decide⟩
  hash256 y hy := by cases hy
  hash160 y hy := by cases hy
  ripemd160 y hy := by cases hy
  after := rfl
  older := rfl

theorem vkRight {i : Input gL} (h1 : i.sha256Preimages = (vkIn []).sha256Preimages) (h2 : i.hash256Preimages = .empty) (h3 : i.hash160Preimages = .empty)
    (h4 : i.ripemd160Preimages = .empty) : HashesRight i where
  sha256 y b h := by
    rw [h1] at h
    simp only [vkIn, BMap.get_insert, BMap.get_empty] at h
    split at h
    · rename_i e; cases h; exact e.symm
    · cases h
  hash256 y b h := by rw [h2, BMap.get_empty] at h; cases h
  hash160 y b h := by rw [h3, BMap.get_empty] at h; cases h
  ripemd160 y b h := by rw [h4, BMap.get_empty] at h; cases h

theorem vkP_inputs : ∀ n < vkP.inputs.length, CanSpendHashes gS lkEnough (fun _ _ _ => False) vS.signers vkP n := by
  intro n hn
  have hn : n < 3 := hn
  have hc : vkP.global.inputCount.toNat = 3 := by decide +kernel
  have hall : ∀ {i : Input gL}, i.sighashType = none → Psbt.Spec.DeclaredType i ⟨1, by decide⟩ := fun h => .inl ⟨h, rfl⟩
  have hen : lkEnough .segwitv0 vkBoth (lkDemands (mPub 4) lkHash [] []) := ⟨by decide, _, _, _, _, rfl, rfl⟩
  match n, hn with
  | 0, _ =>
    exact .hashes ⟨rfl, by rw [hc]; decide⟩ rfl rfl (hall rfl) ⟨rfl, rfl, rfl⟩ (vkRight rfl rfl rfl rfl)
      (.wsh (w := vkBoth) rfl rfl rfl hen (by apply vkMet <;> rfl))
  | 1, _ =>
    exact .hashes ⟨rfl, by rw [hc]; decide⟩ rfl rfl (hall rfl) ⟨rfl, rfl, rfl⟩ (vkRight rfl rfl rfl rfl)
      (.shWsh (r := vkWsh) (w := vkBoth) rfl rfl rfl rfl hen (by apply vkMet <;> rfl))
  | 2, _ =>
    exact .known ⟨_, _, ⟨1, by decide⟩, ⟨rfl, by rw [hc]; decide⟩, rfl, rfl, hall rfl,
      .wpkh (pk := mPub 4) ⟨rfl, rfl⟩ (vSomeone rfl _ (by simp))⟩

theorem vkP_plain : Plain vkP :=
  ⟨by intro i hi; simp [vkP] at hi; rcases hi with rfl | rfl | rfl <;> first | exact .inl rfl | exact .inr rfl,
   .fallback (by intro i hi; simp [vkP] at hi; rcases hi with rfl | rfl | rfl <;> rintro (h | h) <;> exact h rfl)⟩

example : ∃ q r t, afterSession gS vkP vS = some q ∧ Finalizer.finalize lkM true q = .ok r ∧ Extractor.extractUnchecked r = .ok t ∧
    t.input.length = 3 := by
  obtain ⟨q, r, t, us, h1, -, h2, -, h3, h4, -⟩ := C126_hashes_partial V0.pb_deterministic V0.lkM_laws V0.lkM_scripts V0.lkM_locks true (s := vS)
    (p := vkP) (tx := vkTx) (by decide +kernel) vkP_plain vkP_inputs
  refine ⟨q, r, t, h1, h2, h3, ?_⟩
  have := congrArg (fun t => t.input.length) h4
  simp only [Spec.stripped, List.length_map] at this
  exact this

/-- The library, for outputs that all take a timelock. -/
noncomputable def vkM : MsLib gL := { lkM with
  interp := fun a => if 0 < a.cltv.toNat ∨ a.csv.toNat < 2 ^ 31 then lkM.interp a else some .satisfaction }
/-- A PSBT that states what its timelocks demand: an age of 5 blocks and height 100. -/
def vkOld : Psbt gL :=
  ⟨{ Global.new gL with inputCount := 1, outputCount := 1 },
    [{ vkIn (([0x00, 0x20] : Bytes) ++ (gL.sha256 (lkScript (mPub 4) lkHash [lkLock] [.blocks 3])).1) with
       witnessScript := some (lkScript (mPub 4) lkHash [lkLock] [.blocks 3])
       sequence := some 5, minHeight := some ⟨100, by decide⟩ }],
    [Output.new gL ⟨500, [0x51]⟩]⟩
-- `C126_timelock_counterexample` applies to it: the lock time and the age suffice, and the finalizer takes it on.
example : Timelocked vkM (([0x00, 0x20] : Bytes) ++ (gL.sha256 (lkScript (mPub 4) lkHash [lkLock] [.blocks 3])).1) ∧
    Finalizer.new vkOld = .ok vkOld ∧ vkOld.determineLockTime = .ok 100 ∧ CltvPasses (absOperand lkLock) 100 5 ∧
    CsvPasses (relOperand (.blocks 3)) 2 5 := by
  refine ⟨fun a _ h => ?_, by decide +kernel, by decide +kernel, ⟨by decide, by decide, by decide⟩, ⟨by decide, by decide, by decide, by decide⟩⟩
  by_cases hc : 0 < a.cltv.toNat ∨ a.csv.toNat < 2 ^ 31
  · exact hc
  · have : vkM.interp a = some .satisfaction := if_neg hc
    rw [this] at h; cases h
end Examples

end Psbt.V2
