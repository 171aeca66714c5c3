/- C106: changing sequence numbers of a PSBT v2 that has signatures. -/
import Verif.Spec.Resequence
import Verif.Props.V2Extend
namespace Psbt.V2
open Psbt

variable {L : Lib} {S : SigLib L}

/-- What any number of sequence changes leaves of a PSBT. -/
structure Resequenced (p q : Psbt L) : Prop where
  global : q.global = p.global
  outputs : q.outputs = p.outputs
  inputs : ∀ k : Nat, ∃ s : Option UInt32 → Option UInt32, q.inputs[k]? = p.inputs[k]?.map fun i => { i with sequence := s i.sequence }

theorem resequenced {p q : Psbt L} (h : Spec.SetSequences p q) : Resequenced p q := by
  induction h with
  | nil => exact ⟨rfl, rfl, fun k => ⟨fun s => s, by simp⟩⟩
  | @cons p q r n k e _ ih =>
    obtain ⟨-, -, h3, h4, h5⟩ := (C21_set_sequence_iff _ _ _ _).mp e
    refine ⟨ih.global.trans h3, ih.outputs.trans h4, fun j => ?_⟩
    obtain ⟨s, hs⟩ := ih.inputs j
    rw [hs, h5 j, Option.map_map]
    refine ⟨fun x => if j = k then s (some n) else s x, ?_⟩
    congr 1
    funext i
    by_cases hj : j = k <;> simp [hj]

theorem Resequenced.map {p q : Psbt L} (h : Resequenced p q) {β : Type} (f : Input L → β) (hf : ∀ i s, f { i with sequence := s } = f i) :
    q.inputs.map f = p.inputs.map f := by
  apply List.ext_getElem?
  intro j
  obtain ⟨s, hs⟩ := h.inputs j
  rw [List.getElem?_map, List.getElem?_map, hs, Option.map_map]
  congr 1
  funext i
  exact hf i _

theorem sequences_eq {p : Psbt L} (k : Nat) : ((p.inputs.map Input.unsignedTxIn).map TxIn.sequence)[k]? = Spec.sequenceAt p k := by
  unfold Spec.sequenceAt
  rw [List.getElem?_map, List.getElem?_map, Option.map_map]
  rfl

theorem fundedBy_seq {i : Input L} {u : TxOut} {s : Option UInt32} (h : Spec.FundedBy i u) : Spec.FundedBy { i with sequence := s } u := by
  cases h with
  | witness h => exact .witness h
  | nonWitness h1 h2 h3 => exact .nonWitness h1 h2 h3

theorem message_seq {tx : Tx} {n : Nat} {i : Input L} {u : TxOut} {ty : EcdsaTy} {m : Hash32} {s : Option UInt32}
    (h : Spec.Message tx n i u ty m) : Spec.Message tx n { i with sequence := s } u ty m := by
  cases h with
  | bare h1 h2 => exact .bare h1 h2
  | sh h1 h2 h3 => exact .sh h1 h2 h3
  | wpkh h1 h2 => exact .wpkh h1 h2
  | shWpkh h1 h2 h3 => exact .shWpkh h1 h2 h3
  | wsh h1 h2 h3 => exact .wsh h1 h2 h3
  | shWsh h1 h2 h3 h4 h5 => exact .shWsh h1 h2 h3 h4 h5

/-- C106. After any changes of sequence numbers, an input whose covered sequence numbers are what they were has the same message to sign, so
its signatures stay good. -/
theorem C106_kept {p q : Psbt L} {tx : Tx} {n : Nat} {i : Input L} {m : Hash32} {ty : EcdsaTy} (h : Spec.SetSequences p q)
    (hp : p.unsignedTx = .ok tx) (hs : Spec.SameCovered p q ty n) (hm : Spec.Signs tx p n i m ty) :
    ∃ tx' j, q.unsignedTx = .ok tx' ∧ Spec.Signs tx' q n j m ty ∧ j.partialSigs = i.partialSigs := by
  have g := resequenced h
  obtain ⟨hi, u, hu, hd, hm⟩ := hm
  obtain ⟨l, hl, rfl⟩ := unsignedTx_ok.mp hp
  obtain ⟨s, hj⟩ := g.inputs n
  rw [hi.1, Option.map_some] at hj
  refine ⟨_, _, unsignedTx_ok.mpr ⟨l, by rw [setSequence_keeps_lockTime h]; exact hl, rfl⟩,
    ⟨⟨hj, by rw [g.global]; exact hi.2⟩, u, fundedBy_seq hu, hd, message_seq (message_congr ?_ ?_ hm)⟩, rfl⟩
  all_goals
    have a1 : (p.inputs.map Input.unsignedTxIn)[n]? = some i.unsignedTxIn := by rw [List.getElem?_map, hi.1]; rfl
    have a2 : (q.inputs.map Input.unsignedTxIn)[n]? = some (Input.unsignedTxIn { i with sequence := s i.sequence }) := by
      rw [List.getElem?_map, hj]; rfl
    have a3 : (s i.sequence).getD 0 = i.sequence.getD 0 := by
      have := hs n (.inl rfl)
      unfold Spec.sequenceAt at this
      rw [hi.1, hj] at this
      simpa using this.symm
    have a4 : (q.inputs.map Input.unsignedTxIn).map TxIn.previousOutput = (p.inputs.map Input.unsignedTxIn).map TxIn.previousOutput := by
      rw [List.map_map, List.map_map]
      exact g.map _ fun _ _ => rfl
    have a5 : Spec.commitsSequences ty →
        (q.inputs.map Input.unsignedTxIn).map TxIn.sequence = (p.inputs.map Input.unsignedTxIn).map TxIn.sequence := by
      intro hc
      apply List.ext_getElem?
      intro k
      rw [sequences_eq, sequences_eq]
      exact (hs k (.inr hc)).symm
  · intro code
    exact C37_legacy_covers_only code (by rw [g.global]) rfl a2 a1 rfl a3 (fun _ => a4) a5 (fun _ => by simp only [g.outputs])
      (fun _ => by simp only [g.outputs])
  · intro code v
    exact C37_segwit_covers_only code v (by rw [g.global]) rfl a2 a1 rfl a3 (fun _ => a4) a5 (fun _ => by simp only [g.outputs])
      (fun _ => by simp only [g.outputs])

/-- One message for each type of spend. -/
theorem message_split {tx : Tx} {n : Nat} {i : Input L} {u : TxOut} {ty : EcdsaTy} {m : Hash32} (h : Spec.Message tx n i u ty m) :
    ∃ t, Spec.SpendType u.scriptPubkey i.redeemScript t ∧
      match t with
      | .bare => legacySighash L tx n u.scriptPubkey ty = some m
      | .sh => ∃ r, i.redeemScript = some r ∧ legacySighash L tx n r ty = some m
      | .wpkh => ∃ h : FixedBytes 20, u.scriptPubkey = [0x00, 0x14] ++ h.1 ∧
          segwitSighash L tx n ([0x76, 0xa9, 0x14] ++ h.1 ++ [0x88, 0xac]) u.value ty = some m
      | .shWpkh => ∃ h : FixedBytes 20, Spec.P2sh u.scriptPubkey ∧ i.redeemScript = some ([0x00, 0x14] ++ h.1) ∧
          segwitSighash L tx n ([0x76, 0xa9, 0x14] ++ h.1 ++ [0x88, 0xac]) u.value ty = some m
      | .wsh => ∃ w, Spec.P2wsh u.scriptPubkey ∧ i.witnessScript = some w ∧ segwitSighash L tx n w u.value ty = some m
      | .shWsh => ∃ r w, Spec.P2sh u.scriptPubkey ∧ i.redeemScript = some r ∧ Spec.P2wsh r ∧ i.witnessScript = some w ∧
          segwitSighash L tx n w u.value ty = some m
      | .tr => False := by
  cases h with
  | bare h1 h2 => exact ⟨_, h1, h2⟩
  | sh h1 h2 h3 => exact ⟨_, h1, _, h2, h3⟩
  | wpkh h1 h2 => exact ⟨_, .wpkh ⟨_, h1⟩, _, h1, h2⟩
  | shWpkh h1 h2 h3 => exact ⟨_, .shWpkh h1 h2 ⟨_, rfl⟩, _, h1, h2, h3⟩
  | wsh h1 h2 h3 => exact ⟨_, .wsh h1, _, h1, h2, h3⟩
  | shWsh h1 h2 h3 h4 h5 => exact ⟨_, .shWsh h1 h2 h3, _, _, h1, h2, h3, h4, h5⟩

theorem pkhCode_len (h : FixedBytes 20) : ([0x76, 0xa9, 0x14] ++ h.1 ++ [0x88, 0xac] : Bytes).length < 2 ^ 64 := by
  have := h.2
  simp only [List.length_append, List.length_cons, List.length_nil]
  omega

theorem keyHash_unique {a b : FixedBytes 20} (h : ([0x00, 0x14] ++ a.1 : Bytes) = [0x00, 0x14] ++ b.1) : a = b :=
  Subtype.ext (List.append_cancel_left h)

/-- Two messages of one input, for two transactions, are made in the same way. -/
theorem message_pair {tx tx' : Tx} {n : Nat} {i : Input L} {u : TxOut} {ty : EcdsaTy} {m m' : Hash32} (hc : Spec.ProperScripts i u)
    (h : Spec.Message tx n i u ty m) (h' : Spec.Message tx' n i u ty m') :
    (∃ code, code ≠ [] ∧ code.length < 2 ^ 64 ∧ legacySighash L tx n code ty = some m ∧ legacySighash L tx' n code ty = some m' ∧
      Spec.HashedFor tx n i u ty (Spec.legacyHashed tx n code ty) ∧ Spec.HashedFor tx' n i u ty (Spec.legacyHashed tx' n code ty)) ∨
    (∃ code, code.length < 2 ^ 64 ∧ segwitSighash L tx n code u.value ty = some m ∧ segwitSighash L tx' n code u.value ty = some m' ∧
      Spec.HashedFor tx n i u ty (Spec.segwitHashed L tx n code u.value ty) ∧
      Spec.HashedFor tx' n i u ty (Spec.segwitHashed L tx' n code u.value ty)) := by
  obtain ⟨t, ht, h⟩ := message_split h
  obtain ⟨t', ht', h'⟩ := message_split h'
  have := (outputTypeOf_iff.mpr ht).symm.trans (outputTypeOf_iff.mpr ht')
  injection this with this
  subst this
  cases t with
  | bare => exact .inl ⟨_, hc.spk.1, hc.spk.2, h, h', .bare ht, .bare ht⟩
  | sh =>
    obtain ⟨r, h1, h2⟩ := h
    obtain ⟨r', h1', h2'⟩ := h'
    cases h1.symm.trans h1'
    exact .inl ⟨_, (hc.redeem r h1).1, (hc.redeem r h1).2, h2, h2', .sh ht h1, .sh ht h1⟩
  | wpkh =>
    obtain ⟨a, h1, h2⟩ := h
    obtain ⟨b, h1', h2'⟩ := h'
    obtain rfl := keyHash_unique (h1.symm.trans h1')
    exact .inr ⟨_, pkhCode_len _, h2, h2', .wpkh h1, .wpkh h1⟩
  | shWpkh =>
    obtain ⟨a, h0, h1, h2⟩ := h
    obtain ⟨b, -, h1', h2'⟩ := h'
    obtain rfl := keyHash_unique (Option.some.inj (h1.symm.trans h1'))
    exact .inr ⟨_, pkhCode_len _, h2, h2', .shWpkh h0 h1, .shWpkh h0 h1⟩
  | wsh =>
    obtain ⟨w, h0, h1, h2⟩ := h
    obtain ⟨w', -, h1', h2'⟩ := h'
    cases h1.symm.trans h1'
    exact .inr ⟨_, hc.witness _ h1, h2, h2', .wsh h0 h1, .wsh h0 h1⟩
  | shWsh =>
    obtain ⟨r, w, h0, h1, h2, h3, h4⟩ := h
    obtain ⟨r', w', -, h1', -, h3', h4'⟩ := h'
    cases h1.symm.trans h1'
    cases h3.symm.trans h3'
    exact .inr ⟨_, hc.witness _ h3, h4, h4', .shWsh h0 h1 h2 h3, .shWsh h0 h1 h2 h3⟩
  | tr => exact h.elim

theorem hashedFor_seq {tx : Tx} {n : Nat} {i : Input L} {u : TxOut} {ty : EcdsaTy} {xs : List Bytes} {s : Option UInt32}
    (h : Spec.HashedFor tx n i u ty xs) : Spec.HashedFor tx n { i with sequence := s } u ty xs := by
  cases h with
  | bare h1 => exact .bare h1
  | sh h1 h2 => exact .sh h1 h2
  | wpkh h1 => exact .wpkh h1
  | shWpkh h1 h2 => exact .shWpkh h1 h2
  | wsh h1 h2 => exact .wsh h1 h2
  | shWsh h1 h2 h3 h4 => exact .shWsh h1 h2 h3 h4

/-- C106. If after the changes the message to sign for an input is still the same, then so are all sequence numbers its type covers, unless
the hash function fails. So a signature that covers a changed sequence number is no longer one for the transaction. -/
theorem C106_lost {p q : Psbt L} {tx tx' : Tx} {n : Nat} {i j : Input L} {u : TxOut} {m : Hash32} {ty ty' : EcdsaTy}
    (h : Spec.SetSequences p q) (hp : p.unsignedTx = .ok tx) (hq : q.unsignedTx = .ok tx') (hsm : tx.Small)
    (hu : Spec.FundedBy i u) (hc : Spec.ProperScripts i u) (hsingle : ty.1 = 0x03 ∨ ty.1 = 0x83 → n < tx.output.length)
    (hm : Spec.Signs tx p n i m ty) (hm' : Spec.Signs tx' q n j m ty') :
    Spec.SameCovered p q ty n ∨ Spec.HashFails tx tx' n i j u ty := by
  have g := resequenced h
  obtain ⟨hi, u1, hu1, hd, hm⟩ := hm
  cases fundedBy_unique hu hu1
  obtain ⟨hj, u2, hu2, hd', hm'⟩ := hm'
  obtain ⟨s, hs⟩ := g.inputs n
  rw [hi.1, Option.map_some, hj.1] at hs
  cases hs
  cases fundedBy_unique (fundedBy_seq hu) hu2
  have hty : ty' = ty := Option.some.inj ((inputHashTy_iff.mpr (show Spec.DeclaredType i ty' from hd')).symm.trans (inputHashTy_iff.mpr hd))
  subst hty
  replace hm' : Spec.Message tx' n i u ty' m := by
    have := message_seq (s := i.sequence) hm'
    exact this
  obtain ⟨l, hl, rfl⟩ := unsignedTx_ok.mp hp
  obtain ⟨l', hl', rfl⟩ := unsignedTx_ok.mp hq
  have hsm' : Tx.Small ⟨q.global.txVersion, l', q.inputs.map Input.unsignedTxIn, q.outputs.map Output.txOut⟩ := by
    obtain ⟨h1, h2, -, h4⟩ := hsm
    refine ⟨?_, by simpa [g.outputs] using h2, ?_, by simpa [g.outputs] using h4⟩
    · have := congrArg List.length (g.map (fun _ => ()) fun _ _ => rfl)
      simp only [List.length_map] at this h1 ⊢
      omega
    · intro x hx
      obtain ⟨y, -, rfl⟩ := List.mem_map.mp hx
      exact ⟨by simp [Input.unsignedTxIn], by simp [Input.unsignedTxIn], by simp [Input.unsignedTxIn]⟩
  have fin : (∃ a b, (p.inputs.map Input.unsignedTxIn)[n]? = some a ∧ (q.inputs.map Input.unsignedTxIn)[n]? = some b ∧
        a.previousOutput = b.previousOutput ∧ a.sequence = b.sequence) →
      (Spec.commitsSequences ty' → (p.inputs.map Input.unsignedTxIn).map TxIn.sequence = (q.inputs.map Input.unsignedTxIn).map TxIn.sequence) →
      Spec.SameCovered p q ty' n := by
    rintro ⟨a, b, h1, h2, -, h3⟩ h4 k hk
    rw [← sequences_eq, ← sequences_eq]
    rcases hk with rfl | hk
    · rw [List.getElem?_map (l := p.inputs.map _), List.getElem?_map (l := q.inputs.map _), h1, h2, Option.map_some, Option.map_some, h3]
    · rw [h4 hk]
  rcases message_pair hc hm hm' with ⟨code, c1, c2, c3, c4, c5, c6⟩ | ⟨code, c2, c3, c4, c5, c6⟩
  · have hb : Spec.commitsOutput ty' → n < (q.outputs.map Output.txOut).length := by rw [g.outputs]; exact hsingle
    rcases C37_legacy_commits hsm hsm' c2 c2 c1 hsingle hb c3 c4 with r | ⟨-, -, -, -, r1, -, r2, -⟩
    · exact .inr ⟨_, _, c5, hashedFor_seq c6, .inl r⟩
    · exact .inl (fin r1 r2)
  · rcases C37_segwit_commits hsm hsm' c2 c2 c3 c4 with r | r | ⟨-, -, -, -, -, r1, -, r2, -⟩
    · exact .inr ⟨_, _, c5, hashedFor_seq c6, .inl r⟩
    · exact .inr ⟨_, _, c5, hashedFor_seq c6, .inr r⟩
    · exact .inl (fin r1 r2)

/-! ### Two signed inputs -/

/-- The first is to be signed with ALL|ANYONECANPAY, the second with ALL. -/
def rP : Psbt XL :=
  ⟨{ Global.new XL with inputCount := 2, outputCount := 1, txModifiableFlags := 0x03 },
    [xIn0, { xIn0 with previousTxid := Demo.rep 32 8, sighashType := none }], [Output.new XL ⟨500, [0x51]⟩]⟩
/-- Both are signed. -/
def rQ : Psbt XL := match Signer.sign XS rP xKeys with | .ok (q, _) => q | _ => rP
/-- Then the sequence number of one is changed. -/
def rR (k : Nat) : Psbt XL := match Updater.setSequence rQ 5 k with | .ok r => r | _ => rQ
/-- The message to sign for an input. -/
def rMsg (p : Psbt XL) (n : Nat) : Option (Hash32 × EcdsaTy) := match p.sighashEcdsa n (xTx p) with | .ok m => some m | _ => none

theorem rSet (k : Nat) (h : k < 2) : Spec.SetSequences rQ (rR k) := by
  rcases (by omega : k = 0 ∨ k = 1) with rfl | rfl
  · exact .cons (n := 5) (k := 0) rfl .nil
  · exact .cons (n := 5) (k := 1) rfl .nil

-- The hypotheses of the theorems above are met, with both results: a change of the second input leaves the first one's message and changes
-- the second one's; a change of the first changes both.
example : (∀ i ∈ rQ.inputs, ∃ s, i.partialSigs.get xPk = some s) ∧ rQ.unsignedTx = .ok (xTx rQ) ∧
    (∀ k < 2, Spec.SetSequences rQ (rR k)) ∧ (rMsg rQ 0).isSome ∧ (rMsg rQ 1).isSome ∧
    rMsg (rR 1) 0 = rMsg rQ 0 ∧ rMsg (rR 1) 1 ≠ rMsg rQ 1 ∧ rMsg (rR 0) 0 ≠ rMsg rQ 0 ∧ rMsg (rR 0) 1 ≠ rMsg rQ 1 := by
  refine ⟨?_, by decide +kernel, rSet, by decide +kernel, by decide +kernel, by decide +kernel, by decide +kernel,
    by decide +kernel, by decide +kernel⟩
  have : ∀ i ∈ rQ.inputs, (i.partialSigs.get xPk).isSome := by decide +kernel
  exact fun i hi => Option.isSome_iff_exists.mp (this i hi)

example : (xTx rQ).Small ∧ Spec.SameCovered rQ (rR 1) ⟨0x81, by decide⟩ 0 ∧ ¬ Spec.SameCovered rQ (rR 1) ⟨0x01, by decide⟩ 0 ∧
    ∀ i ∈ rQ.inputs, ∃ u, Spec.FundedBy i u ∧ Spec.ProperScripts i u := by
  refine ⟨by unfold Tx.Small TxIn.Small; decide +kernel, ?_, fun h => ?_, fun i hi => ⟨⟨1000, spkWpkh⟩, ?_⟩⟩
  · rintro k (rfl | h)
    · decide +kernel
    · cases h
  · exact absurd (h 1 (.inr rfl)) (by decide +kernel)
  · have h1 : ∀ i ∈ rQ.inputs, i.witnessUtxo = some ⟨1000, spkWpkh⟩ ∧ i.redeemScript = none ∧ i.witnessScript = none := by decide +kernel
    obtain ⟨a, b, c⟩ := h1 i hi
    refine ⟨.witness a, ⟨by decide, by decide⟩, fun r h => ?_, fun w h => ?_⟩
    · rw [b] at h; cases h
    · rw [c] at h; cases h

end Psbt.V2
