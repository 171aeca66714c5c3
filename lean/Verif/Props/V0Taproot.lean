/- C62: taproot signature messages of PSBT v0. -/
import Verif.Props.V0Sign
import Verif.Props.SighashOnly
namespace Psbt.V0
open Psbt

variable {L : Lib}

/-- C62. Where all outputs spent can be looked up, there is a taproot message exactly in the cases of the specification. -/
theorem C62_message_iff {p : Psbt L} (hr : Spec.V0.IndicesInRange p) (n : Nat) (leaf : Option Hash32) (m : Hash32) (ty : TapTy) :
    p.sighashTaproot n p.unsignedTx leaf = .ok (m, ty) ↔ Spec.V0.TapSigns p n leaf m ty := sighashTaproot_iff hr

theorem tap_ok {tx : Tx} {n : Nat} {q : Prevouts} {leaf : Option Hash32} {ty : TapTy} {m : Hash32}
    (h : tapSighash L tx n q leaf ty = .ok m) : ∃ b, tapPreimage L tx n q leaf ty = .ok b ∧ m = taggedHash L tapSighashTag b := by
  unfold tapSighash at h
  rw [bind_ok] at h
  obtain ⟨b, h1, h2⟩ := h
  cases h2
  exact ⟨b, h1, rfl⟩

/-- What the message says about outputs, in two places. -/
def outsPart (L : Lib) (tx : Tx) (base : SigBase) : Bytes := if base = .all then (L.sha256 (tx.output.flatMap encTxOut)).1 else []

theorem preimage_one {tx : Tx} {n : Nat} {u : TxOut} {leaf : Option Hash32} {ty : TapTy} {b : Bytes} (ha : (TapTy.split ty).2 = true)
    (h : tapPreimage L tx n (.one n u) leaf ty = .ok b) :
    ∃ t out, tx.input[n]? = some t ∧ tapOutputPart L tx n (TapTy.split ty).1 = .ok out ∧
      b = [0x00, ty.1] ++ encU32 tx.version ++ encU32 tx.lockTime ++ outsPart L tx (TapTy.split ty).1
        ++ [if leaf.isSome then 0x02 else 0x00]
        ++ (encOutPoint t.previousOutput ++ encU64 u.value ++ encVec u.scriptPubkey ++ encU32 t.sequence) ++ out ++ tapLeafPart leaf := by
  unfold tapPreimage at h
  simp only [Bool.false_eq_true, if_false, tapInputsPart, ha, if_true, ok_bind, tapInputPart] at h
  cases ht : tx.input[n]? with
  | none => rw [ht] at h; cases h
  | some t =>
    simp only [ht, Prevouts.get, if_true, ok_bind] at h
    rw [bind_ok] at h
    obtain ⟨out, h1, h⟩ := h
    refine ⟨t, out, rfl, h1, ?_⟩
    cases h
    simp [outsPart]

theorem preimage_all {tx : Tx} {n : Nat} {us : List TxOut} {leaf : Option Hash32} {ty : TapTy} {b : Bytes} (ha : (TapTy.split ty).2 = false)
    (h : tapPreimage L tx n (.all us) leaf ty = .ok b) :
    us.length = tx.input.length ∧ ∃ out, tapOutputPart L tx n (TapTy.split ty).1 = .ok out ∧
      b = [0x00, ty.1] ++ encU32 tx.version ++ encU32 tx.lockTime
        ++ ((L.sha256 (tx.input.flatMap fun i => encOutPoint i.previousOutput)).1
          ++ (L.sha256 (us.flatMap fun u => encU64 u.value)).1 ++ (L.sha256 (us.flatMap fun u => encVec u.scriptPubkey)).1
          ++ (L.sha256 (tx.input.flatMap fun i => encU32 i.sequence)).1)
        ++ outsPart L tx (TapTy.split ty).1
        ++ [if leaf.isSome then 0x02 else 0x00] ++ encU32 (UInt32.ofNat n) ++ out ++ tapLeafPart leaf := by
  unfold tapPreimage at h
  by_cases hl : us.length = tx.input.length
  · simp only [hl, ne_eq, not_true_eq_false, decide_false, Bool.false_eq_true, if_false, tapInputsPart, ha, ok_bind, tapInputPart] at h
    rw [bind_ok] at h
    obtain ⟨out, h1, h⟩ := h
    refine ⟨hl, out, h1, ?_⟩
    cases h
    simp [outsPart]
  · simp only [hl, ne_eq, not_false_eq_true, decide_true, if_true] at h
    cases h

theorem split_acp (ty : TapTy) : (TapTy.split ty).2 = false ↔ Spec.V0.tapCommitsInputs ty := by
  rcases tapTy_cases ty with h | h | h | h | h | h | h <;> simp [TapTy.split, h, Spec.V0.tapCommitsInputs]

theorem split_all (ty : TapTy) : (TapTy.split ty).1 = .all ↔ Spec.V0.tapCommitsOutputs ty := by
  rcases tapTy_cases ty with h | h | h | h | h | h | h <;> simp [TapTy.split, h, Spec.V0.tapCommitsOutputs]

theorem split_single (ty : TapTy) : (TapTy.split ty).1 = .single ↔ Spec.V0.tapCommitsOutput ty := by
  rcases tapTy_cases ty with h | h | h | h | h | h | h <;> simp [TapTy.split, h, Spec.V0.tapCommitsOutput]

section Parse
variable {xs ys : List Bytes} (nocol : ¬ Spec.Collides L.sha256 xs ys)
include nocol

theorem outsPart_inj {tx tx' : Tx} (hs : tx.Small) (hs' : tx'.Small) {base : SigBase} {r s : Bytes}
    (hx : tx.output.flatMap encTxOut ∈ xs) (hy : tx'.output.flatMap encTxOut ∈ ys)
    (h : outsPart L tx base ++ r = outsPart L tx' base ++ s) : (base = .all → tx.output = tx'.output) ∧ r = s := by
  unfold outsPart at h
  by_cases hb : base = .all
  · rw [if_pos hb, if_pos hb] at h
    obtain ⟨h1, h2⟩ := (decHash32_rt _).inj (decHash32_rt _) h
    exact ⟨fun _ => flatMap_inj (fun o ho => decTxOut_enc (hs.2.2.2 o ho)) (fun o ho => decTxOut_enc (hs'.2.2.2 o ho)) encTxOut_ne (Spec.Collides.free nocol hx hy h1), h2⟩
  · rw [if_neg hb, if_neg hb] at h
    exact ⟨fun h => absurd h hb, h⟩

theorem outPart_inj {tx tx' : Tx} (hs : tx.Small) (hs' : tx'.Small) {n n' : Nat} {base : SigBase} {out out' r s : Bytes}
    (hx : ∀ o, tx.output[n]? = some o → encTxOut o ∈ xs) (hy : ∀ o, tx'.output[n']? = some o → encTxOut o ∈ ys)
    (h1 : tapOutputPart L tx n base = .ok out) (h2 : tapOutputPart L tx' n' base = .ok out')
    (h : out ++ r = out' ++ s) : (base = .single → tx.output[n]? = tx'.output[n']?) ∧ r = s := by
  unfold tapOutputPart at h1 h2
  by_cases hb : base = .single
  · rw [if_pos hb] at h1 h2
    cases eo : tx.output[n]? with
    | none => rw [eo] at h1; cases h1
    | some o =>
      cases eo' : tx'.output[n']? with
      | none => rw [eo'] at h2; cases h2
      | some o' =>
        rw [eo] at h1; rw [eo'] at h2
        cases h1; cases h2
        obtain ⟨h3, h4⟩ := (decHash32_rt _).inj (decHash32_rt _) h
        have ho : o.scriptPubkey.length < 2 ^ 64 := hs.2.2.2 o (List.mem_of_getElem? eo)
        have ho' : o'.scriptPubkey.length < 2 ^ 64 := hs'.2.2.2 o' (List.mem_of_getElem? eo')
        refine ⟨fun _ => ?_, h4⟩
        rw [(RT.inj (decTxOut_enc ho) (decTxOut_enc ho') (r := []) (s := []) (by simpa using Spec.Collides.free nocol (hx o eo) (hy o' eo') h3)).1]
  · rw [if_neg hb] at h1 h2
    cases h1; cases h2
    exact ⟨fun h => absurd h hb, h⟩

end Parse

theorem leafPart_inj {leaf leaf' : Option Hash32} (h : tapLeafPart leaf = tapLeafPart leaf') : leaf = leaf' := by
  cases leaf with
  | none => cases leaf' with
    | none => rfl
    | some b => simp [tapLeafPart] at h
  | some a => cases leaf' with
    | none => simp [tapLeafPart] at h
    | some b =>
      simp only [tapLeafPart, List.append_assoc] at h
      rw [((decHash32_rt _).inj (decHash32_rt _) h).1]

theorem values_scripts_eq {us us' : List TxOut} (h1 : us.map TxOut.value = us'.map TxOut.value)
    (h2 : us.map TxOut.scriptPubkey = us'.map TxOut.scriptPubkey) : us = us' := by
  induction us generalizing us' with
  | nil => cases us' with
    | nil => rfl
    | cons _ _ => simp at h1
  | cons u us ih => cases us' with
    | nil => simp at h1
    | cons v vs =>
      simp only [List.map_cons, List.cons.injEq] at h1 h2
      rw [ih h1.2 h2.2]
      obtain ⟨a, b⟩ := u
      obtain ⟨c, d⟩ := v
      simp only at h1 h2
      rw [h1.1, h2.1]

theorem encU64_ne (n : UInt64) : encU64 n ≠ [] := by simp [encU64, leEnc]
theorem encVec_ne (v : Bytes) : encVec v ≠ [] := by
  unfold encVec encVar
  intro h
  have := (List.append_eq_nil_iff.mp h).1
  repeat' split at this
  all_goals simp at this

theorem tag_name : tapSighashTag = Spec.tapSighashName := by decide +kernel

/-- The parts of the message in the terms of BIP-341. -/
theorem bip341_parts {tx : Tx} {n : Nat} {ty : TapTy} {out : Bytes} (leaf : Option Hash32) (ho : tapOutputPart L tx n (TapTy.split ty).1 = .ok out) :
    (Spec.V0.tapCommitsOutput ty → tx.output[n]? ≠ none) ∧
    out = (if Spec.outputsSigned ty.1 = 3 then tx.output[n]?.toList.map fun o => (L.sha256 (encTxOut o)).1 else []).flatten ∧
    outsPart L tx (TapTy.split ty).1 =
      (if ty.1 = 0 ∨ Spec.outputsSigned ty.1 = 1 then [(L.sha256 (tx.output.flatMap encTxOut)).1] else []).flatten ∧
    tapLeafPart leaf = (match leaf with | some lh => [lh.1, [0x00], [0xFF, 0xFF, 0xFF, 0xFF]] | none => ([] : List Bytes)).flatten := by
  have h1 : (Spec.V0.tapCommitsOutput ty → tx.output[n]? ≠ none) ∧
      out = (if Spec.outputsSigned ty.1 = 3 then tx.output[n]?.toList.map fun o => (L.sha256 (encTxOut o)).1 else []).flatten := by
    unfold tapOutputPart at ho
    have : (TapTy.split ty).1 = .single ↔ Spec.outputsSigned ty.1 = 3 := by
      rcases tapTy_cases ty with h | h | h | h | h | h | h <;> rw [h] <;> simp [TapTy.split, h, Spec.outputsSigned]
    by_cases hb : (TapTy.split ty).1 = .single
    · rw [if_pos hb] at ho
      rw [if_pos (this.mp hb)]
      cases eo : tx.output[n]? with
      | none => rw [eo] at ho; cases ho
      | some o => rw [eo] at ho; cases ho; simp
    · rw [if_neg hb] at ho
      rw [if_neg (fun h => hb (this.mpr h))]
      cases ho
      exact ⟨fun hc => absurd ((split_single ty).mpr hc) hb, rfl⟩
  refine ⟨h1.1, h1.2, ?_, ?_⟩
  · unfold outsPart
    rcases tapTy_cases ty with h | h | h | h | h | h | h <;> rw [h] <;> simp [TapTy.split, h, Spec.outputsSigned]
  · cases leaf with
    | none => rfl
    | some lh => simp only [tapLeafPart, List.flatten_cons, List.flatten_nil, List.append_nil, List.append_assoc]; rfl

theorem bip341_one {tx : Tx} {n : Nat} {u : TxOut} {leaf : Option Hash32} {ty : TapTy} {b : Bytes} {t : TxIn} (us : List TxOut)
    (ha : ty.1 = 0x81 ∨ ty.1 = 0x82 ∨ ty.1 = 0x83) (ht : tx.input[n]? = some t) (h : tapPreimage L tx n (.one n u) leaf ty = .ok b) :
    b = (Spec.bip341 L tx us n t u tx.output[n]? leaf ty.1).flatten := by
  obtain ⟨t0, out, ht', ho, rfl⟩ := preimage_one (by rcases ha with h | h | h <;> simp [TapTy.split, h]) h
  rw [ht] at ht'; cases ht'
  obtain ⟨-, ho2, outs, leafs⟩ := bip341_parts leaf ho
  unfold Spec.bip341
  rw [le32_fun, le64_fun, blob_fun, outPointBytes_fun, txOutBytes_fun]
  have hacp : Spec.anyoneCanPay ty.1 = true := by rcases ha with h | h | h <;> rw [h] <;> rfl
  rw [ho2, outs, leafs, hacp]
  simp only [List.flatten_append, List.flatten_cons, List.flatten_nil, List.append_nil, List.append_assoc, if_true, List.nil_append, List.cons_append]
  cases leaf <;> rfl

theorem bip341_all {tx : Tx} {n : Nat} {us : List TxOut} {leaf : Option Hash32} {ty : TapTy} {b : Bytes} (t : TxIn) (u : TxOut)
    (ha : Spec.V0.tapCommitsInputs ty) (h : tapPreimage L tx n (.all us) leaf ty = .ok b) :
    b = (Spec.bip341 L tx us n t u tx.output[n]? leaf ty.1).flatten := by
  obtain ⟨hl, out, ho, rfl⟩ := preimage_all ((split_acp ty).mpr ha) h
  obtain ⟨-, ho2, outs, leafs⟩ := bip341_parts leaf ho
  unfold Spec.bip341
  rw [le32_fun, le64_fun, blob_fun, outPointBytes_fun, txOutBytes_fun]
  have hacp : Spec.anyoneCanPay ty.1 = false := by rcases ha with h | h | h | h <;> rw [h] <;> rfl
  rw [ho2, outs, leafs, hacp]
  simp only [List.flatten_append, List.flatten_cons, List.flatten_nil, List.append_nil, List.append_assoc, Bool.false_eq_true, if_false, List.nil_append, List.cons_append]
  cases leaf <;> rfl

theorem tapHashed_eq (tx : Tx) (us : List TxOut) (n : Nat) (u : TxOut) (leaf : Option Hash32) (ty : TapTy) :
    Spec.tapHashed L tx us n u leaf ty =
      [tx.input.flatMap fun i => encOutPoint i.previousOutput, us.flatMap fun u => encU64 u.value,
       us.flatMap fun u => encVec u.scriptPubkey, tx.input.flatMap fun i => encU32 i.sequence, tx.output.flatMap encTxOut]
        ++ tx.output[n]?.toList.map encTxOut
        ++ tx.input[n]?.toList.map fun inp => (L.sha256 tapSighashTag).1 ++ (L.sha256 tapSighashTag).1 ++
          (Spec.bip341 L tx us n inp u tx.output[n]? leaf ty.1).flatten := by
  unfold Spec.tapHashed
  rw [← tag_name, le32_fun, le64_fun, blob_fun, outPointBytes_fun, txOutBytes_fun]

theorem mem_hashed_one {tx : Tx} {n : Nat} {u : TxOut} {leaf : Option Hash32} {ty : TapTy} {b : Bytes} {t : TxIn} (us : List TxOut)
    (ha : ty.1 = 0x81 ∨ ty.1 = 0x82 ∨ ty.1 = 0x83) (ht : tx.input[n]? = some t) (h : tapPreimage L tx n (.one n u) leaf ty = .ok b) :
    (L.sha256 tapSighashTag).1 ++ (L.sha256 tapSighashTag).1 ++ b ∈ Spec.tapHashed L tx us n u leaf ty := by
  rw [bip341_one us ha ht h, tapHashed_eq]
  simp [ht]

theorem mem_hashed_all {tx : Tx} {n : Nat} {us : List TxOut} {leaf : Option Hash32} {ty : TapTy} {b : Bytes} {t : TxIn} (u : TxOut)
    (ha : Spec.V0.tapCommitsInputs ty) (ht : tx.input[n]? = some t) (h : tapPreimage L tx n (.all us) leaf ty = .ok b) :
    (L.sha256 tapSighashTag).1 ++ (L.sha256 tapSighashTag).1 ++ b ∈ Spec.tapHashed L tx us n u leaf ty := by
  rw [bip341_all t u ha h, tapHashed_eq]
  simp [ht]

/-- C62. The bytes hashed for a taproot message are those of BIP-341 and BIP-342, in that order, tagged "TapSighash". -/
theorem C62_layout {p : Psbt L} {n : Nat} {leaf : Option Hash32} {m : Hash32} {ty : TapTy} (h : Spec.V0.TapSigns p n leaf m ty) :
    ∃ t i u us, Spec.V0.HasInput p n t i ∧ Spec.V0.FundedBy t i u ∧
      (Spec.V0.tapCommitsInputs ty → Spec.V0.Funding p.unsignedTx.input p.inputs us) ∧
      (Spec.V0.tapCommitsOutput ty → p.unsignedTx.output[n]? ≠ none) ∧
      let tag := (L.sha256 Spec.tapSighashName).1
      m = L.sha256 (tag ++ tag ++ (Spec.bip341 L p.unsignedTx us n t u p.unsignedTx.output[n]? leaf ty.1).flatten) := by
  obtain ⟨t, i, u, h1, h2, h3, h4, h5⟩ := h
  rcases h5 with ⟨ha, h5⟩ | ⟨ha, us, hf, h5⟩
  · obtain ⟨b, hb1, hb2⟩ := tap_ok h5
    obtain ⟨t0, out, ht, ho, -⟩ := preimage_one (by rcases ha with h | h | h <;> simp [TapTy.split, h]) hb1
    refine ⟨t, i, u, [], h1, h2, ?_, (bip341_parts leaf ho).1, ?_⟩
    · intro hc
      rcases ha with h | h | h <;> simp [Spec.V0.tapCommitsInputs, h] at hc
    · rw [hb2, ← tag_name, ← bip341_one [] ha h1.1 hb1]
      rfl
  · obtain ⟨b, hb1, hb2⟩ := tap_ok h5
    obtain ⟨hl, out, ho, -⟩ := preimage_all ((split_acp ty).mpr ha) hb1
    refine ⟨t, i, u, us, h1, h2, fun _ => hf, (bip341_parts leaf ho).1, ?_⟩
    rw [hb2, ← tag_name, ← bip341_all t u ha hb1]
    rfl

/-- C62. What a taproot message commits to: if the messages for two inputs - of any two PSBTs, at any indexes, for the key
path or any leaves, with any types - are equal, then these agree on the leaf, on the type, on the outpoint, sequence number,
amount and script of the input, and on all else the type covers; or two of the strings hashed on the way collide. -/
theorem C62_commits {p p' : Psbt L} {n n' : Nat} {leaf leaf' : Option Hash32} {m : Hash32} {ty ty' : TapTy}
    (hs : p.unsignedTx.Small) (hs' : p'.unsignedTx.Small) (hu : Spec.V0.SmallUtxos p) (hu' : Spec.V0.SmallUtxos p')
    (hn : n < 2 ^ 32) (hn' : n' < 2 ^ 32)
    (h : Spec.V0.TapSigns p n leaf m ty) (h' : Spec.V0.TapSigns p' n' leaf' m ty') :
    (∃ xs ys, Spec.V0.TapHashed p n leaf ty xs ∧ Spec.V0.TapHashed p' n' leaf' ty' ys ∧ Spec.Collides L.sha256 xs ys) ∨
    (ty = ty' ∧ leaf = leaf' ∧ p.unsignedTx.version = p'.unsignedTx.version ∧ p.unsignedTx.lockTime = p'.unsignedTx.lockTime ∧
     (∃ t i u t' i', Spec.V0.HasInput p n t i ∧ Spec.V0.FundedBy t i u ∧ Spec.V0.HasInput p' n' t' i' ∧ Spec.V0.FundedBy t' i' u ∧
       t.previousOutput = t'.previousOutput ∧ t.sequence = t'.sequence) ∧
     (Spec.V0.tapCommitsInputs ty → n = n' ∧
       p.unsignedTx.input.map TxIn.previousOutput = p'.unsignedTx.input.map TxIn.previousOutput ∧
       p.unsignedTx.input.map TxIn.sequence = p'.unsignedTx.input.map TxIn.sequence ∧
       ∃ us, Spec.V0.Funding p.unsignedTx.input p.inputs us ∧ Spec.V0.Funding p'.unsignedTx.input p'.inputs us) ∧
     (Spec.V0.tapCommitsOutputs ty → p.unsignedTx.output = p'.unsignedTx.output) ∧
     (Spec.V0.tapCommitsOutput ty → p.unsignedTx.output[n]? = p'.unsignedTx.output[n']?)) := by
  by_cases hb : ∃ xs ys, Spec.V0.TapHashed p n leaf ty xs ∧ Spec.V0.TapHashed p' n' leaf' ty' ys ∧ Spec.Collides L.sha256 xs ys
  · exact .inl hb
  right
  have tagged : ∀ {x y}, (L.sha256 tapSighashTag).1 ++ (L.sha256 tapSighashTag).1 ++ x =
      (L.sha256 tapSighashTag).1 ++ (L.sha256 tapSighashTag).1 ++ y → x = y := by
    intro x y e
    simpa using e
  obtain ⟨t, i, u, h1, h2, h3, h4, h5⟩ := h
  obtain ⟨t', i', u', h1', h2', h3', h4', h5'⟩ := h'
  have acp : ∀ {ty : TapTy}, (ty.1 = 0x81 ∨ ty.1 = 0x82 ∨ ty.1 = 0x83) → (TapTy.split ty).2 = true := by
    intro ty h; rcases h with h | h | h <;> simp [TapTy.split, h]
  have nacp : ∀ {ty : TapTy}, (ty.1 = 0x00 ∨ ty.1 = 0x01 ∨ ty.1 = 0x02 ∨ ty.1 = 0x03) → (TapTy.split ty).2 = false := by
    intro ty h; exact (split_acp ty).mpr h
  have tyeq : ∀ {a b : UInt8} {r s : Bytes}, [0x00, a] ++ r = [0x00, b] ++ s → a = b ∧ r = s := by
    intro a b r s h; simpa using h
  rcases h5 with ⟨ha, h5⟩ | ⟨ha, us, hf, h5⟩
  · obtain ⟨b, hb1, hb2⟩ := tap_ok h5
    obtain ⟨t0, out, ht, ho, rfl⟩ := preimage_one (acp ha) hb1
    rw [h1.1] at ht; cases ht
    rcases h5' with ⟨ha', h5'⟩ | ⟨ha', us', hf', h5'⟩
    · obtain ⟨b', hb1', hb2'⟩ := tap_ok h5'
      obtain ⟨t0', out', ht', ho', rfl⟩ := preimage_one (acp ha') hb1'
      rw [h1'.1] at ht'; cases ht'
      have nocol := fun hc => hb ⟨_, _, (.inl ⟨ha, t, i, u, h1, h2, rfl⟩), (.inl ⟨ha', t', i', u', h1', h2', rfl⟩), hc⟩
      have e := tagged (Spec.Collides.free nocol (mem_hashed_one [] ha h1.1 hb1) (mem_hashed_one [] ha' h1'.1 hb1') (hb2.symm.trans hb2'))
      simp only [List.append_assoc] at e
      obtain ⟨e0, e⟩ := tyeq e
      have ety : ty = ty' := Subtype.ext e0
      subst ety
      obtain ⟨e1, e⟩ := (decU32_rt _).inj (decU32_rt _) e
      obtain ⟨e2, e⟩ := (decU32_rt _).inj (decU32_rt _) e
      obtain ⟨e3, e⟩ := outsPart_inj nocol hs hs' (by simp [tapHashed_eq]) (by simp [tapHashed_eq]) e
      simp only [List.cons_append, List.nil_append, List.cons.injEq] at e
      have e := e.2
      obtain ⟨e4, e⟩ := RT.inj (decOutPoint_enc _) (decOutPoint_enc _) e
      obtain ⟨e5, e⟩ := (decU64_rt _).inj (decU64_rt _) e
      obtain ⟨e6, e⟩ := (decVecFin_rt (hu n t i u h1 h2)).inj (decVecFin_rt (hu' n' t' i' u' h1' h2')) e
      obtain ⟨e7, e⟩ := (decU32_rt _).inj (decU32_rt _) e
      obtain ⟨e8, e⟩ := outPart_inj nocol hs hs' (fun o ho => by simp [tapHashed_eq, ho]) (fun o ho => by simp [tapHashed_eq, ho]) ho ho' e
      have eu : u = u' := by
        obtain ⟨a, b⟩ := u; obtain ⟨c, d⟩ := u'; simp only at e5 e6; rw [e5, e6]
      refine ⟨rfl, leafPart_inj e, e1, e2, ⟨t, i, u, t', i', h1, h2, h1', eu ▸ h2', e4, e7⟩, ?_, ?_, ?_⟩
      · intro hc; rw [← split_acp, acp ha] at hc; cases hc
      · intro hc; exact e3 ((split_all ty).mpr hc)
      · intro hc; exact e8 ((split_single ty).mpr hc)
    · obtain ⟨b', hb1', hb2'⟩ := tap_ok h5'
      obtain ⟨-, out', ho', rfl⟩ := preimage_all (nacp ha') hb1'
      have nocol := fun hc => hb ⟨_, _, (.inl ⟨ha, t, i, u, h1, h2, rfl⟩), (.inr ⟨ha', t', i', u', us', h1', h2', hf', rfl⟩), hc⟩
      have e := tagged (Spec.Collides.free nocol (mem_hashed_one [] ha h1.1 hb1) (mem_hashed_all u' ha' h1'.1 hb1') (hb2.symm.trans hb2'))
      simp only [List.append_assoc] at e
      have ety : ty = ty' := Subtype.ext (tyeq e).1
      subst ety
      have := acp ha
      rw [nacp ha'] at this; cases this
  · obtain ⟨b, hb1, hb2⟩ := tap_ok h5
    obtain ⟨hl, out, ho, rfl⟩ := preimage_all (nacp ha) hb1
    rcases h5' with ⟨ha', h5'⟩ | ⟨ha', us', hf', h5'⟩
    · obtain ⟨b', hb1', hb2'⟩ := tap_ok h5'
      obtain ⟨t0', out', ht', ho', rfl⟩ := preimage_one (acp ha') hb1'
      have nocol := fun hc => hb ⟨_, _, (.inr ⟨ha, t, i, u, us, h1, h2, hf, rfl⟩), (.inl ⟨ha', t', i', u', h1', h2', rfl⟩), hc⟩
      have e := tagged (Spec.Collides.free nocol (mem_hashed_all u ha h1.1 hb1) (mem_hashed_one [] ha' h1'.1 hb1') (hb2.symm.trans hb2'))
      simp only [List.append_assoc] at e
      have ety : ty = ty' := Subtype.ext (tyeq e).1
      subst ety
      have := acp ha'
      rw [nacp ha] at this; cases this
    · obtain ⟨b', hb1', hb2'⟩ := tap_ok h5'
      obtain ⟨hl', out', ho', rfl⟩ := preimage_all (nacp ha') hb1'
      have nocol := fun hc => hb ⟨_, _, (.inr ⟨ha, t, i, u, us, h1, h2, hf, rfl⟩), (.inr ⟨ha', t', i', u', us', h1', h2', hf', rfl⟩), hc⟩
      have e := tagged (Spec.Collides.free nocol (mem_hashed_all u ha h1.1 hb1) (mem_hashed_all u' ha' h1'.1 hb1') (hb2.symm.trans hb2'))
      simp only [List.append_assoc] at e
      obtain ⟨e0, e⟩ := tyeq e
      have ety : ty = ty' := Subtype.ext e0
      subst ety
      obtain ⟨e1, e⟩ := (decU32_rt _).inj (decU32_rt _) e
      obtain ⟨e2, e⟩ := (decU32_rt _).inj (decU32_rt _) e
      obtain ⟨f1, e⟩ := (decHash32_rt _).inj (decHash32_rt _) e
      obtain ⟨f2, e⟩ := (decHash32_rt _).inj (decHash32_rt _) e
      obtain ⟨f3, e⟩ := (decHash32_rt _).inj (decHash32_rt _) e
      obtain ⟨f4, e⟩ := (decHash32_rt _).inj (decHash32_rt _) e
      obtain ⟨e3, e⟩ := outsPart_inj nocol hs hs' (by simp [tapHashed_eq]) (by simp [tapHashed_eq]) e
      simp only [List.cons_append, List.nil_append, List.cons.injEq] at e
      have e := e.2
      obtain ⟨e4, e⟩ := (decU32_rt _).inj (decU32_rt _) e
      obtain ⟨e8, eleaf⟩ := outPart_inj nocol hs hs' (fun o ho => by simp [tapHashed_eq, ho]) (fun o ho => by simp [tapHashed_eq, ho]) ho ho' e
      have en : n = n' := by
        have := congrArg UInt32.toNat e4
        rw [UInt32.toNat_ofNat', UInt32.toNat_ofNat', Nat.mod_eq_of_lt hn, Nat.mod_eq_of_lt hn'] at this
        exact this
      subst en
      have g1 : p.unsignedTx.input.map TxIn.previousOutput = p'.unsignedTx.input.map TxIn.previousOutput := by
        have f1 := Spec.Collides.free nocol (by simp [tapHashed_eq]) (by simp [tapHashed_eq]) f1
        have f : ∀ l : List TxIn, (l.flatMap fun i => encOutPoint i.previousOutput) = (l.map TxIn.previousOutput).flatMap encOutPoint :=
          fun l => by simp [List.flatMap_map]
        rw [f, f] at f1
        exact flatMap_inj (fun _ _ => decOutPoint_enc _) (fun _ _ => decOutPoint_enc _) encOutPoint_ne f1
      have g4 : p.unsignedTx.input.map TxIn.sequence = p'.unsignedTx.input.map TxIn.sequence := by
        have f4 := Spec.Collides.free nocol (by simp [tapHashed_eq]) (by simp [tapHashed_eq]) f4
        have f : ∀ l : List TxIn, (l.flatMap fun i => encU32 i.sequence) = (l.map TxIn.sequence).flatMap encU32 :=
          fun l => by simp [List.flatMap_map]
        rw [f, f] at f4
        exact flatMap_inj (fun _ _ => decU32_rt _) (fun _ _ => decU32_rt _) encU32_ne f4
      have g2 : us.map TxOut.value = us'.map TxOut.value := by
        have f2 := Spec.Collides.free nocol (by simp [tapHashed_eq]) (by simp [tapHashed_eq]) f2
        have f : ∀ l : List TxOut, (l.flatMap fun u => encU64 u.value) = (l.map TxOut.value).flatMap encU64 :=
          fun l => by simp [List.flatMap_map]
        rw [f, f] at f2
        exact flatMap_inj (fun _ _ => decU64_rt _) (fun _ _ => decU64_rt _) encU64_ne f2
      have small : ∀ {q : Psbt L} {vs : List TxOut}, Spec.V0.SmallUtxos q → Spec.V0.Funding q.unsignedTx.input q.inputs vs →
          ∀ b ∈ vs.map TxOut.scriptPubkey, b.length < 2 ^ 64 := by
        intro q vs hq hv b hb
        obtain ⟨v, hv1, rfl⟩ := List.mem_map.mp hb
        obtain ⟨j, hj⟩ := List.getElem?_of_mem hv1
        obtain ⟨a, b, g1, g2, g3⟩ := (funding_iff.mp hv).2.2 j v hj
        exact hq j a b v ⟨g1, g2⟩ g3
      have g3 : us.map TxOut.scriptPubkey = us'.map TxOut.scriptPubkey := by
        have f3 := Spec.Collides.free nocol (by simp [tapHashed_eq]) (by simp [tapHashed_eq]) f3
        have f : ∀ l : List TxOut, (l.flatMap fun u => encVec u.scriptPubkey) = (l.map TxOut.scriptPubkey).flatMap encVec :=
          fun l => by simp [List.flatMap_map]
        rw [f, f] at f3
        exact flatMap_inj (fun b hb => decVecFin_rt (small hu hf b hb)) (fun b hb => decVecFin_rt (small hu' hf' b hb)) encVec_ne f3
      have eus : us = us' := values_scripts_eq g2 g3
      subst eus
      have eu : u = u' := by
        have hlt := (List.getElem?_eq_some_iff.mp h1.1).1
        have hj : us[n]? = some us[n] := List.getElem?_eq_getElem (by omega)
        obtain ⟨a, b, k1, k2, k3⟩ := (funding_iff.mp hf).2.2 n _ hj
        obtain ⟨a', b', k1', k2', k3'⟩ := (funding_iff.mp hf').2.2 n _ hj
        obtain ⟨rfl, rfl⟩ := hasInput_unique ⟨k1, k2⟩ h1
        obtain ⟨rfl, rfl⟩ := hasInput_unique ⟨k1', k2'⟩ h1'
        rw [fundedBy_unique h2 k3, fundedBy_unique h2' k3']
      refine ⟨rfl, leafPart_inj eleaf, e1, e2, ⟨t, i, u, t', i', h1, h2, h1', eu ▸ h2', ?_, ?_⟩, fun _ => ⟨rfl, g1, g4, us, hf, hf'⟩, ?_, ?_⟩
      · have := congrArg (·[n]?) g1
        simpa [List.getElem?_map, h1.1, h1'.1] using this
      · have := congrArg (·[n]?) g4
        simpa [List.getElem?_map, h1.1, h1'.1] using this
      · intro hc; exact e3 ((split_all ty).mpr hc)
      · intro hc; exact e8 ((split_single ty).mpr hc)

/-- C62. The other direction: inputs of two PSBTs that agree on what the type covers have the same message, whatever the
rest is. -/
theorem C62_covers_only {p p' : Psbt L} {n n' : Nat} {leaf : Option Hash32} {m : Hash32} {ty : TapTy} {t t' : TxIn} {i i' : Input L} {u : TxOut}
    (h : Spec.V0.TapSigns p n leaf m ty)
    (hi : Spec.V0.HasInput p n t i) (hu : Spec.V0.FundedBy t i u) (hi' : Spec.V0.HasInput p' n' t' i') (hu' : Spec.V0.FundedBy t' i' u)
    (hd : Spec.V0.DeclaredTapType i' ty)
    (hv : p.unsignedTx.version = p'.unsignedTx.version) (hl : p.unsignedTx.lockTime = p'.unsignedTx.lockTime)
    (hp : t.previousOutput = t'.previousOutput) (hq : t.sequence = t'.sequence)
    (h1 : Spec.V0.tapCommitsInputs ty → n = n' ∧
       p.unsignedTx.input.map TxIn.previousOutput = p'.unsignedTx.input.map TxIn.previousOutput ∧
       p.unsignedTx.input.map TxIn.sequence = p'.unsignedTx.input.map TxIn.sequence ∧
       ∃ us, Spec.V0.Funding p.unsignedTx.input p.inputs us ∧ Spec.V0.Funding p'.unsignedTx.input p'.inputs us)
    (h2 : Spec.V0.tapCommitsOutputs ty → p.unsignedTx.output = p'.unsignedTx.output)
    (h3 : Spec.V0.tapCommitsOutput ty → p.unsignedTx.output[n]? = p'.unsignedTx.output[n']?) :
    Spec.V0.TapSigns p' n' leaf m ty := by
  obtain ⟨t0, i0, u0, k1, k2, k3, k4, k5⟩ := h
  obtain ⟨rfl, rfl⟩ := hasInput_unique k1 hi
  have := fundedBy_unique k2 hu
  subst this
  refine ⟨t', i', u0, hi', hu', k3, hd, ?_⟩
  have eo : ∀ base, (base = .all → p.unsignedTx.output = p'.unsignedTx.output) →
      (if base = SigBase.all then (L.sha256 (p.unsignedTx.output.flatMap encTxOut)).1 else []) =
        (if base = SigBase.all then (L.sha256 (p'.unsignedTx.output.flatMap encTxOut)).1 else []) := by
    intro base hb
    by_cases h : base = .all
    · rw [hb h]
    · rw [if_neg h, if_neg h]
  have es : ∀ base, (base = .single → p.unsignedTx.output[n]? = p'.unsignedTx.output[n']?) →
      tapOutputPart L p.unsignedTx n base = tapOutputPart L p'.unsignedTx n' base := by
    intro base hb
    unfold tapOutputPart
    by_cases h : base = .single
    · rw [hb h]
    · rw [if_neg h, if_neg h]
  have eo := eo (TapTy.split ty).1 fun h => h2 ((split_all ty).mp h)
  have es := es (TapTy.split ty).1 fun h => h3 ((split_single ty).mp h)
  rcases k5 with ⟨ha, k5⟩ | ⟨ha, us, hf, k5⟩
  · refine .inl ⟨ha, ?_⟩
    have hacp : (TapTy.split ty).2 = true := by rcases ha with h | h | h <;> simp [TapTy.split, h]
    rw [← k5]
    unfold tapSighash tapPreimage
    simp only [Bool.false_eq_true, if_false, tapInputsPart, hacp, if_true, ok_bind, tapInputPart, hi.1, hi'.1, Prevouts.get, eo, es, hv, hl, hp, hq]
  · refine .inr ⟨ha, ?_⟩
    obtain ⟨rfl, g1, g2, us', hf1, hf2⟩ := h1 ha
    have : us = us' := by
      have a := funding_iff.mp hf
      have b := funding_iff.mp hf1
      apply List.ext_getElem?
      intro j
      rcases Nat.lt_or_ge j us.length with hj | hj
      · have hj' : j < us'.length := by have := a.1; have := b.1; omega
        obtain ⟨x, y, c1, c2, c3⟩ := a.2.2 j _ (List.getElem?_eq_getElem hj)
        obtain ⟨x', y', d1, d2, d3⟩ := b.2.2 j _ (List.getElem?_eq_getElem hj')
        obtain ⟨rfl, rfl⟩ := hasInput_unique (p := p) ⟨c1, c2⟩ ⟨d1, d2⟩
        rw [List.getElem?_eq_getElem hj, List.getElem?_eq_getElem hj', fundedBy_unique c3 d3]
      · rw [List.getElem?_eq_none_iff.mpr hj, List.getElem?_eq_none_iff.mpr (by have := a.1; have := b.1; omega)]
    subst this
    refine ⟨us, hf2, ?_⟩
    have hacp : (TapTy.split ty).2 = false := (split_acp ty).mpr ha
    have e1 : p.unsignedTx.input.flatMap (fun i => encOutPoint i.previousOutput) = p'.unsignedTx.input.flatMap (fun i => encOutPoint i.previousOutput) := by
      have := congrArg (List.flatMap encOutPoint) g1
      simpa only [List.flatMap_map] using this
    have e2 : p.unsignedTx.input.flatMap (fun i => encU32 i.sequence) = p'.unsignedTx.input.flatMap (fun i => encU32 i.sequence) := by
      have := congrArg (List.flatMap encU32) g2
      simpa only [List.flatMap_map] using this
    have el : p.unsignedTx.input.length = p'.unsignedTx.input.length := by simpa using congrArg List.length g1
    rw [← k5]
    unfold tapSighash tapPreimage
    simp only [tapInputsPart, hacp, Bool.false_eq_true, if_false, ok_bind, tapInputPart, eo, es, hv, hl, e1, e2, el]

/-! ### Cases that meet the hypotheses -/

abbrev mL := Demo.mixLib
/-- A taproot input with this sighash type. -/
def mTap (ty : Option UInt32) : Input mL := { Input.default mL with witnessUtxo := some ⟨1000, V2.spkTr⟩, sighashType := ty }
/-- An input map of another kind. -/
def mOther : Input mL := { Input.default mL with witnessUtxo := some ⟨3, V2.spkWpkh⟩, redeemScript := some [1] }
/-- A PSBT with these input maps, spending the output 0, 1, ... of transaction 7. -/
def mP (is : List (Input mL)) (outs : List TxOut) : Psbt mL where
  unsignedTx := ⟨2, 0, is.mapIdx fun k _ => ⟨⟨Demo.rep 32 7, UInt32.ofNat k⟩, [], 0xFFFFFFFF, []⟩, outs⟩
  version := 0
  xpub := .empty
  proprietary := .empty
  unknown := .empty
  inputs := is
  outputs := outs.map fun _ => Output.default mL
def mA : Psbt mL := mP [mTap (some 0x83), mOther] [⟨500, [0x51]⟩, ⟨1, []⟩]
def mB : Psbt mL := mP [mTap (some 0x83)] [⟨500, [0x51]⟩]
def mC : Psbt mL := mP [mTap none, mOther] [⟨500, [0x51]⟩]
/-- The message, if there is one. -/
def mMsg (p : Psbt mL) : Hash32 := match p.sighashTaproot 0 p.unsignedTx none with | .ok (m, _) => m | _ => Demo.rep 32 0

theorem mRange (is : List (Input mL)) (outs : List TxOut) (h : ∀ i ∈ is, i.nonWitnessUtxo = none) : Spec.V0.IndicesInRange (mP is outs) := by
  intro n t i tx _ h2 _ h3
  rw [h i (List.mem_of_getElem? h2)] at h3
  cases h3

-- Two PSBTs with a common message, of type SINGLE|ANYONECANPAY, and without colliding strings: they differ in the rest.
example : Spec.V0.TapSigns mA 0 none (mMsg mA) ⟨0x83, by decide⟩ ∧ Spec.V0.TapSigns mB 0 none (mMsg mA) ⟨0x83, by decide⟩ ∧ mA ≠ mB ∧
    ¬ Spec.Collides mL.sha256 (Spec.tapHashed mL mA.unsignedTx [] 0 ⟨1000, V2.spkTr⟩ none ⟨0x83, by decide⟩)
      (Spec.tapHashed mL mB.unsignedTx [] 0 ⟨1000, V2.spkTr⟩ none ⟨0x83, by decide⟩) :=
  ⟨(C62_message_iff (mRange _ _ (by decide)) ..).mp (by decide +kernel), (C62_message_iff (mRange _ _ (by decide)) ..).mp (by decide +kernel),
    by decide +kernel, by decide +kernel⟩
-- The default type, where the outputs spent by all inputs are needed.
example : Spec.V0.TapSigns mC 0 none (mMsg mC) ⟨0x00, by decide⟩ ∧ mMsg mC ≠ mMsg mA :=
  ⟨(C62_message_iff (mRange _ _ (by decide)) ..).mp (by decide +kernel), by decide +kernel⟩
example : mA.unsignedTx.Small ∧ mB.unsignedTx.Small := by unfold Tx.Small TxIn.Small; decide +kernel
example : Spec.V0.SmallUtxos mB := by
  rintro n t i u ⟨-, h1⟩ h2
  have : i = mTap (some 0x83) := by simpa [mB, mP] using List.mem_of_getElem? h1
  subst this
  cases h2 with
  | nonWitness h => cases h
  | witness h => cases h; decide

end Psbt.V0
