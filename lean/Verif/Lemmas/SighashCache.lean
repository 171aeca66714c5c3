/- The kept hashes are those that would be computed. -/
import Verif.Spec.SighashCache
import Verif.Lemmas.V0Sign
namespace Psbt
open SighashCache

variable {L : Lib}

def commonOf (L : Lib) (tx : Tx) : CommonCache :=
  ⟨L.sha256 (tx.input.flatMap fun i => encOutPoint i.previousOutput), L.sha256 (tx.input.flatMap fun i => encU32 i.sequence),
    L.sha256 (tx.output.flatMap encTxOut)⟩
def segwitOf (L : Lib) (tx : Tx) : SegwitCache :=
  ⟨L.sha256d (tx.input.flatMap fun i => encOutPoint i.previousOutput), L.sha256d (tx.input.flatMap fun i => encU32 i.sequence),
    L.sha256d (tx.output.flatMap encTxOut)⟩
def taprootOf (L : Lib) (us : List TxOut) : TaprootCache :=
  ⟨L.sha256 (us.flatMap fun u => encU64 u.value), L.sha256 (us.flatMap fun u => encVec u.scriptPubkey)⟩

/-- What is kept is right; about spent outputs, it is what some `us` with `P us` gives. -/
structure Kept (L : Lib) (t : Tx) (P : List TxOut → Prop) (c : SighashCache) : Prop where
  tx : c.tx = t
  common : ∀ x, c.common = some x → x = commonOf L t
  segwit : ∀ x, c.segwit = some x → x = segwitOf L t
  taproot : ∀ x, c.taproot = some x → ∃ us, P us ∧ x = taprootOf L us

variable {tx : Tx} {P : List TxOut → Prop} {c : SighashCache}

theorem kept_new : Kept L tx P (.new tx) := ⟨rfl, nofun, nofun, nofun⟩

theorem commonCache_kept (h : Kept L tx P c) : (c.commonCache L).1 = commonOf L tx ∧ Kept L tx P (c.commonCache L).2 := by
  unfold commonCache
  cases e : c.common with
  | some x => exact ⟨h.common x e, h⟩
  | none =>
    have hx : (⟨L.sha256 (c.tx.input.flatMap fun i => encOutPoint i.previousOutput),
      L.sha256 (c.tx.input.flatMap fun i => encU32 i.sequence), L.sha256 (c.tx.output.flatMap encTxOut)⟩ : CommonCache) = commonOf L tx := by
      rw [h.tx]; rfl
    refine ⟨hx, h.tx, ?_, h.segwit, h.taproot⟩
    intro x e; cases e; exact hx

theorem segwitCache_kept (hd : Spec.DoubleHash L) (h : Kept L tx P c) :
    (c.segwitCache L).1 = segwitOf L tx ∧ Kept L tx P (c.segwitCache L).2 := by
  unfold segwitCache
  cases e : c.segwit with
  | some x => exact ⟨h.segwit x e, h⟩
  | none =>
    obtain ⟨h1, h2⟩ := commonCache_kept h
    have hx : (⟨L.sha256 (c.commonCache L).1.prevouts.1, L.sha256 (c.commonCache L).1.sequences.1,
        L.sha256 (c.commonCache L).1.outputs.1⟩ : SegwitCache) = segwitOf L tx := by
      rw [h1]; unfold segwitOf; rw [hd, hd, hd]; rfl
    refine ⟨hx, h2.tx, h2.common, ?_, h2.taproot⟩
    intro x e; cases e; exact hx

theorem taprootCache_kept {us : List TxOut} (h : Kept L tx P c) (hu : P us) :
    (∃ us', P us' ∧ (c.taprootCache L us).1 = taprootOf L us') ∧ Kept L tx P (c.taprootCache L us).2 := by
  unfold taprootCache
  cases e : c.taproot with
  | some x => exact ⟨h.taproot x e, h⟩
  | none =>
    refine ⟨⟨us, hu, rfl⟩, h.tx, h.common, h.segwit, ?_⟩
    intro x e; cases e; exact ⟨us, hu, rfl⟩

theorem legacy_kept (h : Kept L tx P c) (n : Nat) (s : Bytes) (ty : EcdsaTy) :
    (c.legacySighash L n s ty).1 = legacySighash L tx n s ty ∧ Kept L tx P (c.legacySighash L n s ty).2 := by
  unfold SighashCache.legacySighash
  rw [h.tx]; exact ⟨rfl, h⟩

theorem prevoutsHash_kept (hd : Spec.DoubleHash L) (h : Kept L tx P c) (acp : Bool) :
    (c.prevoutsHash L acp).1 = (if acp then zero32 else L.sha256d (tx.input.flatMap fun i => encOutPoint i.previousOutput)) ∧
    Kept L tx P (c.prevoutsHash L acp).2 := by
  obtain ⟨h1, h2⟩ := segwitCache_kept hd h
  unfold prevoutsHash
  cases acp
  · simp only [Bool.false_eq_true, if_false, h1]; exact ⟨rfl, h2⟩
  · exact ⟨rfl, h⟩

theorem sequencesHash_kept (hd : Spec.DoubleHash L) (h : Kept L tx P c) (base : SigBase) (acp : Bool) :
    (c.sequencesHash L base acp).1 =
      (if !acp && base = .all then L.sha256d (tx.input.flatMap fun i => encU32 i.sequence) else zero32) ∧
    Kept L tx P (c.sequencesHash L base acp).2 := by
  obtain ⟨h1, h2⟩ := segwitCache_kept hd h
  unfold sequencesHash
  by_cases hc : (!acp && decide (base = .all)) = true
  · simp only [if_pos hc, h1]; exact ⟨rfl, h2⟩
  · simp only [if_neg hc, true_and]; exact h

theorem outputsHash_kept (hd : Spec.DoubleHash L) (h : Kept L tx P c) (n : Nat) (base : SigBase) :
    (c.outputsHash L n base).1 = (if base = .all then L.sha256d (tx.output.flatMap encTxOut)
        else if base = .single then singleOutputHash L tx n else zero32) ∧
    Kept L tx P (c.outputsHash L n base).2 := by
  obtain ⟨h1, h2⟩ := segwitCache_kept hd h
  unfold outputsHash
  by_cases h3 : base = .all
  · simp only [if_pos h3, h1]; exact ⟨rfl, h2⟩
  · by_cases h4 : base = .single
    · simp only [if_neg h3, if_pos h4, h.tx, true_and]; exact h
    · simp only [if_neg h3, if_neg h4, true_and]; exact h

theorem segwit_kept (hd : Spec.DoubleHash L) (h : Kept L tx P c) (n : Nat) (code : Bytes) (v : UInt64) (ty : EcdsaTy) :
    (c.segwitSighash L n code v ty).1 = segwitSighash L tx n code v ty ∧ Kept L tx P (c.segwitSighash L n code v ty).2 := by
  unfold SighashCache.segwitSighash Psbt.segwitSighash segwitPreimage
  obtain ⟨base, acp⟩ := EcdsaTy.split ty
  simp only
  obtain ⟨a1, a2⟩ := prevoutsHash_kept hd h acp
  generalize c.prevoutsHash L acp = x at a1 a2
  obtain ⟨hp, c1⟩ := x
  obtain ⟨b1, b2⟩ := sequencesHash_kept hd a2 base acp
  simp only
  generalize c1.sequencesHash L base acp = x at b1 b2
  obtain ⟨hs, c2⟩ := x
  simp only at a1 b1 b2 ⊢
  rw [b2.tx]
  cases tx.input[n]? with
  | none => exact ⟨rfl, b2⟩
  | some inp =>
    obtain ⟨d1, d2⟩ := outputsHash_kept hd b2 n base
    simp only
    generalize c2.outputsHash L n base = x at d1 d2
    obtain ⟨ho, c3⟩ := x
    simp only at d1 d2 ⊢
    rw [d2.tx, a1, b1, d1]
    exact ⟨rfl, d2⟩

theorem p2wpkh_kept (hd : Spec.DoubleHash L) (h : Kept L tx P c) (n : Nat) (spk : Bytes) (v : UInt64) (ty : EcdsaTy) :
    (c.p2wpkhSighash L n spk v ty).1 = p2wpkhSighash L tx n spk v ty ∧ Kept L tx P (c.p2wpkhSighash L n spk v ty).2 := by
  unfold SighashCache.p2wpkhSighash Psbt.p2wpkhSighash
  cases p2wpkhScriptCode spk with
  | none => exact ⟨rfl, h⟩
  | some code =>
    obtain ⟨h1, h2⟩ := segwit_kept hd h n code v ty
    simp only
    rw [← h1]
    generalize c.segwitSighash L n code v ty = x at h2
    obtain ⟨o, c⟩ := x
    cases o <;> exact ⟨rfl, h2⟩

theorem tapOutputsPart_kept (h : Kept L tx P c) (base : SigBase) :
    (c.tapOutputsPart L base).1 = (if base = .all then (L.sha256 (tx.output.flatMap encTxOut)).1 else []) ∧
    Kept L tx P (c.tapOutputsPart L base).2 := by
  obtain ⟨h1, h2⟩ := commonCache_kept h
  unfold tapOutputsPart
  by_cases h3 : base = .all
  · simp only [if_pos h3, h1]; exact ⟨rfl, h2⟩
  · simp only [if_neg h3, true_and]; exact h

/-- With what is kept about spent outputs being about `us'`. -/
theorem tapInputsPart_kept (h : Kept L tx P c) (acp : Bool) (q : Prevouts) (hq : ∀ us, q = .all us → P us) :
    (∃ q', (c.tapInputsPart L acp q).1 = tapInputsPart L tx acp q' ∧
      (q' = q ∨ ∃ us us', q = .all us ∧ q' = .all us' ∧ P us')) ∧
    Kept L tx P (c.tapInputsPart L acp q).2 := by
  obtain ⟨h1, h2⟩ := commonCache_kept h
  unfold SighashCache.tapInputsPart Psbt.tapInputsPart
  cases acp with
  | true => exact ⟨⟨q, rfl, .inl rfl⟩, h⟩
  | false =>
    simp only [Bool.false_eq_true, if_false]
    cases q with
    | one m u => exact ⟨⟨.one m u, rfl, .inl rfl⟩, h2⟩
    | all us =>
      obtain ⟨⟨us', h3, h4⟩, h5⟩ := taprootCache_kept h2 (hq us rfl)
      refine ⟨⟨.all us', ?_, .inr ⟨us, us', rfl, rfl, h3⟩⟩, h5⟩
      simp only [h1, h4]; rfl

theorem tapPreimage_size (tx : Tx) (n : Nat) (q : Prevouts) (leaf : Option Hash32) (ty : TapTy) : tapPreimage L tx n q leaf ty =
    if wrongSize tx q then .error .prevoutsSize
    else (do
      let (base, acp) := TapTy.split ty
      let ins ← Psbt.tapInputsPart L tx acp q
      let inp ← tapInputPart tx n acp q
      let out ← tapOutputPart L tx n base
      .ok ([0x00, ty.1] ++ encU32 tx.version ++ encU32 tx.lockTime ++ ins
        ++ (if base = .all then (L.sha256 (tx.output.flatMap encTxOut)).1 else [])
        ++ [if leaf.isSome then 0x02 else 0x00] ++ inp ++ out ++ tapLeafPart leaf)) := by
  cases q <;> rfl

theorem tap_kept_inv (h : Kept L tx P c) (n : Nat) {q : Prevouts} (leaf : Option Hash32) (ty : TapTy) (hq : ∀ us, q = .all us → P us) :
    Kept L tx P (c.tapSighash L n q leaf ty).2 := by
  unfold SighashCache.tapSighash
  generalize wrongSize c.tx q = b
  cases b
  case true => exact h
  rw [if_neg Bool.false_ne_true]
  obtain ⟨base, acp⟩ := TapTy.split ty
  simp only
  obtain ⟨-, h2⟩ := tapInputsPart_kept h acp q hq
  generalize c.tapInputsPart L acp q = x at h2
  obtain ⟨o, c⟩ := x
  cases o with
  | error e => exact h2
  | ok ins => exact (tapOutputsPart_kept h2 base).2

theorem tap_kept {us : List TxOut} (h : Kept L tx (· = us) c) (n : Nat) {q : Prevouts} (leaf : Option Hash32) (ty : TapTy)
    (hq : ∀ us', q = .all us' → us' = us) :
    (c.tapSighash L n q leaf ty).1 = tapSighash L tx n q leaf ty ∧ Kept L tx (· = us) (c.tapSighash L n q leaf ty).2 := by
  refine ⟨?_, tap_kept_inv h n leaf ty hq⟩
  unfold SighashCache.tapSighash Psbt.tapSighash
  rw [h.tx, tapPreimage_size]
  generalize wrongSize tx q = b
  cases b
  case true => rfl
  rw [if_neg Bool.false_ne_true, if_neg Bool.false_ne_true]
  obtain ⟨base, acp⟩ := TapTy.split ty
  simp only
  obtain ⟨⟨q', h1, h3⟩, h2⟩ := tapInputsPart_kept h acp q hq
  have hqq : q' = q := by
    rcases h3 with h3 | ⟨a, b, rfl, rfl, h3⟩
    · exact h3
    · rw [hq a rfl, h3]
  subst hqq
  generalize c.tapInputsPart L acp q' = x at h1 h2
  obtain ⟨o, c⟩ := x
  simp only at h1 h2 ⊢
  rw [← h1]
  cases o with
  | error e => rfl
  | ok ins =>
    obtain ⟨g1, g2⟩ := tapOutputsPart_kept h2 base
    simp only
    generalize c.tapOutputsPart L base = x at g1 g2
    obtain ⟨outs, c⟩ := x
    simp only at g1 g2 ⊢
    rw [g2.tx, g1]
    cases tapInputPart tx n acp q' with
    | error e => rfl
    | ok inp =>
      cases tapOutputPart L tx n base with
      | error e => rfl
      | ok out => rfl

/-! ### Computations -/

/-- With a good cache the result is `o`, and the cache stays good. -/
def Refines (I : SighashCache → Prop) {ε α : Type} (m : CacheM ε α) (o : Out ε α) : Prop := ∀ c, I c → (m c).1 = o ∧ I (m c).2

section
variable {I : SighashCache → Prop} {ε ε' α β : Type}

theorem refines_lift (o : Out ε α) : Refines I (.lift o) o := fun _ h => ⟨rfl, h⟩

theorem refines_bind {m : CacheM ε α} {o : Out ε α} {f : α → CacheM ε β} {g : α → Out ε β} (h : Refines I m o)
    (hf : ∀ a, o = .ok a → Refines I (f a) (g a)) : Refines I (m >>= f) (o >>= g) := by
  intro c hc
  obtain ⟨h1, h2⟩ := h c hc
  show (CacheM.bind m f c).1 = _ ∧ I (CacheM.bind m f c).2
  unfold CacheM.bind
  generalize m c = x at h1 h2
  obtain ⟨r, c⟩ := x
  simp only at h1 h2
  subst h1
  cases r with
  | error e => exact ⟨rfl, h2⟩
  | ok a => exact hf a rfl c h2

/-- The same without a `bind` on the right. -/
theorem refines_call {φ : SighashCache → α × SighashCache} {a : α} (h : ∀ c, I c → (φ c).1 = a ∧ I (φ c).2) {f : α → CacheM ε β} {o : Out ε β}
    (hf : Refines I (f a) o) : Refines I (CacheM.call φ >>= f) o := by
  intro c hc
  obtain ⟨h1, h2⟩ := h c hc
  show (CacheM.bind _ f c).1 = _ ∧ I (CacheM.bind _ f c).2
  unfold CacheM.bind CacheM.call
  simp only [h1]
  exact hf _ h2

def handled (o : Out ε α) (g : Except ε α → Out ε' β) : Out ε' β :=
  match o with
  | .error (.panic s) => .error (.panic s)
  | .error (.err e) => g (.error e)
  | .ok a => g (.ok a)

theorem refines_handle {m : CacheM ε α} {o : Out ε α} {f : Except ε α → CacheM ε' β} {g : Except ε α → Out ε' β} (h : Refines I m o)
    (hf : ∀ r, Refines I (f r) (g r)) : Refines I (CacheM.handle m f) (handled o g) := by
  intro c hc
  obtain ⟨h1, h2⟩ := h c hc
  unfold CacheM.handle
  generalize m c = x at h1 h2
  obtain ⟨r, c⟩ := x
  simp only at h1 h2
  subst h1
  cases r with
  | error e =>
    cases e with
    | err e => exact hf _ c h2
    | panic s => exact ⟨rfl, h2⟩
  | ok a => exact hf _ c h2
end

theorem V2.sighashEcdsa_refines (hd : Spec.DoubleHash L) (p : V2.Psbt L) (n : Nat) :
    Refines (Kept L tx P) (p.sighashEcdsaCached n) (p.sighashEcdsa n tx) := by
  unfold V2.Psbt.sighashEcdsaCached V2.Psbt.sighashEcdsa
  refine refines_bind (refines_lift _) fun a _ => ?_
  split
  · exact refines_lift _
  refine refines_bind (refines_lift _) fun i _ => refines_bind (refines_lift _) fun u _ => ?_
  simp only
  cases i.ecdsaHashTy with
  | none => exact refines_lift _
  | some ty =>
    refine refines_bind (refines_lift _) fun t _ => ?_
    cases t with
    | bare =>
      refine refines_call (fun c h => legacy_kept h n u.scriptPubkey ty) ?_
      cases legacySighash L tx n u.scriptPubkey ty <;> exact refines_lift _
    | sh =>
      cases i.redeemScript with
      | none => exact refines_lift _
      | some code =>
        refine refines_call (fun c h => legacy_kept h n code ty) ?_
        simp only
        cases legacySighash L tx n code ty <;> exact refines_lift _
    | wpkh =>
      refine refines_call (fun c h => p2wpkh_kept hd h n u.scriptPubkey u.value ty) ?_
      simp only
      cases p2wpkhSighash L tx n u.scriptPubkey u.value ty <;> exact refines_lift _
    | shWpkh =>
      cases i.redeemScript with
      | none => exact refines_lift _
      | some code =>
        refine refines_call (fun c h => p2wpkh_kept hd h n code u.value ty) ?_
        simp only
        cases p2wpkhSighash L tx n code u.value ty <;> exact refines_lift _
    | wsh | shWsh =>
      cases i.witnessScript with
      | none => exact refines_lift _
      | some code =>
        refine refines_call (fun c h => segwit_kept hd h n code u.value ty) ?_
        simp only
        cases segwitSighash L tx n code u.value ty <;> exact refines_lift _
    | tr => exact refines_lift _

theorem V0.sighashEcdsa_refines (hd : Spec.DoubleHash L) (p : V0.Psbt L) (n : Nat) :
    Refines (Kept L tx P) (p.sighashEcdsaCached n) (p.sighashEcdsa n tx) := by
  unfold V0.Psbt.sighashEcdsaCached V0.Psbt.sighashEcdsa
  refine refines_bind (refines_lift _) fun a _ => ?_
  split
  · exact refines_lift _
  refine refines_bind (refines_lift _) fun i _ => refines_bind (refines_lift _) fun u _ => ?_
  simp only
  cases i.ecdsaHashTy with
  | none => exact refines_lift _
  | some ty =>
    refine refines_bind (refines_lift _) fun t _ => ?_
    cases t with
    | bare =>
      refine refines_call (fun c h => legacy_kept h n u.scriptPubkey ty) ?_
      cases legacySighash L tx n u.scriptPubkey ty <;> exact refines_lift _
    | sh =>
      cases i.redeemScript with
      | none => exact refines_lift _
      | some code =>
        refine refines_call (fun c h => legacy_kept h n code ty) ?_
        simp only
        cases legacySighash L tx n code ty <;> exact refines_lift _
    | wpkh =>
      refine refines_call (fun c h => p2wpkh_kept hd h n u.scriptPubkey u.value ty) ?_
      simp only
      cases p2wpkhSighash L tx n u.scriptPubkey u.value ty <;> exact refines_lift _
    | shWpkh =>
      cases i.redeemScript with
      | none => exact refines_lift _
      | some code =>
        refine refines_call (fun c h => p2wpkh_kept hd h n code u.value ty) ?_
        simp only
        cases p2wpkhSighash L tx n code u.value ty <;> exact refines_lift _
    | wsh | shWsh =>
      cases i.witnessScript with
      | none => exact refines_lift _
      | some code =>
        refine refines_call (fun c h => segwit_kept hd h n code u.value ty) ?_
        simp only
        cases segwitSighash L tx n code u.value ty <;> exact refines_lift _
    | tr => exact refines_lift _

namespace V0

/-- The outputs spent, as far as signing for taproot looks at them. -/
def spentBy (p : Psbt L) : List TxOut :=
  match p.spendUtxos (List.range p.inputs.length) with
  | .ok us => us.filterMap fun u => u
  | .error _ => []

theorem sighashTaproot_refines (p : Psbt L) (n : Nat) (leaf : Option Hash32) :
    Refines (Kept L tx (· = spentBy p)) (p.sighashTaprootCached n leaf) (p.sighashTaproot n tx leaf) := by
  unfold Psbt.sighashTaprootCached Psbt.sighashTaproot
  refine refines_bind (refines_lift _) fun a _ => ?_
  split
  · exact refines_lift _
  refine refines_bind (refines_lift _) fun i _ => refines_bind (refines_lift _) fun t _ => ?_
  cases t with
  | tr =>
    simp only
    cases i.taprootHashTy with
    | none => exact refines_lift _
    | some ty =>
      refine refines_bind (refines_lift _) fun us hus => refines_bind (refines_lift _) fun q hq => ?_
      have hall : ∀ us', q = .all us' → us' = spentBy p := by
        intro us' e
        subst e
        unfold spentBy
        rw [hus]
        simp only
        unfold V0.prevouts at hq
        split at hq
        · split at hq
          · cases hq
          · cases hq
          · cases hq
        · split at hq
          · cases hq; rfl
          · cases hq
      refine refines_call (fun c h => tap_kept h n leaf ty hall) ?_
      cases tapSighash L tx n q leaf ty <;> exact refines_lift _
  | bare | wpkh | wsh | sh | shWpkh | shWsh => exact refines_lift _

/-- The part of `sighash_msg` that is not about taproot. -/
theorem sighashMsg_rest (hd : Spec.DoubleHash L) (i : Input L) (n : Nat) (u : TxOut) (ty : EcdsaTy) : Refines (Kept L tx P)
    (if (isP2wpkh u.scriptPubkey || isP2wsh u.scriptPubkey || (isP2sh u.scriptPubkey && (i.redeemScript.map isP2wpkh).getD false)
        || (isP2sh u.scriptPubkey && (i.redeemScript.map isP2wsh).getD false)) = true then
      if isP2wpkh u.scriptPubkey = true then (do
        match ← CacheM.call fun c => c.p2wpkhSighash L n u.scriptPubkey u.value ty with
        | .ok h => CacheM.lift (.ok (.segwitV0 h))
        | .error e => CacheM.lift (.error (.err (.p2wpkh e))))
      else if (isP2sh u.scriptPubkey && (i.redeemScript.map isP2wpkh).getD false) = true then
        match i.redeemScript with
        | none => CacheM.lift (.error (.panic "redeem script non-empty checked earlier"))
        | some r => do
          match ← CacheM.call fun c => c.p2wpkhSighash L n r u.value ty with
          | .ok h => CacheM.lift (.ok (.segwitV0 h))
          | .error e => CacheM.lift (.error (.err (.p2wpkh e)))
      else
        match i.witnessScript with
        | none => CacheM.lift (.error (.err .missingWitnessScript))
        | some w => do
          match ← CacheM.call fun c => c.segwitSighash L n w u.value ty with
          | some h => CacheM.lift (.ok (.segwitV0 h))
          | none => CacheM.lift (.error (.err .inputsIndex))
    else if isP2sh u.scriptPubkey = true then
      match i.redeemScript with
      | none => CacheM.lift (.error (.err .missingRedeemScript))
      | some r => do
        match ← CacheM.call fun c => c.legacySighash L n r ty with
        | some h => CacheM.lift (.ok (.legacy h))
        | none => CacheM.lift (.error (.err .inputsIndex))
    else do
      match ← CacheM.call fun c => c.legacySighash L n u.scriptPubkey ty with
      | some h => CacheM.lift (.ok (.legacy h))
      | none => CacheM.lift (.error (.err .inputsIndex)) : CacheM SighashErr SighashMsg)
    (if (isP2wpkh u.scriptPubkey || isP2wsh u.scriptPubkey || (isP2sh u.scriptPubkey && (i.redeemScript.map isP2wpkh).getD false)
        || (isP2sh u.scriptPubkey && (i.redeemScript.map isP2wsh).getD false)) = true then
      if isP2wpkh u.scriptPubkey = true then
        match p2wpkhSighash L tx n u.scriptPubkey u.value ty with
        | .ok h => .ok (.segwitV0 h)
        | .error e => .error (.err (.p2wpkh e))
      else if (isP2sh u.scriptPubkey && (i.redeemScript.map isP2wpkh).getD false) = true then
        match i.redeemScript with
        | none => .error (.panic "redeem script non-empty checked earlier")
        | some r =>
          match p2wpkhSighash L tx n r u.value ty with
          | .ok h => .ok (.segwitV0 h)
          | .error e => .error (.err (.p2wpkh e))
      else
        match i.witnessScript with
        | none => .error (.err .missingWitnessScript)
        | some w =>
          match segwitSighash L tx n w u.value ty with
          | some h => .ok (.segwitV0 h)
          | none => .error (.err .inputsIndex)
    else if isP2sh u.scriptPubkey = true then
      match i.redeemScript with
      | none => .error (.err .missingRedeemScript)
      | some r =>
        match legacySighash L tx n r ty with
        | some h => .ok (.legacy h)
        | none => .error (.err .inputsIndex)
    else
      match legacySighash L tx n u.scriptPubkey ty with
      | some h => .ok (.legacy h)
      | none => .error (.err .inputsIndex)) := by
  split
  · split
    · refine refines_call (fun c h => p2wpkh_kept hd h n u.scriptPubkey u.value ty) ?_
      cases p2wpkhSighash L tx n u.scriptPubkey u.value ty <;> exact refines_lift _
    · split
      · cases i.redeemScript with
        | none => exact refines_lift _
        | some r =>
          refine refines_call (fun c h => p2wpkh_kept hd h n r u.value ty) ?_
          simp only
          cases p2wpkhSighash L tx n r u.value ty <;> exact refines_lift _
      · cases i.witnessScript with
        | none => exact refines_lift _
        | some w =>
          refine refines_call (fun c h => segwit_kept hd h n w u.value ty) ?_
          simp only
          cases segwitSighash L tx n w u.value ty <;> exact refines_lift _
  · split
    · cases i.redeemScript with
      | none => exact refines_lift _
      | some r =>
        refine refines_call (fun c h => legacy_kept h n r ty) ?_
        simp only
        cases legacySighash L tx n r ty <;> exact refines_lift _
    · refine refines_call (fun c h => legacy_kept h n u.scriptPubkey ty) ?_
      cases legacySighash L tx n u.scriptPubkey ty <;> exact refines_lift _

/-- The result and the cache, for caches that keep hashes of spent outputs with `P`: right unless the input is taproot and
other spent outputs satisfy `P`, too. -/
theorem sighashMsg_both (hd : Spec.DoubleHash L) (p : Psbt L) (n : Nat) (leaf : Option Hash32)
    (hP : ∀ us, p.prevouts = .ok us → P us) {c : SighashCache} (hc : Kept L tx P c) :
    Kept L tx P (p.sighashMsgCached n leaf c).2 ∧
    (((∃ us, P = (· = us)) ∨ ∀ u, p.getUtxo n = .ok u → isP2tr u.scriptPubkey = false) →
      (p.sighashMsgCached n leaf c).1 = p.sighashMsg n tx leaf) := by
  have lift {o : Out SighashErr SighashMsg} {m : CacheM SighashErr SighashMsg} (h : Refines (Kept L tx P) m o) {Q : Prop} :
      Kept L tx P (m c).2 ∧ (Q → (m c).1 = o) := ⟨(h c hc).2, fun _ => (h c hc).1⟩
  unfold Psbt.sighashMsgCached Psbt.sighashMsg
  split
  · exact lift (refines_lift _)
  cases p.inputs[n]? with
  | none => exact lift (refines_lift _)
  | some i =>
    simp only
    cases e : p.prevouts with
    | error x => cases x <;> exact lift (refines_lift _)
    | ok us =>
      cases e' : p.getUtxo n with
      | error x => cases x <;> exact lift (refines_lift _)
      | ok u =>
        have hb {f : List TxOut → CacheM SighashErr SighashMsg} :
            ((CacheM.lift (V2.mapFail (fun _ => SighashErr.missingSpendUtxos) (Except.ok us : Out (FinErr L) (List TxOut))) >>= f : CacheM SighashErr SighashMsg) c) = f us c := rfl
        have hb' {f : TxOut → CacheM SighashErr SighashMsg} :
            ((CacheM.lift (V2.mapFail (fun _ => SighashErr.missingInputUtxo) (Except.ok u : Out (MsInputErr L) TxOut)) >>= f : CacheM SighashErr SighashMsg) c) = f u c := rfl
        rw [hb, hb']
        simp only [V2.mapFail, ok_bind]
        split
        · rename_i htr
          cases i.taprootHashTy with
          | none => exact lift (refines_lift _)
          | some ty =>
            have hinv := tap_kept_inv hc n (q := .all us) leaf ty fun us' h => by cases h; exact hP us e
            show Kept L tx P (CacheM.bind _ _ c).2 ∧ (_ → (CacheM.bind _ _ c).1 = _)
            unfold CacheM.bind CacheM.call
            simp only
            constructor
            · generalize c.tapSighash L n (.all us) leaf ty = x at hinv
              obtain ⟨o, c⟩ := x
              cases o <;> exact hinv
            · rintro (⟨us', rfl⟩ | h)
              · have := hP us e
                subst this
                have := (tap_kept hc n (q := .all us) leaf ty fun us' h => by cases h; rfl).1
                rw [← this]
                generalize c.tapSighash L n (.all us) leaf ty = x
                obtain ⟨o, c⟩ := x
                cases o <;> rfl
              · rw [h u rfl] at htr; cases htr
        · cases i.ecdsaHashTy with
          | none => exact lift (refines_lift _)
          | some ty => exact lift (sighashMsg_rest hd i n u ty)

theorem spentBy_erase {p q : Psbt L} (he : Spec.V0.erase q = Spec.V0.erase p) : spentBy q = spentBy p := by
  have hl : q.inputs.length = p.inputs.length := by
    have := congrArg (fun x => x.inputs.length) he
    simpa [Spec.V0.erase] using this
  unfold spentBy
  rw [← spendUtxos_erase q, ← spendUtxos_erase p, he, hl]

variable {S : SigLib L}

theorem bip32SignEcdsa_refines (hd : Spec.DoubleHash L) (p : Psbt L) (k : Provider S) (n : Nat) :
    Refines (Kept L tx P) (p.bip32SignEcdsaCached S k n) (p.bip32SignEcdsa S k n tx) := by
  unfold Psbt.bip32SignEcdsaCached Psbt.bip32SignEcdsa
  have := refines_handle (f := fun r => CacheM.lift (p.signWith S k n r)) (g := fun r => p.signWith S k n r)
    (sighashEcdsa_refines (tx := tx) (P := P) hd p n) fun r => refines_lift _
  refine Eq.mp ?_ this
  congr 1
  cases p.sighashEcdsa n tx with
  | error e => cases e <;> rfl
  | ok m => rfl

section
variable {I : SighashCache → Prop} {msg : Option Hash32 → CacheM SignErr (Hash32 × TapTy)} {msg' : Option Hash32 → Out SignErr (Hash32 × TapTy)}

theorem signLeaves_refines (hm : ∀ l, Refines I (msg l) (msg' l)) (kp : S.Keypair) (x : L.xonly.T) (lhs : List Hash32)
    (sigs : BMap (L.xonly.T × Hash32) TapSig) : Refines I (signLeavesCached S msg kp x lhs sigs) (signLeaves S msg' kp x lhs sigs) := by
  induction lhs generalizing sigs with
  | nil => exact refines_lift _
  | cons lh lhs ih => exact refines_bind (hm _) fun a _ => ih _

theorem signKeyPath_refines (hm : ∀ l, Refines I (msg l) (msg' l)) (i : Input L) (x : L.xonly.T) (lhs : List Hash32) (sk : S.SK)
    (sig : Option TapSig) : Refines I (signKeyPathCached S msg i x lhs sk sig) (signKeyPath S msg' i x lhs sk sig) := by
  unfold signKeyPathCached signKeyPath
  cases i.tapInternalKey with
  | none => exact refines_lift _
  | some ik =>
    simp only
    split
    · exact refines_bind (hm _) fun a _ => refines_lift _
    · exact refines_lift _

theorem signScriptPath_refines (hm : ∀ l, Refines I (msg l) (msg' l)) (i : Input L) (x : L.xonly.T) (sk : S.SK)
    (sigs : BMap (L.xonly.T × Hash32) TapSig) : Refines I (signScriptPathCached S msg i x sk sigs) (signScriptPath S msg' i x sk sigs) := by
  unfold signScriptPathCached signScriptPath
  cases i.tapKeyOrigins.get x with
  | none => exact refines_lift _
  | some o =>
    simp only
    split
    · exact refines_lift _
    · exact refines_bind (signLeaves_refines hm _ _ _ _) fun a _ => refines_lift _

theorem schnorrLoop_refines (hm : ∀ l, Refines I (msg l) (msg' l)) (k : Provider S) (i : Input L)
    (ds : List (L.xonly.T × List Hash32 × KeySource)) (sig : Option TapSig) (sigs : BMap (L.xonly.T × Hash32) TapSig)
    (used : List L.xonly.T) : Refines I (schnorrLoopCached S k msg i ds sig sigs used) (schnorrLoop S k msg' i ds sig sigs used) := by
  induction ds generalizing sig sigs used with
  | nil => exact refines_lift _
  | cons d ds ih =>
    obtain ⟨x, lhs, ks⟩ := d
    unfold schnorrLoopCached schnorrLoop
    rcases k (.bip32 ks) with e | _ | sk
    · exact ih _ _ _
    · exact ih _ _ _
    · exact refines_bind (signKeyPath_refines hm _ _ _ _ _) fun a _ =>
        refines_bind (signScriptPath_refines hm _ _ _ _) fun b _ => ih _ _ _
end

theorem bip32SignSchnorr_refines (p : Psbt L) (k : Provider S) (n : Nat) :
    Refines (Kept L tx (· = spentBy p)) (p.bip32SignSchnorrCached S k n) (p.bip32SignSchnorr S k n tx) := by
  unfold Psbt.bip32SignSchnorrCached Psbt.bip32SignSchnorr
  cases p.checkedInput n with
  | error e => cases e <;> exact refines_lift _
  | ok i =>
    simp only
    have := refines_handle (I := Kept L tx (· = spentBy p))
      (f := fun r => match r with
        | .error e => CacheM.lift (.ok (p, .error e))
        | .ok (sig, sigs, used) =>
          CacheM.lift (.ok ({ p with inputs := p.inputs.set n { i with tapKeySig := sig, tapScriptSigs := sigs } }, .ok used)))
      (g := fun r => (match r with
        | .error e => .ok (p, .error e)
        | .ok (sig, sigs, used) =>
          .ok ({ p with inputs := p.inputs.set n { i with tapKeySig := sig, tapScriptSigs := sigs } }, .ok used) :
            Out Empty (Psbt L × Except SignErr (List L.xonly.T))))
      (schnorrLoop_refines (S := S) (fun l => sighashTaproot_refines (tx := tx) p n l) k i i.tapKeyOrigins.l i.tapKeySig i.tapScriptSigs [])
      (fun r => by cases r <;> exact refines_lift _)
    refine Eq.mp ?_ this
    congr 1
    cases schnorrLoop S k (p.sighashTaproot n tx) i i.tapKeyOrigins.l i.tapKeySig i.tapScriptSigs [] with
    | error e => cases e <;> rfl
    | ok r => rfl

theorem signStep_refines (hd : Spec.DoubleHash L) (k : Provider S) (s : Signing L) (n : Nat) :
    Refines (Kept L tx (· = spentBy s.psbt)) (signStepCached S k s n) (signStep S k tx s n) := by
  unfold signStepCached signStep
  cases s.psbt.signingAlgorithm n with
  | error e => cases e <;> exact refines_lift _
  | ok a =>
    cases a with
    | ecdsa =>
      have := refines_bind (bip32SignEcdsa_refines (tx := tx) (P := (· = spentBy s.psbt)) hd s.psbt k n)
        (f := fun r => match r with
          | (p, .ok v) => CacheM.lift (.ok { s with psbt := p, used := s.used.insert n (.ecdsa v) })
          | (p, .error e) => CacheM.lift (.ok { s with psbt := p, errors := s.errors.insert n e }))
        (g := fun r => match r with
          | (p, .ok v) => .ok { s with psbt := p, used := s.used.insert n (.ecdsa v) }
          | (p, .error e) => .ok { s with psbt := p, errors := s.errors.insert n e })
        (fun r _ => by obtain ⟨p, r⟩ := r; cases r <;> exact refines_lift _)
      refine Eq.mp ?_ this
      congr 1
      cases s.psbt.bip32SignEcdsa S k n tx with
      | error e => rfl
      | ok r => obtain ⟨p, r⟩ := r; cases r <;> rfl
    | schnorr =>
      have := refines_bind (bip32SignSchnorr_refines (tx := tx) s.psbt k n)
        (f := fun r => match r with
          | (p, .ok v) => CacheM.lift (.ok { s with psbt := p, used := s.used.insert n (.schnorr v) })
          | (p, .error e) => CacheM.lift (.ok { s with psbt := p, errors := s.errors.insert n e }))
        (g := fun r => match r with
          | (p, .ok v) => .ok { s with psbt := p, used := s.used.insert n (.schnorr v) }
          | (p, .error e) => .ok { s with psbt := p, errors := s.errors.insert n e })
        (fun r _ => by obtain ⟨p, r⟩ := r; cases r <;> exact refines_lift _)
      refine Eq.mp ?_ this
      congr 1
      cases s.psbt.bip32SignSchnorr S k n tx with
      | error e => rfl
      | ok r => obtain ⟨p, r⟩ := r; cases r <;> rfl

theorem signStep_erase {k : Provider S} {s s' : Signing L} {n : Nat} (h : signStep S k tx s n = .ok s') :
    Spec.V0.erase s'.psbt = Spec.V0.erase s.psbt := by
  rw [signStep_eq] at h
  cases ho : outcome S k tx s.psbt n with
  | panic m => rw [ho] at h; cases h
  | fail e => rw [ho] at h; cases h; rfl
  | signed i' keys =>
    rw [ho] at h; cases h
    obtain ⟨i, h1, h2⟩ := outcome_signed ho
    exact erase_set h1 h2

theorem signAll_refines (hd : Spec.DoubleHash L) (k : Provider S) (ns : List Nat) (s : Signing L) :
    Refines (Kept L tx (· = spentBy s.psbt)) (signAllCached S k s ns) (signAll S k tx s ns) := by
  induction ns generalizing s with
  | nil => exact refines_lift _
  | cons n ns ih =>
    have := refines_bind (signStep_refines (tx := tx) hd k s n) (f := fun s => signAllCached S k s ns)
      (g := fun s => signAll S k tx s ns) fun s' h => by
        rw [← spentBy_erase (signStep_erase h)]; exact ih s'
    refine Eq.mp ?_ this
    congr 1
    rw [signAll]
    cases signStep S k tx s n <;> rfl

end V0

namespace V2
variable {S : SigLib L}

theorem bip32SignEcdsa_refines (hd : Spec.DoubleHash L) (p : Psbt L) (k : Provider S) (n : Nat) :
    Refines (Kept L tx P) (p.bip32SignEcdsaCached S k n) (p.bip32SignEcdsa S k n tx) := by
  unfold Psbt.bip32SignEcdsaCached Psbt.bip32SignEcdsa
  have := refines_handle (f := fun r => CacheM.lift (p.signWith S k n r)) (g := fun r => p.signWith S k n r)
    (sighashEcdsa_refines (tx := tx) (P := P) hd p n) fun r => refines_lift _
  refine Eq.mp ?_ this
  congr 1
  cases p.sighashEcdsa n tx with
  | error e => cases e <;> rfl
  | ok m => rfl

theorem signStep_refines (hd : Spec.DoubleHash L) (k : Provider S) (s : Signing L) (n : Nat) :
    Refines (Kept L tx P) (signStepCached S k s n) (signStep S k tx s n) := by
  unfold signStepCached signStep
  cases s.psbt.signingAlgorithm n with
  | error e => cases e <;> exact refines_lift _
  | ok a =>
    cases a with
    | ecdsa =>
      have := refines_bind (bip32SignEcdsa_refines (tx := tx) (P := P) hd s.psbt k n)
        (f := fun r => match r with
          | (p, .ok v) => CacheM.lift (.ok { s with psbt := p, used := s.used.insert n v })
          | (p, .error e) => CacheM.lift (.ok { s with psbt := p, errors := s.errors.insert n e }))
        (g := fun r => match r with
          | (p, .ok v) => .ok { s with psbt := p, used := s.used.insert n v }
          | (p, .error e) => .ok { s with psbt := p, errors := s.errors.insert n e })
        (fun r _ => by obtain ⟨p, r⟩ := r; cases r <;> exact refines_lift _)
      refine Eq.mp ?_ this
      congr 1
      cases s.psbt.bip32SignEcdsa S k n tx with
      | error e => rfl
      | ok r => obtain ⟨p, r⟩ := r; cases r <;> rfl
    | schnorr => exact refines_lift _

theorem signAll_refines (hd : Spec.DoubleHash L) (k : Provider S) (ns : List Nat) (s : Signing L) :
    Refines (Kept L tx P) (signAllCached S k s ns) (signAll S k tx s ns) := by
  induction ns generalizing s with
  | nil => exact refines_lift _
  | cons n ns ih =>
    have := refines_bind (signStep_refines (tx := tx) (P := P) hd k s n) (f := fun s => signAllCached S k s ns)
      (g := fun s => signAll S k tx s ns) fun s' h => ih s'
    refine Eq.mp ?_ this
    congr 1
    rw [signAll]
    cases signStep S k tx s n <;> rfl

end V2

end Psbt
