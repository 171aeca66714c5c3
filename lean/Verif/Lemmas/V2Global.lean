/- The v2 global map as a slot system. -/
import Verif.Lemmas.Kinds
namespace Psbt.V2
open Psbt

/-- The type of each variable. -/
abbrev GlF (L : Lib) : GlSlot → Type
  | .version => Option Version
  | .txVersion => Option UInt32
  | .fallback => Option UInt32
  | .counts => Option UInt64 × Option UInt64
  | .txModifiable => Option UInt8
  | .xpub => BMap L.xpub.T KeySource
  | .spEcdh => BMap L.compressed.T L.compressed.T
  | .spDleq => BMap L.compressed.T (FixedBytes 64)
  | .proprietary => BMap PropKey Bytes
  | .unsignedTx => Unit
  | .unknown => BMap RawKey Bytes

def glGet (L : Lib) : (s : GlSlot) → GlobalAcc L → GlF L s
  | .version, i => i.version
  | .txVersion, i => i.txVersion
  | .fallback, i => i.fallbackLockTime
  | .counts, i => i.counts
  | .txModifiable, i => i.txModifiableFlags
  | .xpub, i => i.xpubs
  | .spEcdh, i => i.spEcdhShares
  | .spDleq, i => i.spDleqProofs
  | .proprietary, i => i.proprietaries
  | .unsignedTx, _ => ()
  | .unknown, i => i.unknowns

def glSet (L : Lib) : (s : GlSlot) → GlF L s → GlobalAcc L → GlobalAcc L
  | .version, f, i => { i with version := f }
  | .txVersion, f, i => { i with txVersion := f }
  | .fallback, f, i => { i with fallbackLockTime := f }
  | .counts, f, i => { i with counts := f }
  | .txModifiable, f, i => { i with txModifiableFlags := f }
  | .xpub, f, i => { i with xpubs := f }
  | .spEcdh, f, i => { i with spEcdhShares := f }
  | .spDleq, f, i => { i with spDleqProofs := f }
  | .proprietary, f, i => { i with proprietaries := f }
  | .unsignedTx, _, i => i
  | .unknown, f, i => { i with unknowns := f }

def glStep (L : Lib) : (s : GlSlot) → GlF L s → Pair → Except InsErr (GlF L s)
  | .version => insVersion
  | .txVersion => insFixed 4 decU32
  | .fallback => insFixed 4 decU32
  | .counts => insCounts
  | .txModifiable => insFixed 1 decU8
  | .xpub => insXpub
  | .spEcdh => insSp L L.compressed.parse 33
  | .spDleq => insSp L dleq? 64
  | .proprietary => insGlobalProp
  | .unsignedTx => fun _ p => .error (.excludedKey p.key.ty)
  | .unknown => insUnknown

/-- A one-byte codec, for the flags. -/
def flagCodec : Codec UInt8 := ⟨fun b => [b], fun _ => .error .noMorePairs⟩

def emitCounts (c : Option UInt64 × Option UInt64) : List Pair :=
  (match c.1 with | none => [] | some n => [bare PSBT_GLOBAL_INPUT_COUNT (encVar n.toNat)]) ++
  (match c.2 with | none => [] | some n => [bare PSBT_GLOBAL_OUTPUT_COUNT (encVar n.toNat)])

def glEmit (L : Lib) : (s : GlSlot) → GlF L s → List Pair
  | .version => emitOpt PSBT_GLOBAL_VERSION versionCodec
  | .txVersion => emitOpt PSBT_GLOBAL_TX_VERSION u32Codec
  | .fallback => emitOpt PSBT_GLOBAL_FALLBACK_LOCKTIME u32Codec
  | .counts => emitCounts
  | .txModifiable => emitOpt PSBT_GLOBAL_TX_MODIFIABLE flagCodec
  | .xpub => fun m => m.l.map (fun kv => ⟨⟨PSBT_GLOBAL_XPUB, kv.1.bytes⟩, keySourceCodec.ser kv.2⟩)
  | .spEcdh => emitSp L PSBT_GLOBAL_SP_ECDH_SHARE Foreign.T.bytes
  | .spDleq => emitSp L PSBT_GLOBAL_SP_DLEQ Subtype.val
  | .proprietary => emitProp
  | .unsignedTx => fun _ => []
  | .unknown => emitUnknown

def glOrder : List GlSlot :=
  [.version, .txVersion, .fallback, .counts, .txModifiable, .xpub, .spEcdh, .spDleq, .proprietary, .unsignedTx,
   .unknown]

theorem glOrder_nodup : glOrder.Nodup := by decide
theorem mem_glOrder (s : GlSlot) : s ∈ glOrder := by cases s <;> decide

def glSys (L : Lib) : SlotSys (GlobalAcc L) GlSlot InsErr where
  F := GlF L
  get := glGet L
  set := glSet L
  get_set s f m := by cases s <;> rfl
  get_set_ne s t f m h := by
    cases t <;> cases s <;> first | rfl | exact absurd rfl h
  ext m m' h := by
    obtain ⟨⟩ := m
    obtain ⟨⟩ := m'
    have h1 := h .version; have h2 := h .txVersion; have h3 := h .fallback; have h4 := h .counts
    have h5 := h .txModifiable; have h6 := h .xpub; have h7 := h .spEcdh; have h8 := h .spDleq
    have h9 := h .proprietary; have h10 := h .unknown
    simp only [glGet] at *
    subst_vars
    rfl
  slotOf p := glSlot L.sp p.key.ty
  step := glStep L

theorem gl_ins (L : Lib) : GlobalAcc.insertPair (L := L) = (glSys L).ins := by
  funext i p
  unfold GlobalAcc.insertPair SlotSys.ins
  simp only [glSys]
  generalize glSlot L.sp p.key.ty = s
  cases s <;> rfl

/-- The variables a given global map comes from. -/
def accOf {L : Lib} (g : Global L) : GlobalAcc L where
  version := some g.version
  txVersion := some g.txVersion
  fallbackLockTime := g.fallbackLockTime
  txModifiableFlags := some g.txModifiableFlags
  counts := (some g.inputCount, some g.outputCount)
  xpubs := g.xpubs
  spEcdhShares := g.spEcdhShares
  spDleqProofs := g.spDleqProofs
  proprietaries := g.proprietaries
  unknowns := g.unknowns

theorem gl_pairs (L : Lib) (g : Global L) : g.getPairs = (glSys L).pairs glOrder (glEmit L) (accOf g) := by
  rfl

theorem finish_accOf {L : Lib} {g : Global L}
    (h : L.sp = true → g.spEcdhShares.isEmpty = g.spDleqProofs.isEmpty) : (accOf g).finish = .ok g := by
  have : ¬ (L.sp = true ∧ g.spEcdhShares.isEmpty ≠ g.spDleqProofs.isEmpty) := fun ⟨h1, h2⟩ => h2 (h h1)
  have h2 : (accOf g).finish = if L.sp = true ∧ g.spEcdhShares.isEmpty ≠ g.spDleqProofs.isEmpty then
      .error .fieldMismatch else .ok g := rfl
  rw [h2, if_neg this]

/-- What each variable of the decoder satisfies. -/
def GlInv (L : Lib) : (s : GlSlot) → GlF L s → Prop
  | .version => fun f => (∀ p ∈ glEmit L .version f, PairFits p) ∧ ∀ v, f = some v → v = V2
  | .spEcdh => fun f => (∀ p ∈ glEmit L .spEcdh f, PairFits p) ∧ (L.sp = false → f = BMap.empty)
  | .spDleq => fun f => (∀ p ∈ glEmit L .spDleq f, PairFits p) ∧ (L.sp = false → f = BMap.empty)
  | .proprietary => fun f => (∀ p ∈ glEmit L .proprietary f, PairFits p) ∧ ∀ k v, f.get k = some v → PropFits k
  | .unsignedTx => fun f => f = ()
  | .unknown => fun f =>
    (∀ p ∈ glEmit L .unknown f, PairFits p) ∧ ∀ k v, f.get k = some v → glSlot L.sp k.ty = .unknown
  | s => fun f => ∀ p ∈ glEmit L s f, PairFits p

def parseFixed {α : Type} (n : Nat) (read : Bytes → Except CErr (α × Bytes)) (p : Pair) : Option α :=
  if p.key.key = [] ∧ p.value.length = n then
    (match read p.value with | .ok (v, _) => some v | .error _ => none)
  else none

theorem parseFixed_some {α : Type} {n : Nat} {read : Bytes → Except CErr (α × Bytes)} {p : Pair} {v : α} :
    parseFixed n read p = some v ↔ p.key.key = [] ∧ p.value.length = n ∧ ∃ r, read p.value = .ok (v, r) := by
  unfold parseFixed
  split
  · rename_i h
    cases hr : read p.value with
    | error e => simp
    | ok x => obtain ⟨a, r⟩ := x; simp [h]
  · rename_i h
    simp only [reduceCtorEq, false_iff]
    rintro ⟨h1, h2, _⟩; exact h ⟨h1, h2⟩

theorem isOpt_fixed {α : Type} (n : Nat) (read : Bytes → Except CErr (α × Bytes)) (isSlot : Pair → Prop) :
    IsOpt isSlot (insFixed n read) (parseFixed n read) := by
  intro o p o' _
  simp only [parseFixed_some, insFixed]
  split
  · rename_i hk
    cases o with
    | some w => simp
    | none =>
      simp only [true_and]
      split
      · rename_i hl
        constructor
        · intro h; cases h
        · rintro ⟨v, ⟨_, h2, _⟩, _⟩; exact absurd h2 hl
      · rename_i hl
        simp only [ne_eq, Decidable.not_not] at hl
        simp only [bind_ok, mapErr_ok]
        constructor
        · rintro ⟨⟨v, r⟩, h1, h2⟩
          cases h2
          exact ⟨v, ⟨hk, hl, r, h1⟩, rfl⟩
        · rintro ⟨v, ⟨_, _, r, h1⟩, rfl⟩
          exact ⟨(v, r), h1, rfl⟩
  · rename_i hk; simp [hk]

def parseVersion (p : Pair) : Option Version := if parseFixed 4 decU32 p = some 2 then some V2 else none

theorem parseVersion_some {p : Pair} {v : Version} :
    parseVersion p = some v ↔ (p.key.key = [] ∧ p.value.length = 4 ∧ ∃ r, decU32 p.value = .ok (2, r)) ∧ v = V2 := by
  unfold parseVersion
  split
  · rename_i h
    rw [parseFixed_some] at h
    simp only [Option.some.injEq, h, true_and]
    exact eq_comm
  · rename_i h
    rw [parseFixed_some] at h
    simp [h]

theorem isOpt_version (isSlot : Pair → Prop) : IsOpt isSlot insVersion parseVersion := by
  intro o p o' _
  simp only [parseVersion_some, insVersion]
  split
  · rename_i hk
    cases o with
    | some w => simp
    | none =>
      simp only [true_and]
      split
      · rename_i hl
        simp [hl]
      · rename_i hl
        simp only [ne_eq, Decidable.not_not] at hl
        simp only [bind_ok, mapErr_ok]
        constructor
        · rintro ⟨⟨v, r⟩, h1, h2⟩
          split at h2
          · cases h2
          · rename_i hv
            simp only [ne_eq, Decidable.not_not] at hv
            cases h2
            exact ⟨V2, ⟨⟨hk, hl, r, by rw [h1, hv]⟩, rfl⟩, rfl⟩
        · rintro ⟨v, ⟨⟨_, _, r, hr⟩, rfl⟩, rfl⟩
          exact ⟨(2, r), hr, by simp⟩
  · rename_i hk; simp [hk]

theorem decU8_cons (b : UInt8) (r : Bytes) : decU8 (b :: r) = .ok (b, r) := by
  rfl

theorem lawful_fixed32 (t : UInt8) {isSlot : Pair → Prop} (hs : ∀ v, isSlot (bare t v)) :
    LawfulSlot isSlot (insFixed 4 decU32) none (emitOpt t u32Codec) (fun o => ∀ p ∈ emitOpt t u32Codec o, PairFits p) := by
  refine LawfulSlot.congr ((isOpt_fixed 4 decU32 isSlot).lawful (emit1 := fun v => bare t (u32Codec.ser v))
    (emit := emitOpt t u32Codec) (Extra := fun _ => True) rfl (fun _ => rfl) ?_ ?_) (by simp)
  · intro p v _ _ _
    exact ⟨pairFits_bare_short _ (by rw [u32_ser_length]; decide), trivial⟩
  · intro v _ _
    refine ⟨hs _, parseFixed_some.mpr ⟨rfl, u32_ser_length v, [], ?_⟩⟩
    have := decU32_enc v []
    rw [List.append_nil] at this
    exact this

theorem lawful_flag (t : UInt8) {isSlot : Pair → Prop} (hs : ∀ v, isSlot (bare t v)) :
    LawfulSlot isSlot (insFixed 1 decU8) none (emitOpt t flagCodec) (fun o => ∀ p ∈ emitOpt t flagCodec o, PairFits p) := by
  refine LawfulSlot.congr ((isOpt_fixed 1 decU8 isSlot).lawful (emit1 := fun v => bare t [v])
    (emit := emitOpt t flagCodec) (Extra := fun _ => True) rfl (fun _ => rfl) ?_ ?_) (by simp)
  · intro p v _ _ _
    exact ⟨pairFits_bare_short _ (by simp), trivial⟩
  · intro v _ _
    exact ⟨hs _, parseFixed_some.mpr ⟨rfl, rfl, [], decU8_cons v []⟩⟩

theorem version_ser (v : Version) : versionCodec.ser v = encU32 v := rfl

theorem lawful_glVersion (t : UInt8) {isSlot : Pair → Prop} (hs : ∀ v, isSlot (bare t v)) :
    LawfulSlot isSlot insVersion none (emitOpt t versionCodec)
      (fun o => (∀ p ∈ emitOpt t versionCodec o, PairFits p) ∧ ∀ v, o = some v → v = V2) := by
  refine (isOpt_version isSlot).lawful (emit1 := fun v => bare t (versionCodec.ser v))
    (emit := emitOpt t versionCodec) (Extra := fun v => v = V2) rfl (fun _ => rfl) ?_ ?_
  · intro p v _ _ h
    rw [parseVersion_some] at h
    · obtain ⟨_, rfl⟩ := h
      exact ⟨pairFits_bare_short _ (by rw [version_ser]; rw [show (encU32 V2).length = 4 from leEnc_length _ _]; decide), rfl⟩
  · intro v _ hv
    subst hv
    refine ⟨hs _, ?_⟩
    refine parseVersion_some.mpr ⟨⟨rfl, leEnc_length _ _, [], ?_⟩, rfl⟩
    have := decU32_enc 2 []
    rw [List.append_nil] at this
    exact this

theorem encVar_length_le9 (n : Nat) : (encVar n).length ≤ 9 := by
  unfold encVar
  repeat' split
  all_goals simp [leEnc_length]

theorem emitCounts_fits (c : Option UInt64 × Option UInt64) : ∀ p ∈ emitCounts c, PairFits p := by
  intro p hp
  simp only [emitCounts, List.mem_append] at hp
  rcases hp with hp | hp
  · split at hp
    · cases hp
    · simp only [List.mem_singleton] at hp; subst hp
      exact pairFits_bare_short _ (Nat.le_trans (encVar_length_le9 _) (by decide))
  · split at hp
    · cases hp
    · simp only [List.mem_singleton] at hp; subst hp
      exact pairFits_bare_short _ (Nat.le_trans (encVar_length_le9 _) (by decide))

theorem decVar_encVar (n : UInt64) : decVar (encVar n.toNat) = .ok (n.toNat, []) := by
  have := decVar_enc (n := n.toNat) n.toNat_lt []
  simpa using this

theorem insCounts_in (o : Option UInt64) (n : UInt64) :
    insCounts (o, none) (bare PSBT_GLOBAL_INPUT_COUNT (encVar n.toNat)) = .ok (some n, none) := by
  simp [insCounts, bare, decVar_encVar, mapErr_of_ok, ok_bind]

theorem insCounts_out (o : Option UInt64) (n : UInt64) :
    insCounts (o, none) (bare PSBT_GLOBAL_OUTPUT_COUNT (encVar n.toNat)) = .ok (o, some n) := by
  simp [insCounts, bare, decVar_encVar, mapErr_of_ok, ok_bind, PSBT_GLOBAL_INPUT_COUNT, PSBT_GLOBAL_OUTPUT_COUNT]

theorem lawful_counts {isSlot : Pair → Prop} (hs1 : ∀ v, isSlot (bare PSBT_GLOBAL_INPUT_COUNT v))
    (hs2 : ∀ v, isSlot (bare PSBT_GLOBAL_OUTPUT_COUNT v)) :
    LawfulSlot isSlot insCounts (none, none) emitCounts (fun f => ∀ p ∈ emitCounts f, PairFits p) where
  inv_init := emitCounts_fits _
  inv_step f p f' _ _ _ _ := emitCounts_fits _
  emit_fits f h := h
  emit_slot f _ p hp := by
    simp only [emitCounts, List.mem_append] at hp
    rcases hp with hp | hp
    · split at hp
      · cases hp
      · simp only [List.mem_singleton] at hp; subst hp; exact hs1 _
    · split at hp
      · cases hp
      · simp only [List.mem_singleton] at hp; subst hp; exact hs2 _
  rt f _ := by
    obtain ⟨a, b⟩ := f
    cases a <;> cases b <;>
      simp [emitCounts, List.foldlM_cons, insCounts_in, insCounts_out, ok_bind, pure, Except.pure]

/-! ### Extended public keys -/

theorem readPath_of_decPath {b : Bytes} {p : List UInt32} (h : decPath b = .ok p) : readPath b = p := by
  fun_induction decPath b generalizing p with
  | case1 => cases h; rfl
  | case2 a b c d r ih =>
    simp only [bind_ok] at h
    obtain ⟨q, h1, h2⟩ := h
    cases h2
    rw [readPath, ih h1]
  | case3 => cases h

theorem decPath_readPath {b : Bytes} (h : b.length % 4 = 0) : decPath b = .ok (readPath b) := by
  fun_induction readPath b with
  | case1 a b c d r ih =>
    rw [decPath, ih (by simp only [List.length_cons] at h; omega)]; rfl
  | case2 b hb =>
    match b with
    | [] => rfl
    | [_] => simp at h
    | [_, _] => simp at h
    | [_, _, _] => simp at h
    | a :: b :: c :: d :: r => exact absurd rfl (hb a b c d r)

def parseXpub (L : Lib) (p : Pair) : Option (L.xpub.T × KeySource) :=
  match L.xpub.parse p.key.key, keySourceCodec.deser p.value with
  | some k, .ok v => some (k, v)
  | _, _ => none

theorem parseXpub_some {L : Lib} {p : Pair} {k : L.xpub.T} {v : KeySource} :
    parseXpub L p = some (k, v) ↔ L.xpub.parse p.key.key = some k ∧ keySourceCodec.deser p.value = .ok v := by
  unfold parseXpub
  cases L.xpub.parse p.key.key <;> cases keySourceCodec.deser p.value <;> simp

theorem keySource_deser_iff {b : Bytes} {k : KeySource} :
    keySourceCodec.deser b = .ok k ↔
      ∃ h : 4 ≤ b.length, b.length % 4 = 0 ∧
        k = (⟨b.take 4, by simp; omega⟩, readPath (b.drop 4)) := by
  constructor
  · intro h
    have he := keySource_exact h
    simp only [keySourceCodec] at h
    split at h
    · cases h
    · rename_i hl
      simp only [bind_ok, mapErr_ok] at h
      obtain ⟨p, h1, h2⟩ := h
      cases h2
      refine ⟨by omega, ?_, by rw [readPath_of_decPath h1]⟩
      have := decPath_ok h1
      have h3 : (b.drop 4).length = 4 * p.length := by
        rw [this]
        clear h1 he this
        induction p with
        | nil => rfl
        | cons a p ih =>
          simp only [List.flatMap_cons, List.length_append, ih, List.length_cons,
            show (encU32 a).length = 4 from leEnc_length _ _]
          omega
      simp only [List.length_drop] at h3
      omega
  · rintro ⟨h1, h2, rfl⟩
    simp only [keySourceCodec]
    rw [dif_neg (by omega)]
    rw [decPath_readPath (by simp only [List.length_drop]; omega)]
    rfl

theorem isKeyed_xpub (L : Lib) (isSlot : Pair → Prop) : IsKeyed isSlot (insXpub (L := L)) (parseXpub L) := by
  intro m p m' _
  simp only [parseXpub_some, insXpub, keySource_deser_iff]
  split
  · rename_i hk
    rw [hk, Foreign.parse_nil]; simp
  · cases hx : L.xpub.parse p.key.key with
    | none => simp
    | some x =>
      simp only [Option.some.injEq]
      split
      · rename_i hv
        constructor
        · intro h; cases h
        · rintro ⟨k, v, ⟨_, h1, _⟩, _⟩
          rw [hv] at h1; simp at h1
      · split
        · rename_i hl
          constructor
          · intro h; cases h
          · rintro ⟨k, v, ⟨_, h1, _⟩, _⟩; omega
        · split
          · rename_i hl
            constructor
            · intro h; cases h
            · rintro ⟨k, v, ⟨_, h1, h2, _⟩, _⟩; exact absurd h2 hl
          · rename_i h1 h2
            simp only [ne_eq, Decidable.not_not] at h2
            constructor
            · intro h
              split at h
              · cases h
              · rename_i hn
                cases h
                exact ⟨x, _, ⟨rfl, by omega, h2, rfl⟩, hn, rfl⟩
            · rintro ⟨k, v, ⟨rfl, _, _, rfl⟩, h3, rfl⟩
              simp only [h3]

theorem parseXpub_key {L : Lib} :
    ∀ p q k v k' v', parseXpub L p = some (k, v) → parseXpub L q = some (k', v') → p.key = q.key → k = k' := by
  intro p q k v k' v' h1 h2 h3
  rw [parseXpub_some] at h1 h2
  rw [h3, h2.1] at h1
  cases h1.1; rfl

theorem lawful_xpub (L : Lib) {isSlot : Pair → Prop} (hs : ∀ k v, isSlot ⟨⟨PSBT_GLOBAL_XPUB, k⟩, v⟩) :
    LawfulSlot isSlot (insXpub (L := L)) BMap.empty
      (fun m => m.l.map (fun kv => (⟨⟨PSBT_GLOBAL_XPUB, kv.1.bytes⟩, keySourceCodec.ser kv.2⟩ : Pair)))
      (fun m => ∀ p ∈ m.l.map (fun kv => (⟨⟨PSBT_GLOBAL_XPUB, kv.1.bytes⟩, keySourceCodec.ser kv.2⟩ : Pair)),
        PairFits p) := by
  refine LawfulSlot.congr ((isKeyed_xpub L isSlot).lawful
    (emit1 := fun kv => ⟨⟨PSBT_GLOBAL_XPUB, kv.1.bytes⟩, keySourceCodec.ser kv.2⟩) (fun _ => rfl)
    (Extra := fun _ _ => True) ?_ ?_) (fun f => and_iff_left (fun _ _ _ => trivial))
  · intro p k v hp _ h
    rw [parseXpub_some] at h
    refine ⟨⟨Nat.le_trans (Foreign.bytes_length_le h.1) hp.1, ?_⟩, trivial⟩
    rw [← keySource_exact h.2]; exact hp.2
  · intro k v _ _
    exact ⟨hs _ _, parseXpub_some.mpr ⟨Foreign.parse_bytes _ _, keySource_rt v⟩⟩

/-! ### Proprietary -/

theorem toKey_key_ne (k : PropKey) : k.toKey.key ≠ [] := by
  simp [PropKey.toKey, encProp]

theorem isKeyed_glProp (isSlot : Pair → Prop) : IsKeyed isSlot insGlobalProp parseProp := by
  intro m p m' _
  simp only [parseProp_some, insGlobalProp]
  split
  · rename_i hk
    constructor
    · intro h; cases h
    · rintro ⟨k, v, ⟨h1, _⟩, _⟩
      have := (PropKey.ofKey_ok h1).1
      rw [this] at hk
      exact absurd hk (toKey_key_ne k)
  · simp only [bind_ok, mapErr_ok]
    constructor
    · rintro ⟨k, h1, h2⟩
      split at h2
      · rename_i hn
        cases h2
        exact ⟨k, p.value, ⟨h1, rfl⟩, hn, rfl⟩
      · cases h2
    · rintro ⟨k, v, ⟨h1, rfl⟩, h3, rfl⟩
      exact ⟨k, h1, by simp only [h3]⟩

theorem gl_no_sp : ∀ t : UInt8, glSlot false t ≠ .spEcdh ∧ glSlot false t ≠ .spDleq :=
  forall_u8 (by decide +kernel)

theorem gl_lawful (L : Lib) (s : GlSlot) :
    LawfulSlot (fun p => (glSys L).slotOf p = s) ((glSys L).step s) ((glSys L).get s (GlobalAcc.start L))
      (glEmit L s) (GlInv L s) := by
  have hk : ∀ t s', t ≠ PSBT_GLOBAL_SP_ECDH_SHARE → t ≠ PSBT_GLOBAL_SP_DLEQ → glSlot false t = s' →
      ∀ k v, (glSys L).slotOf ⟨⟨t, k⟩, v⟩ = s' := by
    intro t s' h1 h2 h k v
    simp only [glSys]
    rw [← h]; unfold glSlot; simp [h1, h2]
  have hb : ∀ t s', t ≠ PSBT_GLOBAL_SP_ECDH_SHARE → t ≠ PSBT_GLOBAL_SP_DLEQ → glSlot false t = s' →
      ∀ v, (glSys L).slotOf (bare t v) = s' := fun t s' h1 h2 h v => hk t s' h1 h2 h [] v
  cases s with
  | version => exact lawful_glVersion _ (hb _ _ (by decide) (by decide) (by decide))
  | txVersion => exact lawful_fixed32 _ (hb _ _ (by decide) (by decide) (by decide))
  | fallback => exact lawful_fixed32 _ (hb _ _ (by decide) (by decide) (by decide))
  | counts =>
    exact lawful_counts (hb _ _ (by decide) (by decide) (by decide)) (hb _ _ (by decide) (by decide) (by decide))
  | txModifiable => exact lawful_flag _ (hb _ _ (by decide) (by decide) (by decide))
  | xpub => exact lawful_xpub L (hk _ _ (by decide) (by decide) (by decide))
  | spEcdh =>
    exact lawful_insSp L 33 (fun b v h => Foreign.bytes_length_le h) (Foreign.parse_bytes _) _
      (fun h k v => by simp only [glSys, h]; decide) (fun h p e => (gl_no_sp p.key.ty).1 (by rw [← h]; exact e))
  | spDleq =>
    exact lawful_insSp L 64 (fun b v h => by rw [dleq?_some] at h; rw [h]; exact Nat.le_refl _)
      (fun v => dleq?_some.mpr rfl) _
      (fun h k v => by simp only [glSys, h]; decide) (fun h p e => (gl_no_sp p.key.ty).2 (by rw [← h]; exact e))
  | proprietary => exact lawful_prop (isKeyed_glProp _) (hk _ _ (by decide) (by decide) (by decide))
  | unsignedTx => exact lawful_never (fun f p f' _ h => by cases h)
  | unknown => exact lawful_unknown (isT := fun t => glSlot L.sp t = .unknown)

theorem gl_comm (L : Lib) (s : GlSlot) (h : s ≠ .counts) :
    CommSlot (fun p => True ∧ (glSys L).slotOf p = s) ((glSys L).step s) := by
  cases s with
  | version => exact (isOpt_version _).comm
  | txVersion => exact (isOpt_fixed _ _ _).comm
  | fallback => exact (isOpt_fixed _ _ _).comm
  | counts => exact absurd rfl h
  | txModifiable => exact (isOpt_fixed _ _ _).comm
  | xpub => exact (isKeyed_xpub _ _).comm parseXpub_key
  | spEcdh => exact (isKeyed_insSp _ _ _ _).comm parseSp_key
  | spDleq => exact (isKeyed_insSp _ _ _ _).comm parseSp_key
  | proprietary => exact (isKeyed_glProp _).comm parseProp_key
  | unsignedTx => exact comm_never (fun f p f' _ h => by cases h)
  | unknown => exact (isKeyed_insUnknown _).comm parseUnknown_key

end Psbt.V2
