/- C109: the cause of a failure can be seen. -/
import Verif.Spec.ReportCause
import Verif.Props.Report
import Verif.Lemmas.Serde
import Std.Data.String.ToNat
namespace Psbt
open Psbt.Spec
variable {L : Lib} (T : MoreTexts L)

theorem occurs_self (r : String) : Occurs r r := ⟨"", "", by simp⟩
theorem Spec.Occurs.left {r m : String} (a : String) (h : Occurs r m) : Occurs r (a ++ m) := by
  obtain ⟨x, y, rfl⟩ := h
  exact ⟨a ++ x, y, by simp only [String.append_assoc]⟩
theorem Spec.Occurs.right {r m : String} (a : String) (h : Occurs r m) : Occurs r (m ++ a) := by
  obtain ⟨x, y, rfl⟩ := h
  exact ⟨x, y ++ a, by simp only [String.append_assoc]⟩

theorem Spec.Explained.plain (m : String) : Explained (.plain m) :=
  ⟨m, rfl, ⟨[m], chain_plain m, m, by simp, occurs_self m⟩, m, rfl, occurs_self m⟩
theorem Spec.Explained.because {e : Failure} (m : String) (h : Explained e) : Explained (.because m e) := by
  obtain ⟨r, h1, ⟨ms, h2, s, h3, h4⟩, t, h5, h6⟩ := h
  exact ⟨r, h1, ⟨m :: ms, chain_because h2, s, List.mem_cons_of_mem _ h3, h4⟩, m ++ ": " ++ t, by
    simp only [Failure.display, h5, Bool.false_eq_true, if_false]; rfl, h6.left _⟩
theorem Spec.Explained.inside (m r : String) : Explained (.inside m (.plain r)) :=
  ⟨r, rfl, ⟨_, .next rfl rfl (chain_plain r), r, by simp, occurs_self r⟩, _, rfl, (occurs_self r).left _⟩
theorem Spec.Explained.quoting (m r : String) : Explained (.quoting m (.plain r)) :=
  ⟨r, rfl, ⟨[m ++ r], .last rfl rfl, m ++ r, by simp, (occurs_self r).left m⟩, _, rfl, (occurs_self r).left _⟩

theorem chain_dropping {m : String} {e : Failure} {ms} : Chain (.dropping m e) ms ↔ ms = [m] := by
  constructor
  · rintro (⟨h, -⟩ | ⟨-, h, -⟩)
    · injection h with h; subst h; rfl
    · cases h
  · rintro rfl; exact .last rfl rfl

theorem chain_because_inv {m : String} {e : Failure} {ms} (h : Chain (.because m e) ms) : ∃ l, ms = m :: l ∧ Chain e l := by
  rcases h with ⟨-, h⟩ | ⟨h1, h2, h3⟩
  · cases h
  · cases h1; cases h2; exact ⟨_, rfl, h3⟩

/-- All the texts of other crates are the same, and not one of those of this crate. -/
def sharp (L : Lib) : MoreTexts L where
  base64 := "#"
  segwitV0Sighash := "#"
  p2wpkh _ := "#"
  interp _ := "#"
  keyErr := "#"
  miniscript := "#"
  nonStandard := "#"
  xpub _ := "#"
  pubkey _ := "#"
  ecdsaTy _ := "#"
  script _ := "#"
  scriptHex _ := "#"
  version _ := "#"
  txVersion _ := "#"
  txid _ := "#"
  amount _ := "#"
  feeRate _ := "#"
  consensus _ := "#"
  hash := "#"
  publicKey := "#"
  secpPublicKey := "#"
  ecdsaSig := "#"
  tapSig := "#"
  tapTree := "#"
  lockTime _ := "#"
  io := "#"
  bip32 := "#"
  keySource _ := "#"
  xpubBytes _ := "#"
  txidOf _ := "#"
  taproot _ := "#"
  conversion _ := "#"
  preimage := "#"
  image := "#"
  xpubKey := "#"
  psbtVersion := "#"

/-- The cause is not in what one gets by following the sources. -/
def Hidden (e : Failure) : Prop := root e = some "#" ∧ ∀ ms, Chain e ms → ∀ m ∈ ms, '#' ∉ m.toList

theorem Hidden.not {e : Failure} (h : Hidden e) : ¬ Explained e := by
  rintro ⟨r, h1, ⟨ms, h2, m, h3, a, b, rfl⟩, -⟩
  obtain rfl : "#" = r := by rw [h.1] at h1; injection h1
  refine h.2 ms h2 _ h3 ?_
  simp

theorem Hidden.because {e : Failure} (h : Hidden e) {m : String} (hm : '#' ∉ m.toList) : Hidden (.because m e) := by
  refine ⟨h.1, fun ms hc => ?_⟩
  obtain ⟨l, rfl, hl⟩ := chain_because_inv hc
  intro s hs
  rcases List.mem_cons.mp hs with rfl | hs
  · exact hm
  · exact h.2 l hl s hs

theorem Hidden.dropping {m : String} (hm : '#' ∉ m.toList) : Hidden (.dropping m (.plain "#")) :=
  ⟨rfl, fun ms hc => by rw [chain_dropping.mp hc]; simpa using hm⟩

theorem ser_explained {e : SerErr} (h : e ∉ unsourced) : Explained (e.failure T) := by
  cases e <;> first
    | exact .plain _
    | exact (Explained.plain _).because _
    | exact absurd (by simp [unsourced]) h

theorem ser_hidden {e : SerErr} (h : e ∈ unsourced) : Hidden (e.failure (sharp L)) := by
  simp only [unsourced, List.mem_cons, List.not_mem_nil, or_false] at h
  rcases h with rfl | rfl | rfl | rfl | rfl <;> exact .dropping (by decide)

/-- C109 fails for five failures to parse a value of a PSBT v2, and holds for the others. -/
theorem C109_value_iff (L : Lib) (e : SerErr) : (∀ T : MoreTexts L, Explained (e.failure T)) ↔ e ∉ unsourced :=
  ⟨fun h he => (ser_hidden he).not (h _), fun h T => ser_explained T h⟩

/-- … and with `std` these five look the same whatever the cause is, while without `std` the cause is in the message. -/
theorem C109_value_counterexample {e : SerErr} (h : e ∈ unsourced) : ∃ m : String,
    (∀ (L : Lib) (T : MoreTexts L), (∀ ms, Chain (e.failure T) ms ↔ ms = [m]) ∧
      ∃ r s, root (e.failure T) = some r ∧ (e.failure T).display false = .ok s ∧ Occurs r s) := by
  simp only [unsourced, List.mem_cons, List.not_mem_nil, or_false] at h
  rcases h with rfl | rfl | rfl | rfl | rfl <;>
    exact ⟨_, fun L T => ⟨fun _ => chain_dropping, _, _, rfl, rfl, (occurs_self _).left _⟩⟩

theorem ins_explained {e : InsErr} (m : MapKind) (h : ∀ s ∈ unsourced, e ≠ .deser s) : Explained (e.failure T m) := by
  cases e with
  | deser s => exact (ser_explained T (fun hs => h s hs rfl)).because _
  | consensus => exact (Explained.plain _).because _
  | bip32 => exact (Explained.plain _).because _
  | hashPreimage => exact (Explained.plain _).because _
  | valueWrongLength => simp only [InsErr.failure]; split <;> exact Explained.plain _
  | _ => exact .plain _

theorem ins_hidden {e : InsErr} (m : MapKind) {s : SerErr} (hs : s ∈ unsourced) (h : e = .deser s) :
    Hidden (e.failure (sharp L) m) := by
  subst h; exact (ser_hidden hs).because (by decide)

/-- C109. The same for the error of inserting a pair, … -/
theorem C109_pair_iff (L : Lib) (m : MapKind) (e : InsErr) :
    (∀ T : MoreTexts L, Explained (e.failure T m)) ↔ ∀ s ∈ unsourced, e ≠ .deser s :=
  ⟨fun h _ hs he => (ins_hidden m hs he).not (h _), fun h T => ins_explained T m h⟩

/-- … and for that of decoding a map. -/
theorem C109_map_iff (L : Lib) (m : MapKind) (e : DecErr) :
    (∀ T : MoreTexts L, Explained (e.failure T m)) ↔ ∀ s ∈ unsourced, e ≠ .insertPair (.deser s) ∧ e ≠ .deserPair s := by
  constructor
  · intro h s hs
    constructor <;> rintro rfl
    · exact ((ins_hidden m hs rfl).because (by cases m <;> decide)).not (h (sharp L))
    · exact ((ser_hidden hs).because (by cases m <;> decide)).not (h (sharp L))
  · intro h T
    cases e with
    | insertPair e => exact (ins_explained T m (fun s hs he => (h s hs).1 (by rw [he]))).because _
    | deserPair e => exact (ser_explained T (fun hs => (h e hs).2 rfl)).because _
    | _ => exact .plain _

theorem hexLower_inj {a b : Nat} (ha : a < 16) (hb : b < 16) (h : hexLower a = hexLower b) : a = b := by
  have h1 := hexVal_digit ⟨a, ha⟩
  have h2 := hexVal_digit ⟨b, hb⟩
  simp only [h] at h1
  rw [h1] at h2
  injection h2
theorem hexLower_ne_comma {a : Nat} (ha : a < 16) : ',' ≠ hexLower a := by
  intro h
  have h1 := hexVal_digit ⟨a, ha⟩
  simp only [← h] at h1
  cases h1

/-- C109. A key in a message can be told from every other. -/
theorem C109_key_text {k k' : RawKey} (h : k.text = k'.text) : k = k' := by
  have hk : k.ty.toNat < 256 := k.ty.toNat_lt
  have hk' : k'.ty.toNat < 256 := k'.ty.toNat_lt
  have h0 := congrArg String.toList h
  simp only [RawKey.text, String.toList_append, String.toList_ofList, List.append_assoc] at h0
  have h1 := List.append_cancel_left h0
  have hc : ", key: ".toList = ',' :: " key: ".toList := by decide
  rw [hc] at h1
  have key : ∀ x y : String, ',' :: " key: ".toList ++ x.toList = ',' :: " key: ".toList ++ y.toList → x = y := fun x y hxy =>
    String.toList_inj.mp (List.append_cancel_left hxy)
  have hex : toHex k.key = toHex k'.key → k.key = k'.key := fun hh => by
    have := fromHex_toHex k.key
    rw [hh, fromHex_toHex] at this
    injection this with this
    exact this.symm
  have ty : k.ty.toNat = k'.ty.toNat → k.ty = k'.ty := UInt8.toNat.inj
  have fin : k.ty = k'.ty → k.key = k'.key → k = k' := by
    cases k; cases k'; rintro rfl rfl; rfl
  split at h1 <;> rename_i c <;> split at h1 <;> rename_i c'
  · simp only [List.cons_append, List.nil_append, List.cons.injEq] at h1
    refine fin (ty (hexLower_inj c c' h1.1)) (hex (key _ _ ?_))
    simp only [List.cons_append, List.cons.injEq]; exact h1.2
  · simp only [List.cons_append, List.nil_append, List.cons.injEq] at h1
    exact absurd h1.2.1 (hexLower_ne_comma (by omega))
  · simp only [List.cons_append, List.nil_append, List.cons.injEq] at h1
    exact absurd h1.2.1.symm (hexLower_ne_comma (by omega))
  · simp only [List.cons_append, List.nil_append, List.cons.injEq] at h1
    have e1 := hexLower_inj (by omega) (by omega) h1.1
    have e2 := hexLower_inj (by omega) (by omega) h1.2.1
    refine fin (ty (by omega)) (hex (key _ _ ?_))
    simp only [List.cons_append, List.cons.injEq]; exact h1.2.2

namespace V2

/-- C109 fails for preimages in PSBT v2: the message does not say which of the four hash functions. -/
theorem C109_preimage_counterexample {i : Input L} {p q : Pair} {t t' : HashTy} (_ : i.insertPair p = .error (.hashPreimage t))
    (_ : i.insertPair q = .error (.hashPreimage t')) (std : Bool) :
    ((InsErr.hashPreimage t).failure T .input).source = .ok (some (preimageFailure T t)) ∧
      (preimageFailure T t).display std = (preimageFailure T t').display std :=
  ⟨rfl, rfl⟩

/-- C109 fails for the extended keys of PSBT v2: of a value without bytes it is said that the key should have none (it should;
without them the message is the other one), and of a value too short for a fingerprint that there is something wrong with the path. -/
theorem C109_xpub_counterexample (g : GlobalAcc L) (p : Pair) (hty : p.key.ty = 0x01) :
    (p.key.key = [] → g.insertPair p = .error (.invalidKeyDataEmpty p.key)) ∧
    (∀ x, p.key.key ≠ [] → L.xpub.parse p.key.key = some x → p.value = [] →
      ∃ e, g.insertPair p = .error e ∧ ∀ std, (e.failure T .global).display std = .ok ("key should not contain data: " ++ p.key.text)) ∧
    (∀ x, p.key.key ≠ [] → L.xpub.parse p.key.key = some x → p.value ≠ [] → p.value.length < 4 →
      ∃ e, g.insertPair p = .error e ∧
        ∀ std, (e.failure T .global).display std = .ok "PSBT_GLOBAL_XPUB: derivation path must be a list of 32 byte varints") := by
  have hs : glSlot L.sp 1 = .xpub := by generalize L.sp = b; cases b <;> rfl
  have hins : g.insertPair p = (do let f ← insXpub g.xpubs p; .ok { g with xpubs := f }) := by
    unfold GlobalAcc.insertPair; rw [hty, hs]
  rw [hins]
  refine ⟨fun h => by simp [insXpub, h, Bind.bind, Except.bind], fun x h1 h2 h3 => ⟨.invalidKeyDataNotEmpty p.key, by simp [insXpub, h1, h2, h3, Bind.bind, Except.bind], fun _ => rfl⟩,
    fun x h1 h2 h3 h4 => ⟨.xpubInvalidFingerprint, by simp [insXpub, h1, h2, h3, h4, Bind.bind, Except.bind], fun _ => rfl⟩⟩

theorem ms_explained (e : MsInputErr L) : Explained (e.failure T.toTexts) := by
  cases e <;> first | exact .plain _ | exact .inside _ _ | exact .quoting _ _

/-- C109. What the roles of PSBT v2 report has its cause. -/
theorem C109_roles : (∀ e : NotModifiable, Explained e.failure) ∧ (∀ e : IndexErr, Explained e.failure) ∧
    (∀ e : SignErr, Explained (e.failure T.toTexts)) ∧ (∀ e : CombErr L, Explained (e.failure T.toTexts)) ∧
    (∀ e : FinalizerErr L, Explained (e.failure T.toTexts)) ∧ (∀ e : FinalizeErr L, Explained (e.failure T.toTexts)) ∧
    (∀ e : InterpCheckErr, Explained (e.failure T.toTexts)) ∧ (∀ e : ExtractErr, Explained e.failure) ∧
    (∀ e : FeeErr, Explained e.failure) ∧ (∀ e : GetKeyErr, Explained (e.failure T)) := by
  have hf : ∀ e : FundingErr, Explained e.failure := by intro e; cases e <;> exact .plain _
  have hx : ∀ e : IndexErr, Explained e.failure := by intro e; cases e <;> exact .plain _
  have hl : ∀ e : LockTimeErr, Explained e.failure := by intro e; cases e; exact .plain _
  have hi : ∀ e : InterpCheckErr, Explained (e.failure T.toTexts) := by
    intro e
    rcases e with e | ⟨n, _ | _⟩
    · exact (hl e).because _
    · exact ((Explained.plain _).because _).because _
    · exact ((Explained.plain _).because _).because _
  refine ⟨fun e => ?_, hx, fun e => ?_, fun e => ?_, fun e => ?_, fun e => ?_, hi, fun e => ?_, fun e => ?_, fun e => ?_⟩
  · cases e <;> exact (Explained.plain _).because _
  · cases e <;> first
      | exact .plain _
      | exact (Explained.plain _).because _
      | exact (hx _).because _
      | exact (hf _).because _
  · rcases e with e | e | e <;> refine Explained.because _ ?_
    · cases e with
      | inconsistentKeySources x => exact (Explained.plain _).because _
      | _ => exact .plain _
    · cases e <;> exact .plain _
    · cases e <;> exact .plain _
  · rcases e with e | e | e <;> refine Explained.because _ ?_
    · exact hf e
    · exact hl e
    · cases e with
      | wrongFlag => exact .plain _
      | _ => exact (Explained.plain _).because _
  · rcases e with ⟨n, e | e⟩ | e
    · exact ((ms_explained T e).because _).because _
    · cases e; exact ((Explained.plain _).because _).because _
    · exact (hi e).because _
  · rcases e with _ | e
    · exact .plain _
    · exact (hl e).because _
  · cases e with
    | fundingUtxo e => exact (hf e).because _
    | _ => exact .plain _
  · cases e with
    | bip32 => exact (Explained.plain _).because _
    | notSupported => exact .plain _

end V2

namespace V0

theorem ser_explained {e : SerErr} (h : e ∉ unsourced) : Explained (serFailure T e) := by
  cases e <;> first
    | exact .plain _
    | exact (Explained.plain _).because _
    | exact absurd (by simp [unsourced]) h

theorem ser_hidden {e : SerErr} (h : e ∈ unsourced) : Hidden (serFailure (sharp L) e) := by
  simp only [unsourced, List.mem_cons, List.not_mem_nil, or_false] at h
  rcases h with rfl | rfl | rfl | rfl | rfl <;> exact .dropping (by decide)

theorem err_explained {e : Err} (h : ∀ s ∈ unsourced, e ≠ .ser s) : Explained (e.failure T) := by
  cases e with
  | ser s => exact ser_explained T (fun hs => h s hs rfl)
  | consensus => exact (Explained.plain _).because _
  | _ => exact .plain _

/-- C109. In PSBT v0 the same five failures have a cause that cannot be seen (with `std`), and no other failure has. -/
theorem C109_error_iff (L : Lib) (e : Err) : (∀ T : MoreTexts L, Explained (e.failure T)) ↔ ∀ s ∈ unsourced, e ≠ .ser s := by
  refine ⟨fun h s hs he => ?_, fun h T => err_explained T h⟩
  subst he
  exact (ser_hidden hs).not (h (sharp L))

/-- C109. The same for text. -/
theorem C109_text_iff (L : Lib) (e : TextErr Err) :
    (∀ T : MoreTexts L, Explained (parseFailure T e)) ↔ ∀ s ∈ unsourced, e ≠ .psbtEncoding (.ser s) := by
  constructor
  · rintro h s hs rfl
    exact ((ser_hidden hs).because (m := "error in internal PSBT data structure") (by decide)).not (h (sharp L))
  · intro h T
    cases e with
    | base64Encoding => exact (Explained.plain _).because _
    | psbtEncoding e => exact (err_explained T (fun s hs he => h s hs (by rw [he]))).because _

/-- C109. In PSBT v0 the message says which hash function a preimage does not fit. -/
theorem C109_preimage {t t' : HashTy} (h : ((Err.invalidPreimageHashPair t).failure T).display true =
    ((Err.invalidPreimageHashPair t').failure T).display true) : t = t' := by
  simp only [Err.failure, Failure.display] at h
  injection h with h
  have h0 := congrArg String.toList h
  simp only [String.toList_append, List.append_assoc] at h0
  have h1 := List.append_cancel_left (List.append_cancel_left (List.append_cancel_left h0))
  simp only [← List.append_assoc] at h1
  have h2 := List.append_cancel_right (List.append_cancel_right h1)
  revert h2
  cases t <;> cases t' <;> decide

/-- C109. What else PSBT v0 reports has its cause. -/
theorem C109_roles : (∀ e : SignErr, Explained (e.failure T)) ∧ (∀ e : IndexErr, Explained e.failure) ∧
    (∀ e : ExtractErr L, Explained (e.failure T)) ∧ (∀ e : ChecksErr, Explained e.failure) ∧ (∀ e : FinErr L, Explained (e.failure T)) ∧
    (∀ (m : MapKind) (e : UpdateErr), Explained (e.failure T m)) ∧ (∀ e : SighashErr, Explained (e.failure T)) := by
  have hx : ∀ e : IndexErr, Explained e.failure := by intro e; cases e <;> exact .plain _
  have first : ∀ {e : Failure} {r m : String}, root e = some r → (∀ std, ∃ s, e.display std = .ok s ∧ Occurs r s) →
      Explained (.quotingFirst e m) := by
    intro e r m h1 h2
    obtain ⟨s, hs, os⟩ := h2 true
    obtain ⟨t, ht, ot⟩ := h2 false
    exact ⟨r, h1, ⟨_, .last (by simp only [Failure.display, hs]; rfl) rfl, _, by simp, os.right m⟩, _,
      by simp only [Failure.display, ht]; rfl, ot.right m⟩
  refine ⟨fun e => ?_, hx, fun e => ?_, fun e => ?_, fun e => ?_, fun m e => ?_, fun e => ?_⟩
  · cases e <;> first
      | exact .plain _
      | exact (Explained.plain _).because _
      | exact (hx _).because _
  · cases e <;> exact .plain _
  · cases e <;> exact .plain _
  · cases e with
    | input e n =>
      cases e <;> first
        | exact first rfl (fun _ => ⟨_, rfl, occurs_self _⟩)
        | exact first rfl (fun _ => ⟨_, rfl, (occurs_self _).left _⟩)
    | missingWitness n => exact first rfl (fun _ => ⟨_, rfl, occurs_self _⟩)
    | _ => exact .plain _
  · cases e with
    | derivation e => exact .quoting _ _
    | mismatchedScriptPubkey => simp only [UpdateErr.failure]; split <;> exact Explained.plain _
    | _ => exact .plain _
  · cases e <;> first | exact .plain _ | exact .quoting _ _

/-- C109 fails for the errors of `v0::miniscript`: none has a source, also those that are made of another error. -/
theorem C109_source_counterexample : (∀ e : FinErr L, (e.failure T).source = .ok none) ∧
    (∀ (m : MapKind) (e : UpdateErr), (e.failure T m).source = .ok none) ∧ (∀ e : SighashErr, (e.failure T).source = .ok none) := by
  refine ⟨fun e => ?_, fun m e => ?_, fun e => ?_⟩
  · cases e <;> rfl
  · cases e with
    | mismatchedScriptPubkey => simp only [UpdateErr.failure]; split <;> rfl
    | _ => rfl
  · cases e <;> rfl

end V0

/-- C109. The five failures occur: for example, a partial signature for a key that is none, in both versions. -/
theorem C109_unsourced_occur (p : Pair) (hty : p.key.ty = 0x02) (hk : p.key.key ≠ []) (hp : L.pubkey.parse p.key.key = none) :
    (∀ i : V2.Input L, i.insertPair p = .error (.deser .invalidPublicKey)) ∧
    (∀ i : V0.Input L, i.insertPair p = .error (.ser .invalidPublicKey)) := by
  constructor <;> intro i
  · have hs : V2.inSlot L.sp 2 = .partialSigs := by generalize L.sp = b; cases b <;> rfl
    unfold V2.Input.insertPair
    rw [hty, hs]
    simp [insMap, hk, pubkeyCodec, Foreign.codec, hp, mapErr, okOr, MapErr.deser, Bind.bind, Except.bind]
  · have hs : V0.inSlot 2 = .partialSigs := rfl
    unfold V0.Input.insertPair
    rw [hty, hs]
    simp [insMap, hk, pubkeyCodec, Foreign.codec, hp, mapErr, okOr, MapErr.deser, Bind.bind, Except.bind]

theorem split_at {c : Char} : ∀ {d d' r r' : List Char}, c ∉ d → c ∉ d' → d ++ c :: r = d' ++ c :: r' → d = d' ∧ r = r'
  | [], [], _, _, _, _, h => by simpa using h
  | [], a :: d', _, _, _, h2, h => by simp at h; simp [← h.1] at h2
  | a :: d, [], _, _, h1, _, h => by simp at h; simp [h.1] at h1
  | a :: d, b :: d', _, _, h1, h2, h => by
    simp only [List.cons_append, List.cons.injEq] at h
    simp only [List.mem_cons, not_or] at h1 h2
    obtain ⟨h3, h4⟩ := split_at h1.2 h2.2 h.2
    exact ⟨by rw [h.1, h3], h4⟩

theorem split_at_end {c : Char} {d d' r r' : List Char} (h1 : c ∉ d) (h2 : c ∉ d') (h : r ++ c :: d = r' ++ c :: d') : d = d' := by
  have h3 := congrArg List.reverse h
  simp only [List.reverse_append, List.reverse_cons, List.append_assoc, List.singleton_append] at h3
  exact List.reverse_inj.mp (split_at (by simpa using h1) (by simpa using h2) h3).1

theorem not_digit {c : Char} (hc : c.isDigit = false) (n : Nat) : c ∉ Nat.toDigits 10 n := by
  intro h
  have := Nat.isDigit_of_mem_toDigits (by decide) (by decide) h
  rw [hc] at this; cases this

theorem digits_inj {m n : Nat} (h : Nat.toDigits 10 m = Nat.toDigits 10 n) : m = n := by
  rw [← Nat.toList_repr, ← Nat.toList_repr] at h
  exact Nat.repr_inj.mp (String.toList_inj.mp h)

theorem digits_sep {c : Char} (hc : c.isDigit = false) {m n : Nat} {r r' : List Char}
    (h : Nat.toDigits 10 m ++ c :: r = Nat.toDigits 10 n ++ c :: r') : m = n ∧ r = r' :=
  ⟨digits_inj (split_at (not_digit hc m) (not_digit hc n) h).1, (split_at (not_digit hc m) (not_digit hc n) h).2⟩

theorem ok_text {a b : String} (h : (Except.ok a : Out Empty String) = .ok b) : a.toList = b.toList := by injection h with h; rw [h]

/-- C109. The numbers in a message are those of the failure: errors about an index in PSBT v2 with the same message are equal, … -/
theorem C109_v2_index {e e' : V2.IndexErr} {std : Bool} (h : e.failure.display std = e'.failure.display std) : e = e' := by
  cases e <;> cases e' <;> replace h := ok_text h <;> simp [toString] at h <;> obtain ⟨h1, h2⟩ := digits_sep (by decide) h <;> simp at h2
  · rw [h1, digits_inj h2]
  · rw [h1, digits_inj h2]

/-- … those in PSBT v0, … -/
theorem C109_v0_index {e e' : V0.IndexErr} {std : Bool} (h : e.failure.display std = e'.failure.display std) : e = e' := by
  cases e <;> cases e' <;> replace h := ok_text h <;> simp [toString] at h <;> obtain ⟨h1, h2⟩ := digits_sep (by decide) h <;> simp at h2
  · rw [h1, digits_inj h2]
  · rw [h1, digits_inj h2]

/-- … those about a funding output, … -/
theorem C109_funding {e e' : FundingErr} {std : Bool} (h : e.failure.display std = e'.failure.display std) : e = e' := by
  cases e <;> cases e' <;> replace h := ok_text h <;> simp [toString] at h
  · obtain ⟨h1, h2⟩ := digits_sep (by decide) h
    simp at h2
    rw [h1, digits_inj h2]
  · rfl

/-- … and those about the length of a key or of a value. -/
theorem C109_length {m : MapKind} {a b a' b' : Nat} {std : Bool} :
    (((InsErr.valueWrongLength a b).failure T m).display std = ((InsErr.valueWrongLength a' b').failure T m).display std →
      a = a' ∧ b = b') ∧
    (((InsErr.keyWrongLength a b).failure T m).display std = ((InsErr.keyWrongLength a' b').failure T m).display std →
      a = a' ∧ b = b') := by
  constructor
  · intro h
    cases m <;> replace h := ok_text h <;> simp [toString] at h <;> obtain ⟨h1, h2⟩ := digits_sep (by decide) h <;> (try simp at h2)
    · exact ⟨h1, digits_inj h2⟩
    · exact ⟨h1, digits_inj h2⟩
    · exact ⟨h1, digits_inj h2⟩
  · intro h
    replace h := ok_text h
    simp [toString] at h
    obtain ⟨h1, h2⟩ := digits_sep (by decide) h
    simp at h2
    exact ⟨h1, digits_inj h2⟩

/-- C109. The finalizer of v2 says which input it is that cannot be finalized, … -/
theorem C109_v2_which_input {e e' : V2.FinalizeInputErr L} {n n' : Nat}
    (h : ((V2.FinalizeErr.finalizeInput n e).failure T.toTexts).display true =
      ((V2.FinalizeErr.finalizeInput n' e').failure T.toTexts).display true) : n = n' := by
  replace h := ok_text h
  simp [toString] at h
  exact digits_inj h

theorem ms_text (e : MsInputErr L) (std : Bool) : ∃ s, (V0.msFailure T e).display std = .ok s := by cases e <;> exact ⟨_, rfl⟩

/-- … and so does that of v0. -/
theorem C109_v0_which_input {e e' : MsInputErr L} {n n' : Nat} {std : Bool}
    (h : ((V0.FinErr.input e n).failure T).display std = ((V0.FinErr.input e' n').failure T).display std) : n = n' := by
  obtain ⟨s, hs⟩ := ms_text T e std
  obtain ⟨s', hs'⟩ := ms_text T e' std
  simp only [V0.FinErr.failure, Failure.display, hs, hs'] at h
  replace h := ok_text h
  have h1 : s.toList ++ " at index".toList ++ ' ' :: Nat.toDigits 10 n = s'.toList ++ " at index".toList ++ ' ' :: Nat.toDigits 10 n' := by
    simpa [toString] using h
  exact digits_inj (split_at_end (not_digit (by decide) n) (not_digit (by decide) n') h1)

section Examples
open V2

/-- A failure two errors deep with a cause, and one without. -/
example (T : MoreTexts EL) : Explained ((DecErr.insertPair (.deser .invalidHash)).failure T .input) :=
  (C109_map_iff EL .input _).mpr (by decide) T
example : ¬ ∀ T : MoreTexts EL, Explained ((DecErr.insertPair (.deser .tapTree)).failure T .output) :=
  fun h => absurd ((C109_map_iff EL .output _).mp h .tapTree (by decide)).1 (by simp)

/-- The text of a key. -/
example : RawKey.text ⟨0x02, [0xab, 0x0c]⟩ = "type: 0x2, key: ab0c" := by decide
example : RawKey.text ⟨0xfc, []⟩ = "type: 0xfc, key: " := by decide

/-- What is printed of a failure of the finalizer of v0. -/
example (T : MoreTexts EL) : ((V0.FinErr.input .miniscript 3 : V0.FinErr EL).failure T).display true =
    .ok ("Miniscript Error: " ++ T.miniscript ++ " at index 3") := rfl

/-- A signature for a key of one byte. -/
example (i : Input EL) : i.insertPair ⟨⟨0x02, [0x01]⟩, []⟩ = .error (.deser .invalidPublicKey) :=
  (C109_unsourced_occur (L := EL) ⟨⟨0x02, [0x01]⟩, []⟩ rfl (by decide) (by decide)).1 i

/-- An extended key with nothing, and one with three bytes. -/
example (T : MoreTexts EL) (g : GlobalAcc EL) :
    (∃ e, g.insertPair ⟨⟨0x01, List.replicate 78 5⟩, []⟩ = .error e ∧
      ∀ std, (e.failure T .global).display std = .ok ("key should not contain data: " ++ RawKey.text ⟨0x01, List.replicate 78 5⟩)) ∧
    ∃ e, g.insertPair ⟨⟨0x01, List.replicate 78 5⟩, [1, 2, 3]⟩ = .error e ∧
      ∀ std, (e.failure T .global).display std = .ok "PSBT_GLOBAL_XPUB: derivation path must be a list of 32 byte varints" := by
  have hx : ∃ x, EL.xpub.parse (List.replicate 78 5) = some x := ⟨_, rfl⟩
  obtain ⟨x, hx⟩ := hx
  exact ⟨(C109_xpub_counterexample T g ⟨⟨0x01, _⟩, []⟩ rfl).2.1 x (by simp) hx rfl,
    (C109_xpub_counterexample T g ⟨⟨0x01, _⟩, [1, 2, 3]⟩ rfl).2.2 x (by simp) hx (by simp) (by simp)⟩

/-- Two preimages that do not fit, of two hash functions. -/
example (T : MoreTexts EL) : ∃ p q, (eIn 1).insertPair p = .error (.hashPreimage .sha256) ∧
    (eIn 1).insertPair q = .error (.hashPreimage .hash256) ∧
    (preimageFailure T .sha256).display true = (preimageFailure T .hash256).display true :=
  ⟨⟨⟨0x0b, List.replicate 32 7⟩, [1]⟩, ⟨⟨0x0d, List.replicate 32 7⟩, [1]⟩, by decide +kernel, by decide +kernel,
    (C109_preimage_counterexample T (i := eIn 1) (p := ⟨⟨0x0b, List.replicate 32 7⟩, [1]⟩) (q := ⟨⟨0x0d, List.replicate 32 7⟩, [1]⟩)
      (by decide +kernel) (by decide +kernel) true).2⟩

end Examples

end Psbt
