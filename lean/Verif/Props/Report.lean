/- C93: failures can be reported. -/
import Verif.Spec.Report
import Verif.Props.V2Extract
import Verif.Props.V0Parse
namespace Psbt
open Psbt.Spec
variable {L : Lib} (T : Texts L)

theorem chain_plain (m : String) : Chain (.plain m) [m] := .last rfl rfl
theorem chain_because {m : String} {e : Failure} {ms} (h : Chain e ms) : Chain (.because m e) (m :: ms) := .next rfl rfl h

theorem chain_ne {e : Failure} {ms} (h : Chain e ms) : ms ≠ [] := by cases h <;> simp

/-- C93. The names of key types in messages are those of the standards. -/
theorem C93_key_names (sp : Bool) :
    Names (globalKeyName sp) (globalNames sp) "unknown PSBT_GLOBAL_ key type value" ∧
    Names (inputKeyName sp) (inputNames sp) "unknown PSBT_IN_ key type value" ∧
    Names (outputKeyName sp) (outputNames sp) "unknown PSBT_OUT_ key type value" := by
  have key : ∀ {name : UInt8 → String} {table : List (UInt8 × String)} {unknown : String},
      (∀ e ∈ table, name e.1 = e.2) → (∀ n : Fin 256, (table.find? (·.1 == UInt8.ofNat n.1)) = none → name (UInt8.ofNat n.1) = unknown) →
      Names name table unknown := by
    intro name table unknown h1 h2
    refine ⟨h1, fun t ht => ?_⟩
    have := h2 ⟨t.toNat, t.toNat_lt⟩
    simp only [UInt8.ofNat_toNat] at this
    apply this
    rw [List.find?_eq_none]
    intro e he hc
    have : e.1 = t := by simpa using hc
    exact ht e.2 (this ▸ he)
  refine ⟨key ?_ ?_, key ?_ ?_, key ?_ ?_⟩ <;> cases sp <;> decide +kernel

theorem Spec.SameText.plain (m : String) : SameText (.plain m) := ⟨[m], chain_plain m, rfl⟩
theorem Spec.SameText.because {e : Failure} (m : String) (h : SameText e) : SameText (.because m e) := by
  obtain ⟨ms, h1, h2⟩ := h
  refine ⟨m :: ms, chain_because h1, ?_⟩
  simp only [Failure.display, h2, Bool.false_eq_true, if_false]
  cases ms with
  | nil => exact absurd rfl (chain_ne h1)
  | cons a l => rfl

theorem Spec.SameText.reportable {e : Failure} (h : SameText e) : Reportable e := by
  obtain ⟨ms, h1, h2⟩ := h
  exact ⟨⟨ms, h1⟩, _, h2⟩

theorem Spec.Reportable.because {e : Failure} (m : String) (h : Reportable e) : Reportable (.because m e) := by
  obtain ⟨⟨ms, h1⟩, s, h2⟩ := h
  exact ⟨⟨_, chain_because h1⟩, _, by simp only [Failure.display, h2, Bool.false_eq_true, if_false]; rfl⟩

theorem todo_not_chain (ms) : ¬ Chain .todo ms := by
  rintro (⟨h, -⟩ | ⟨h, -⟩) <;> cases h

theorem funding_same (e : FundingErr) : SameText e.failure := by cases e <;> exact .plain _
theorem fee_same (e : FeeErr) : SameText e.failure := by
  cases e with
  | fundingUtxo e => exact .because _ (funding_same e)
  | _ => exact .plain _

theorem msInput_reportable (e : MsInputErr L) : Reportable (e.failure T) := by
  have inside : ∀ m s, Reportable (.inside m (.plain s)) := fun m s => ⟨⟨_, .next rfl rfl (chain_plain s)⟩, _, rfl⟩
  cases e <;> first
    | exact (SameText.plain _).reportable
    | exact inside _ _
    | exact ⟨⟨_, .last rfl rfl⟩, _, rfl⟩

namespace V2

theorem lockTime_same (e : LockTimeErr) : SameText e.failure := by cases e; exact .plain _
theorem index_same (e : IndexErr) : SameText e.failure := by cases e <;> exact .plain _

/-- C93 fails for every failure to parse a PSBT v2: neither the error nor its source can be asked for. -/
theorem C93_parse_counterexample {b : Bytes} {e : DeserErr} (_ : Psbt.deserialize L b = .error (.err e)) :
    (∀ std, ∃ why, e.failure.display std = .error (.panic why)) ∧ (∃ why, e.failure.source = .error (.panic why)) ∧
      ¬ Reportable e.failure :=
  ⟨fun _ => ⟨_, rfl⟩, ⟨_, rfl⟩, fun h => by obtain ⟨⟨ms, h⟩, -⟩ := h; exact todo_not_chain ms h⟩

/-- The same for text that is base64: without `std` the message cannot be printed; with `std` it can, but says nothing about
the cause, and the cause cannot be printed. -/
theorem C93_text_counterexample {s : Bytes} {e : DeserErr} (_ : Psbt.ofText L s = .error (.err (.psbtEncoding e))) :
    (∃ why, (parseFailure T (.psbtEncoding e)).display false = .error (.panic why)) ∧
    (parseFailure T (.psbtEncoding e)).display true = .ok "error in internal PSBT data structure" ∧
    (∃ c, (parseFailure T (.psbtEncoding e)).source = .ok (some c) ∧ ∃ why, c.display true = .error (.panic why)) ∧
      ¬ Reportable (parseFailure T (.psbtEncoding e)) := by
  refine ⟨⟨_, rfl⟩, rfl, ⟨_, rfl, _, rfl⟩, fun h => ?_⟩
  obtain ⟨-, m, h⟩ := h
  cases h

/-- C93. What holds: all that fails otherwise, from the constructors to the finalizer, can be reported, and for all but the
errors of finalizing an input the message without `std` has all the messages one gets with `std`. -/
theorem C93_roles_partial :
    SameText (parseFailure T .base64Encoding) ∧ (∀ e : NotModifiable, SameText e.failure) ∧ (∀ e : IndexErr, SameText e.failure) ∧
    (∀ e : SignErr, SameText (e.failure T)) ∧ (∀ e : CombErr L, SameText (e.failure T)) ∧ (∀ e : FinalizerErr L, SameText (e.failure T)) ∧
    (∀ e : FinalizeErr L, Reportable (e.failure T)) ∧ (∀ e : InterpCheckErr, SameText (e.failure T)) ∧
    (∀ e : ExtractErr, SameText e.failure) ∧ (∀ e : FeeErr, SameText e.failure) := by
  have hi : ∀ e : InterpCheckErr, SameText (e.failure T) := by
    intro e
    rcases e with e | ⟨n, _ | _⟩
    · exact .because _ (lockTime_same e)
    · exact .because _ (.because _ (.plain _))
    · exact .because _ (.because _ (.plain _))
  refine ⟨.because _ (.plain _), fun e => ?_, index_same, fun e => ?_, fun e => ?_, fun e => ?_, fun e => ?_, hi, fun e => ?_, fee_same⟩
  · cases e <;> exact .because _ (.plain _)
  · cases e with
    | index e => exact .because _ (index_same e)
    | fundingUtxo e => exact .because _ (funding_same e)
    | segwitV0Sighash => exact .because _ (.plain _)
    | p2wpkhSighash e => exact .because _ (.plain _)
    | _ => exact .plain _
  · rcases e with e | e | e <;> refine .because _ ?_
    · cases e with
      | inconsistentKeySources x => exact .because _ (.plain _)
      | _ => exact .plain _
    · cases e <;> exact .plain _
    · cases e <;> exact .plain _
  · rcases e with e | e | e <;> refine .because _ ?_
    · exact funding_same e
    · exact lockTime_same e
    · cases e with
      | wrongFlag => exact .plain _
      | _ => exact .because _ (.plain _)
  · rcases e with ⟨n, e | e⟩ | e
    · exact .because _ (.because _ (msInput_reportable T e))
    · cases e; exact ((SameText.plain _).because _ |>.because _).reportable
    · exact ((hi e).because _).reportable
  · rcases e with _ | e
    · exact .plain _
    · exact .because _ (lockTime_same e)

/-- And what an extractor reports: its errors without `Display` do not occur once there is an extractor. -/
theorem C93_extractor {p : Psbt L} (h : Extractor.new p = .ok p) (max : UInt64) {e : ExtractRateErr}
    (he : Extractor.extractWithLimit p max = .error (.err e)) : SameText (e.failure T) := by
  obtain ⟨t, ht, -⟩ := C31_extraction h
  unfold Extractor.extractWithLimit at he
  cases hf : p.fee with
  | error e' => rw [hf] at he; cases he; exact .because _ (fee_same e')
  | ok fee =>
    rw [hf] at he
    simp only [ht] at he
    split at he
    · cases he
    · split at he
      · cases he; exact .plain _
      · cases he

/-- C93. The record that has no place in a PSBT v2 is named. -/
theorem C93_excluded_named (g : GlobalAcc L) (p : Pair) (h : p.key.ty = 0x00) :
    g.insertPair p = .error (.excludedKey p.key.ty) ∧
      V2.excludedMessage L.sp p.key.ty = "found a keypair type that is explicitly excluded: PSBT_GLOBAL_UNSIGNED_TX" := by
  rw [h]
  have hs : glSlot L.sp 0 = .unsignedTx := by generalize L.sp = b; cases b <;> rfl
  exact ⟨by unfold GlobalAcc.insertPair; rw [h, hs], rfl⟩

end V2

namespace V0

/-- What the message says of a record only PSBT v2 has. -/
def excludedText (name : String) : String := "found a keypair type that is explicitly excluded: " ++ name

/-- C93 fails for the maps of v0 other than those of inputs: records of PSBT v2 are refused under the name of a record of an
input, and one that is allowed. (PSBT_GLOBAL_TX_VERSION, PSBT_GLOBAL_FALLBACK_LOCKTIME, PSBT_GLOBAL_INPUT_COUNT,
PSBT_GLOBAL_OUTPUT_COUNT and PSBT_GLOBAL_TX_MODIFIABLE are 2 to 6, PSBT_OUT_AMOUNT is 3 and PSBT_OUT_SCRIPT is 4.) -/
theorem C93_named_counterexample (t : UInt8) (name : String) (sp : Bool)
    (h : (t, name) ∈ [((2 : UInt8), "PSBT_IN_PARTIAL_SIG"), (3, "PSBT_IN_SIGHASH_TYPE"), (4, "PSBT_IN_REDEEM_SCRIPT"),
      (5, "PSBT_IN_WITNESS_SCRIPT"), (6, "PSBT_IN_BIP32_DERIVATION")]) :
    (∀ (g : GlobalAcc L) (p : Pair), p.key.ty = t → g.insertPair p = .error (.excludedKey t)) ∧
    (t = 3 ∨ t = 4 → ∀ (o : Output L) (p : Pair), p.key.ty = t → o.insertPair p = .error (.excludedKey t)) ∧
    excludedMessage sp t = excludedText name := by
  simp only [List.mem_cons, Prod.mk.injEq, List.not_mem_nil, or_false] at h
  refine ⟨fun g p hp => ?_, fun ht o p hp => ?_, ?_⟩
  · unfold GlobalAcc.insertPair
    rw [hp]
    rcases h with ⟨rfl, -⟩ | ⟨rfl, -⟩ | ⟨rfl, -⟩ | ⟨rfl, -⟩ | ⟨rfl, -⟩ <;> rfl
  · unfold Output.insertPair
    rw [hp]
    rcases ht with rfl | rfl <;> rfl
  · rcases h with ⟨rfl, rfl⟩ | ⟨rfl, rfl⟩ | ⟨rfl, rfl⟩ | ⟨rfl, rfl⟩ | ⟨rfl, rfl⟩ <;> cases sp <;> rfl

/-- C93. Those in the map of an input are named. -/
theorem C93_named_partial (t : UInt8) (name : String) (sp : Bool)
    (h : (t, name) ∈ [((0x0e : UInt8), "PSBT_IN_PREVIOUS_TXID"), (0x0f, "PSBT_IN_OUTPUT_INDEX"), (0x10, "PSBT_IN_SEQUENCE"),
      (0x11, "PSBT_IN_REQUIRED_TIME_LOCKTIME"), (0x12, "PSBT_IN_REQUIRED_HEIGHT_LOCKTIME")]) :
    (∀ (i : Input L) (p : Pair), p.key.ty = t → i.insertPair p = .error (.excludedKey t)) ∧
    excludedMessage sp t = excludedText name := by
  simp only [List.mem_cons, Prod.mk.injEq, List.not_mem_nil, or_false] at h
  refine ⟨fun g p hp => ?_, ?_⟩
  · unfold Input.insertPair
    rw [hp]
    rcases h with ⟨rfl, -⟩ | ⟨rfl, -⟩ | ⟨rfl, -⟩ | ⟨rfl, -⟩ | ⟨rfl, -⟩ <;> rfl
  · rcases h with ⟨rfl, rfl⟩ | ⟨rfl, rfl⟩ | ⟨rfl, rfl⟩ | ⟨rfl, rfl⟩ | ⟨rfl, rfl⟩ <;> cases sp <;> rfl

end V0

namespace V2

section Examples
open Failure

/-- No bytes at all fail to parse, and the error cannot be printed. -/
example : ∃ e, Psbt.deserialize EL [] = .error (.err e) ∧ ¬ Reportable e.failure := by
  have h : ∃ e, Psbt.deserialize EL [] = .error (.err e) := ⟨_, rfl⟩
  obtain ⟨e, he⟩ := h
  exact ⟨e, he, (C93_parse_counterexample he).2.2⟩

/-- Neither can that of the empty text, which is base64 of no bytes. -/
example (T : Texts EL) : ∃ e, Psbt.ofText EL [] = .error (.err e) ∧ ¬ Reportable (parseFailure T e) := by
  have h : ∃ e, Psbt.ofText EL [] = .error (.err (.psbtEncoding e)) := ⟨_, rfl⟩
  obtain ⟨e, he⟩ := h
  exact ⟨_, he, (C93_text_counterexample T he).2.2.2⟩

/-- An error with two sources. -/
example (T : Texts EL) : Chain ((FinalizeErr.interpreterCheck (.lockTime .conflict) : FinalizeErr EL).failure T)
    ["error running the interpreter checks", "interpreter check determine locktime",
      "unable to determine lock time, multiple inputs have conflicting locking requirements"] :=
  .next rfl rfl (.next rfl rfl (.last rfl rfl))

end Examples

end V2
end Psbt
