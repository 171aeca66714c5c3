/- Failures that can be reported. -/
import Verif.Model.Report
namespace Psbt.Spec
variable {L : Lib}

/-- What a caller prints who follows an error to its sources (with `std`): the message of the error, of its source, of the
source of that, and so on. -/
inductive Chain : Failure → List String → Prop
  | last {e m} : e.display true = .ok m → e.source = .ok none → Chain e [m]
  | next {e c m ms} : e.display true = .ok m → e.source = .ok (some c) → Chain c ms → Chain e (m :: ms)

/-- Messages in one line. -/
def inOneLine : List String → String
  | [] => ""
  | [m] => m
  | m :: ms => m ++ ": " ++ inOneLine ms

/-- An error that can be reported: following it to its sources ends without a panic, and without `std`, where there are no
sources, the message is a text too. -/
def Reportable (e : Failure) : Prop := (∃ ms, Chain e ms) ∧ ∃ m, e.display false = .ok m
/-- … and without `std` the message says the same, in one line. -/
def SameText (e : Failure) : Prop := ∃ ms, Chain e ms ∧ e.display false = .ok (inOneLine ms)

/-! The key types of BIP-174, 370, 371 and 375 and their names; `sp`: with those of silent payments. -/

def globalNames (sp : Bool) : List (UInt8 × String) :=
  [(0x00, "PSBT_GLOBAL_UNSIGNED_TX"), (0x01, "PSBT_GLOBAL_XPUB"), (0x02, "PSBT_GLOBAL_TX_VERSION"),
   (0x03, "PSBT_GLOBAL_FALLBACK_LOCKTIME"), (0x04, "PSBT_GLOBAL_INPUT_COUNT"), (0x05, "PSBT_GLOBAL_OUTPUT_COUNT"),
   (0x06, "PSBT_GLOBAL_TX_MODIFIABLE"), (0xFB, "PSBT_GLOBAL_VERSION"), (0xFC, "PSBT_GLOBAL_PROPRIETARY")] ++
  if sp then [(0x07, "PSBT_GLOBAL_SP_ECDH_SHARE"), (0x08, "PSBT_GLOBAL_SP_DLEQ")] else []
def inputNames (sp : Bool) : List (UInt8 × String) :=
  [(0x00, "PSBT_IN_NON_WITNESS_UTXO"), (0x01, "PSBT_IN_WITNESS_UTXO"), (0x02, "PSBT_IN_PARTIAL_SIG"), (0x03, "PSBT_IN_SIGHASH_TYPE"),
   (0x04, "PSBT_IN_REDEEM_SCRIPT"), (0x05, "PSBT_IN_WITNESS_SCRIPT"), (0x06, "PSBT_IN_BIP32_DERIVATION"),
   (0x07, "PSBT_IN_FINAL_SCRIPTSIG"), (0x08, "PSBT_IN_FINAL_SCRIPTWITNESS"), (0x09, "PSBT_IN_POR_COMMITMENT"),
   (0x0A, "PSBT_IN_RIPEMD160"), (0x0B, "PSBT_IN_SHA256"), (0x0C, "PSBT_IN_HASH160"), (0x0D, "PSBT_IN_HASH256"),
   (0x0E, "PSBT_IN_PREVIOUS_TXID"), (0x0F, "PSBT_IN_OUTPUT_INDEX"), (0x10, "PSBT_IN_SEQUENCE"),
   (0x11, "PSBT_IN_REQUIRED_TIME_LOCKTIME"), (0x12, "PSBT_IN_REQUIRED_HEIGHT_LOCKTIME"), (0x13, "PSBT_IN_TAP_KEY_SIG"),
   (0x14, "PSBT_IN_TAP_SCRIPT_SIG"), (0x15, "PSBT_IN_TAP_LEAF_SCRIPT"), (0x16, "PSBT_IN_TAP_BIP32_DERIVATION"),
   (0x17, "PSBT_IN_TAP_INTERNAL_KEY"), (0x18, "PSBT_IN_TAP_MERKLE_ROOT"), (0xFC, "PSBT_IN_PROPRIETARY")] ++
  if sp then [(0x1D, "PSBT_IN_SP_ECDH_SHARE"), (0x1E, "PSBT_IN_SP_DLEQ")] else []
def outputNames (sp : Bool) : List (UInt8 × String) :=
  [(0x00, "PSBT_OUT_REDEEM_SCRIPT"), (0x01, "PSBT_OUT_WITNESS_SCRIPT"), (0x02, "PSBT_OUT_BIP32_DERIVATION"), (0x03, "PSBT_OUT_AMOUNT"),
   (0x04, "PSBT_OUT_SCRIPT"), (0x05, "PSBT_OUT_TAP_INTERNAL_KEY"), (0x06, "PSBT_OUT_TAP_TREE"),
   (0x07, "PSBT_OUT_TAP_BIP32_DERIVATION"), (0xFC, "PSBT_OUT_PROPRIETARY")] ++
  if sp then [(0x09, "PSBT_OUT_SP_V0_INFO"), (0x0A, "PSBT_OUT_SP_V0_LABEL")] else []

/-- `name` gives every key type in the table its name and says of all others that they are unknown. -/
def Names (name : UInt8 → String) (table : List (UInt8 × String)) (unknown : String) : Prop :=
  (∀ e ∈ table, name e.1 = e.2) ∧ ∀ t, (∀ s, (t, s) ∉ table) → name t = unknown

end Psbt.Spec
