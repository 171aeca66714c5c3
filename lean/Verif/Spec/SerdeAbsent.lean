/- C74: the fields that may be left out. -/
import Verif.Spec.Serde
namespace Psbt.Spec

/-- The names of the fields that hold one value or nothing. -/
def optionalFields : List String :=
  ["fallback_lock_time", "sequence", "min_time", "min_height", "non_witness_utxo", "witness_utxo", "sighash_type", "redeem_script",
   "witness_script", "final_script_sig", "final_script_witness", "tap_key_sig", "tap_internal_key", "tap_merkle_root", "tap_tree",
   "sp_v0_info", "sp_v0_label"]

/-- A field is not in a map. -/
def Absent (n : String) (l : List (SVal × SVal)) : Prop := ∀ v, (.str n, v) ∉ l

end Psbt.Spec
