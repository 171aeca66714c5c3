/- Specification for serialisation with serde. -/
import Verif.Model.V2.Psbt
import Verif.Model.V0.Psbt
import Verif.Model.Serde
namespace Psbt.Spec

/-- Without the feature "silent-payments" its fields do not exist; here they are then empty. -/
structure Typed {L : Lib} (p : V2.Psbt L) : Prop where
  global : L.sp = false → p.global.spEcdhShares = .empty ∧ p.global.spDleqProofs = .empty
  inputs : ∀ i ∈ p.inputs, L.sp = false → i.spEcdhShares = .empty ∧ i.spDleqProofs = .empty
  outputs : ∀ o ∈ p.outputs, L.sp = false → o.spV0Info = none ∧ o.spV0Label = none

/-- An input has no preimages of hashes. -/
def NoPreimages {L : Lib} (i : V2.Input L) : Prop :=
  i.ripemd160Preimages = .empty ∧ i.sha256Preimages = .empty ∧ i.hash160Preimages = .empty ∧ i.hash256Preimages = .empty

namespace V0
/-- An input has no preimages of hashes. -/
def NoPreimages {L : Lib} (i : V0.Input L) : Prop :=
  i.ripemd160Preimages = .empty ∧ i.sha256Preimages = .empty ∧ i.hash160Preimages = .empty ∧ i.hash256Preimages = .empty
end V0

end Psbt.Spec

namespace Psbt.Spec
/-- The hexadecimal digits. -/
def hexDigits : List Char := ['0', '1', '2', '3', '4', '5', '6', '7', '8', '9', 'a', 'b', 'c', 'd', 'e', 'f']
/-- The text written for some bytes: two digits for each, the higher one first. -/
def hexText (b : Bytes) : String := String.ofList (b.flatMap fun x => hexDigits[x.toNat / 16]?.toList ++ hexDigits[x.toNat % 16]?.toList)
/-- A text is the hexadecimal form of some bytes: two digits for each, the higher one first, in either case. -/
def Hex (b : Bytes) (text : String) : Prop :=
  text.toList.length = 2 * b.length ∧ ∀ n x, b[n]? = some x →
    (text.toList[2 * n]?.map Char.toLower) = hexDigits[x.toNat / 16]? ∧ (text.toList[2 * n + 1]?.map Char.toLower) = hexDigits[x.toNat % 16]?
end Psbt.Spec

namespace Psbt.Spec
/-- The names of the fields as the structs of the crate declare them; `sp`: built with silent payments. -/
def globalFields (sp : Bool) : List String :=
  ["version", "tx_version", "fallback_lock_time", "tx_modifiable_flags", "input_count", "output_count", "xpubs"] ++
  (if sp then ["sp_ecdh_shares", "sp_dleq_proofs"] else []) ++ ["proprietaries", "unknowns"]
/-- The same of an input. -/
def inputFields (sp : Bool) : List String :=
  ["previous_txid", "spent_output_index", "sequence", "min_time", "min_height", "non_witness_utxo",
   "witness_utxo", "partial_sigs", "sighash_type", "redeem_script", "witness_script", "bip32_derivations",
   "final_script_sig", "final_script_witness", "ripemd160_preimages", "sha256_preimages", "hash160_preimages",
   "hash256_preimages", "tap_key_sig", "tap_script_sigs", "tap_scripts", "tap_key_origins", "tap_internal_key",
   "tap_merkle_root"] ++
  (if sp then ["sp_ecdh_shares", "sp_dleq_proofs"] else []) ++ ["proprietaries", "unknowns"]
/-- The same of an output. -/
def outputFields (sp : Bool) : List String :=
  ["amount", "script_pubkey", "redeem_script", "witness_script", "bip32_derivations", "tap_internal_key",
   "tap_tree", "tap_key_origins"] ++
  (if sp then ["sp_v0_info", "sp_v0_label"] else []) ++ ["proprietaries", "unknowns"]
/-- The names of an input of v0. -/
def V0.inputFields : List String :=
  ["non_witness_utxo", "witness_utxo", "partial_sigs", "sighash_type", "redeem_script", "witness_script",
   "bip32_derivation", "final_script_sig", "final_script_witness", "ripemd160_preimages", "sha256_preimages",
   "hash160_preimages", "hash256_preimages", "tap_key_sig", "tap_script_sigs", "tap_scripts", "tap_key_origins",
   "tap_internal_key", "tap_merkle_root", "proprietary", "unknown"]
/-- The same of an output. -/
def V0.outputFields : List String :=
  ["redeem_script", "witness_script", "bip32_derivation", "tap_internal_key", "tap_tree", "tap_key_origins",
   "proprietary", "unknown"]

/-- What a human-readable format gets for a raw key. -/
def keyForm (k : RawKey) : SVal := .map [(.str "type_value", .num k.ty.toNat), (.str "key", .str (hexText k.key))]
/-- What it gets for the unknown pairs. -/
def unknownsForm (m : BMap RawKey Bytes) : SVal := .seq (m.l.map fun kv => .seq [keyForm kv.1, .str (hexText kv.2)])
/-- What it gets for the proprietary pairs. -/
def proprietariesForm (m : BMap PropKey Bytes) : SVal :=
  .seq (m.l.map fun kv => .seq
    [.map [(.str "prefix", .str (hexText kv.1.pre)), (.str "subtype", .num kv.1.subtype.toNat), (.str "key", .str (hexText kv.1.key))], .str (hexText kv.2)])
/-- What it gets for preimages. -/
def preimagesForm {n : Nat} (c : SCodec (FixedBytes n)) (f : Fmt) (m : BMap (FixedBytes n) Bytes) : SVal :=
  .map (m.l.map fun kv => (c.ser f kv.1, .str (hexText kv.2)))
end Psbt.Spec
