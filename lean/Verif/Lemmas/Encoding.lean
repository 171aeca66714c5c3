/- The model's encoders write what `Spec.Encoding` says. -/
import Verif.Spec.Encoding
namespace Psbt
open Psbt

theorem le_eq (k n : Nat) : Spec.le k n = leEnc k n := by
  induction k generalizing n with
  | zero => rfl
  | succ k ih =>
    unfold leEnc
    rw [← ih, Spec.le, List.range_succ_eq_map, List.map_cons, List.map_map]
    simp only [Nat.pow_zero, Nat.div_one, Spec.le, List.cons.injEq, true_and]
    apply List.map_congr_left
    intro j _
    simp only [Function.comp, Nat.pow_succ, Nat.div_div_eq_div_mul, Nat.mul_comm]

theorem le32_fun : Spec.le32 = encU32 := funext fun n => le_eq 4 n.toNat
theorem le64_fun : Spec.le64 = encU64 := funext fun n => le_eq 8 n.toNat
theorem le32_eq (n : UInt32) : Spec.le32 n = encU32 n := le_eq 4 n.toNat
theorem le64_eq (n : UInt64) : Spec.le64 n = encU64 n := le_eq 8 n.toNat

theorem compact_fun : Spec.compact = encVar := by
  funext n
  unfold Spec.compact encVar
  simp only [le_eq]
  have e1 : (n ≤ 252) = (n < 0xFD) := propext (by omega)
  have e2 : (n < 2 ^ 16) = (n ≤ 0xFFFF) := propext (by omega)
  have e3 : (n < 2 ^ 32) = (n ≤ 0xFFFFFFFF) := propext (by omega)
  simp only [e1, e2, e3]

theorem blob_fun : Spec.blob = encVec := by
  funext b
  unfold Spec.blob encVec
  rw [compact_fun]

theorem encVar_eq (n : Nat) : encVar n = Spec.compact n := by rw [compact_fun]
theorem encVec_eq (b : Bytes) : encVec b = Spec.blob b := by rw [blob_fun]

theorem outPointBytes_fun : Spec.outPointBytes = encOutPoint := by
  funext o
  unfold Spec.outPointBytes encOutPoint
  rw [le32_fun]

theorem txInBytes_fun : Spec.txInBytes = encTxIn := by
  funext o
  unfold Spec.txInBytes encTxIn
  rw [le32_fun, outPointBytes_fun, blob_fun]

theorem txOutBytes_fun : Spec.txOutBytes = encTxOut := by
  funext o
  unfold Spec.txOutBytes encTxOut
  rw [le64_fun, blob_fun]

theorem witnessBytes_fun : Spec.witnessBytes = encWitness := by
  funext w
  unfold Spec.witnessBytes encWitness encList
  rw [compact_fun, blob_fun]

theorem unsignedTxBytes_fun : Spec.unsignedTxBytes = encTxLegacy := by
  funext t
  unfold Spec.unsignedTxBytes encTxLegacy encList
  rw [compact_fun, le32_fun, txInBytes_fun, txOutBytes_fun]

theorem txid_eq (L : Lib) (t : Tx) : Spec.txid L t = L.sha256d (encTxLegacy t) := by
  unfold Spec.txid
  rw [unsignedTxBytes_fun]

theorem txBytes_fun : Spec.txBytes = encTx := by
  funext t
  unfold Spec.txBytes encTx
  rw [unsignedTxBytes_fun, compact_fun, le32_fun, txInBytes_fun, txOutBytes_fun, witnessBytes_fun]
  have e : ((∃ i ∈ t.input, i.witness ≠ []) ∨ t.input = []) ↔ t.usesSegwit = true := by
    simp [Tx.usesSegwit]
  by_cases h : t.usesSegwit = true
  · rw [if_pos (e.mpr h), if_pos h]; rfl
  · rw [if_neg (fun x => h (e.mp x)), if_neg h]

end Psbt
