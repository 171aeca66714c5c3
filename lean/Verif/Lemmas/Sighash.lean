/- The encodings hashed by the signature hash algorithms are injective. -/
import Verif.Model.Sighash
import Verif.Lemmas.Wire
namespace Psbt

variable {L : Lib}

theorem RT.inj {α : Type} {e : α → Bytes} {d : Dec α} {a b : α} (ha : RT e d a) (hb : RT e d b) {r s : Bytes}
    (h : e a ++ r = e b ++ s) : a = b ∧ r = s := by
  have h1 := ha r
  rw [h, hb s] at h1
  injection h1 with h1
  injection h1 with h1 h2
  exact ⟨h1.symm, h2.symm⟩

theorem flatMap_inj {α : Type} {e : α → Bytes} {d : Dec α} {l m : List α} (hl : ∀ a ∈ l, RT e d a) (hm : ∀ a ∈ m, RT e d a)
    (hn : ∀ a, e a ≠ []) (h : l.flatMap e = m.flatMap e) : l = m := by
  induction l generalizing m with
  | nil =>
    cases m with
    | nil => rfl
    | cons b m =>
      simp only [List.flatMap_nil, List.flatMap_cons] at h
      exact absurd (List.append_eq_nil_iff.mp h.symm).1 (hn b)
  | cons a l ih =>
    cases m with
    | nil =>
      simp only [List.flatMap_nil, List.flatMap_cons] at h
      exact absurd (List.append_eq_nil_iff.mp h).1 (hn a)
    | cons b m =>
      simp only [List.flatMap_cons] at h
      obtain ⟨h1, h2⟩ := RT.inj (hl a (by simp)) (hm b (by simp)) h
      rw [h1, ih (fun x hx => hl x (by simp [hx])) (fun x hx => hm x (by simp [hx])) h2]

theorem encU32_ne (n : UInt32) : encU32 n ≠ [] := by
  intro h; have := congrArg List.length h; simp at this
theorem encOutPoint_ne (o : OutPoint) : encOutPoint o ≠ [] := by
  intro h; have := congrArg List.length h; simp [encOutPoint] at this
theorem encTxOut_ne (o : TxOut) : encTxOut o ≠ [] := by
  intro h; have := congrArg List.length h; simp [encTxOut] at this

theorem decU32_rt (n : UInt32) : RT encU32 decU32 n := fun r => decU32_enc n r
theorem decU64_rt (n : UInt64) : RT encU64 decU64 n := fun r => decU64_enc n r
theorem decHash32_rt (t : Hash32) : RT (fun t : Hash32 => t.1) decHash32 t := fun r => decHash32_enc t r
theorem decVecFin_rt {v : Bytes} (h : v.length < 2 ^ 64) : RT encVec decVecFin v := fun r => decVecFin_enc h r

theorem toUInt32_inj {a b : UInt8} (h : a.toUInt32 = b.toUInt32) : a = b := by
  have := congrArg UInt32.toNat h
  simp only [UInt8.toNat_toUInt32] at this
  exact UInt8.toNat_inj.mp this

end Psbt
