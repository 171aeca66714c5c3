/- C95, C96: taproot script trees and control blocks. -/
import Verif.Lemmas.V2Format
import Verif.Spec.TapSpend
import Verif.Props.V0Update
namespace Psbt
open Spec

variable {L : Lib}

/-! ### C95 -/

theorem treeBytes_eq (ls : List TapLeaf) : treeBytes ls = ls.flatMap encTapLeaf := by
  unfold treeBytes
  rw [blob_fun]; rfl

/-- C95. The bytes of a tap tree field are accepted exactly if they list the leaves of a binary tree of height up to 128,
depth-first and with their depths; what is kept are the leaves of that tree with the children of each node in the order of their
hashes. -/
theorem C95_read_iff {b : Bytes} (hb : b.length < 2 ^ 64) {t : TapTree L} :
    (tapTreeCodec L).deser b = .ok t ↔
      ∃ T : Tree, T.height ≤ 128 ∧ b = treeBytes (T.list 0) ∧ t.leaves = (T.sorted L).list 0 := by
  simp only [tapTreeCodec, bind_ok]
  constructor
  · rintro ⟨⟨ls, br⟩, h1, h2⟩
    obtain ⟨h3, h4⟩ := decTapLeaves_ok h1
    simp only at h2
    split at h2
    · rename_i m hm
      cases h2
      obtain ⟨T, g1, g2, g3⟩ := (tapBuildOf_iff L.sha256).mp hm
      exact ⟨T, g1, by rw [h3, treeBytes_eq, g2], by rw [sorted_eq]; exact g3⟩
    · cases h2
  · rintro ⟨T, h1, h2, h3⟩
    have hm : L.tapBuild (T.list 0) = some ((T.arrange L.sha256).list 0) := (tapBuildOf_iff L.sha256).mpr ⟨T, h1, rfl, rfl⟩
    obtain ⟨br, hbr⟩ := run_of_tapBuild hm
    rw [treeBytes_eq] at h2
    have hle : ∀ ls : List TapLeaf, ls.length ≤ (ls.flatMap encTapLeaf).length := by
      intro ls
      induction ls with
      | nil => simp
      | cons l ls ih => simp only [List.flatMap_cons, List.length_append, List.length_cons, encTapLeaf]; omega
    refine ⟨(T.list 0, br), ?_, ?_⟩
    · rw [h2]
      refine decTapLeaves_enc ?_ (hle _) hbr
      intro l hl
      have := length_flatMap_ge (f := encTapLeaf) hl
      rw [← h2] at this
      simp only [encTapLeaf, encVec, List.length_cons, List.length_append] at this
      omega
    · simp only
      split
      · rename_i m hm'
        rw [hm] at hm'
        cases hm'
        congr 1
        cases t
        rw [sorted_eq] at h3
        cases h3; rfl
      · rename_i hm'; rw [hm] at hm'; cases hm'

/-- C95. The listing says which tree it is. -/
theorem C95_listing_unique {S T : Tree} (hS : S.height ≤ 128) (hT : T.height ≤ 128) (h : S.list 0 = T.list 0) : S = T :=
  (list_split (d := 0) (r := []) (r' := []) (by omega) (by omega) (by simpa using h)).1

/-- C95. What is kept is the same tree up to which child comes first, has the same Merkle root, and is kept as it is when it is
read again. -/
theorem C95_same_tree (T : Tree) : Swapped T (T.sorted L) ∧ (T.sorted L).root L = T.root L ∧ (T.sorted L).height = T.height ∧
    (T.sorted L).sorted L = T.sorted L := by
  simp only [sorted_eq, root_eq]
  exact ⟨arrange_swapped L.sha256 T, arrange_hash L.sha256 T, arrange_height L.sha256 T, arrange_arrange L.sha256 T⟩

/-- C95. Trees that differ only in which child comes first have the same Merkle root. -/
theorem C95_swapped_root {S T : Tree} (h : Swapped S T) : S.root L = T.root L := by
  induction h with
  | leaf => rfl
  | same _ _ h1 h2 => simp only [Tree.root, h1, h2]
  | swap _ _ h1 h2 => simp only [Tree.root, h1, h2]; rw [tapBranch_comm]

/-- C95. Every tap tree of a PSBT is a tree of height up to 128 and is written as the listing of it. -/
theorem C95_written (t : TapTree L) : ∃ T : Tree, T.height ≤ 128 ∧ T.sorted L = T ∧ t.leaves = T.list 0 ∧
    (tapTreeCodec L).ser t = treeBytes (T.list 0) := by
  obtain ⟨S, h1, h2, h3⟩ := (tapBuildOf_iff L.sha256).mp t.ok
  refine ⟨S.arrange L.sha256, by rw [arrange_height]; exact h1, by rw [sorted_eq, arrange_arrange], h3, ?_⟩
  rw [treeBytes_eq, ← h3]; rfl

theorem unpath (k : Nat) (b : Bytes) (h : b.length = 32 * k) : ∃ p : List Hash32, p.length = k ∧ pathBytes p = b := by
  induction k generalizing b with
  | zero => exact ⟨[], rfl, by cases b; rfl; simp at h⟩
  | succ k ih =>
    obtain ⟨p, h1, h2⟩ := ih (b.drop 32) (by rw [List.length_drop]; omega)
    refine ⟨⟨b.take 32, by rw [List.length_take]; omega⟩ :: p, by simp [h1], ?_⟩
    show b.take 32 ++ pathBytes p = b
    rw [h2, List.take_append_drop]

theorem allBytes {P : UInt8 → Prop} (h : ∀ n : Fin 256, P (UInt8.ofNat n)) (v : UInt8) : P v := by
  have := h ⟨v.toNat, v.toNat_lt⟩
  simpa using this

theorem firstByte (v : UInt8) : v &&& 0xfe ≠ 0x50 ↔ ∃ (ver : LeafVersion) (odd : Bool), v = if odd then ver.1 + 1 else ver.1 := by
  constructor
  · intro h
    refine ⟨⟨v &&& 0xfe, ?_, h⟩, v &&& 1 == 1, ?_⟩
    · exact allBytes (P := fun v => (v &&& 0xfe).toNat % 2 = 0) (by decide +kernel) v
    · exact allBytes (P := fun v => v = if (v &&& 1 == 1) then (v &&& 0xfe) + 1 else v &&& 0xfe) (by decide +kernel) v
  · rintro ⟨⟨w, hw, hn⟩, odd, rfl⟩
    have := allBytes (P := fun w => w.toNat % 2 = 0 → (w + 1) &&& 0xfe = w ∧ w &&& 0xfe = w) (by decide +kernel) w hw
    cases odd
    · simpa [this.2] using hn
    · simpa [this.1] using hn

/-- C95. The bytes of a control block are accepted exactly if they are a leaf version with a parity, an internal key, and up to 128
hashes; all of it is kept. -/
theorem C95_control_iff {b : Bytes} {cb : L.ctrl.T} : (ctrlCodec L).deser b = .ok cb ↔
    ∃ ver odd k x p, p.length ≤ 128 ∧ b = controlBytes ver odd k p ∧ L.xonly.parse k = some x ∧ cb.bytes = controlBytes ver odd x.bytes p := by
  simp only [ctrlCodec, Foreign.codec, okOr_ok]
  have hp : L.ctrl.parse b = some cb ↔ ctrlDec L.xonly b = some cb.bytes := by
    constructor
    · exact fun h => Foreign.parse_some h
    · intro h
      show L.ctrl.parse b = some cb
      unfold Foreign.parse
      split
      · rename_i c hc
        have := hc.symm.trans h
        cases this
        rfl
      · rename_i hc
        exact absurd (hc.symm.trans h) (by simp)
  rw [hp]
  constructor
  · intro h
    unfold ctrlDec at h
    split at h
    · cases h
    · rename_i v r
      split at h
      · cases h
      · rename_i hl
        split at h
        · cases h
        · rename_i hv
          obtain ⟨ver, odd, e⟩ := (firstByte v).mp hv
          obtain ⟨p, p1, p2⟩ := unpath ((r.length - 32) / 32) (r.drop 32) (by rw [List.length_drop]; omega)
          cases hx : L.xonly.dec (r.take 32) with
          | none => rw [hx] at h; cases h
          | some c =>
            rw [hx] at h
            have h := Option.some.inj h
            have hpx : L.xonly.parse (r.take 32) = some ⟨c, L.xonly.canon _ _ hx⟩ := by
              unfold Foreign.parse
              split
              · rename_i d hd
                have := hd.symm.trans hx
                cases this
                rfl
              · rename_i hd; rw [hx] at hd; cases hd
            refine ⟨ver, odd, r.take 32, _, p, ?_, ?_, hpx, ?_⟩
            · simp only [MAX_TREE_DEPTH] at hl; omega
            · rw [controlBytes, p2, List.take_append_drop, ← e]
            · rw [← h, controlBytes, p2, ← e]
  · rintro ⟨ver, odd, k, x, p, h1, rfl, h3, h4⟩
    have hx := Foreign.parse_some h3
    have hl := L.xonly_len _ _ hx
    have hl2 : (k ++ pathBytes p).length = 32 + 32 * p.length := by rw [List.length_append, hl.1, pathBytes_length]
    simp only [ctrlDec, controlBytes, hl2, h4]
    rw [if_neg (by simp only [MAX_TREE_DEPTH]; omega), if_neg ((firstByte _).mpr ⟨ver, odd, rfl⟩),
      List.take_append_of_le_length (by omega), List.take_of_length_le (by omega), hx, Option.map_some,
      List.drop_append_of_le_length (by omega), List.drop_of_length_le (by omega), List.nil_append]

section Examples
/-- Three leaves, at the depths 1, 2 and 2. -/
def tTree : Tree := .node (.leaf TAPSCRIPT [9]) (.node (.leaf TAPSCRIPT [2, 2]) (.leaf ⟨0xc2, by decide⟩ []))
example : tTree.height = 2 ∧ treeBytes (tTree.list 0) = [1, 0xc0, 1, 9, 2, 0xc0, 2, 2, 2, 2, 0xc2, 0] := by decide
example : ((tapTreeCodec (Demo.lib false)).deser [1, 0xc0, 1, 9, 2, 0xc0, 2, 2, 2, 2, 0xc2, 0]).toOption.isSome = true := by decide +kernel
-- The last leaf is missing, or is too many.
example : (tapTreeCodec (Demo.lib false)).deser [1, 0xc0, 1, 9, 2, 0xc0, 2, 2, 2] = .error .tapTree := by rfl
example : (tapTreeCodec (Demo.lib false)).deser [0, 0xc0, 1, 9, 0, 0xc0, 0] = .error (.taproot "Tree not in DFS order") := by rfl
-- A control block with two hashes, and one with a version that is none.
example : ∃ cb, (ctrlCodec (Demo.lib false)).deser (0xc1 :: List.replicate 96 7) = .ok cb ∧ cb.bytes.length = 97 := ⟨_, rfl, rfl⟩
example : (ctrlCodec (Demo.lib false)).deser (0x51 :: List.replicate 96 7) = .error .invalidControlBlock := rfl
example : (ctrlCodec (Demo.lib false)).deser (0xc0 :: List.replicate 95 7) = .error .invalidControlBlock := rfl
end Examples

end Psbt
