/- The taproot tree builder builds exactly the binary trees of height up to 128. -/
import Verif.Spec.TapTree
namespace Psbt
open Spec

theorem bytesLt_asymm {a b : Bytes} (h : bytesLt a b = true) : bytesLt b a = false := by
  cases h' : bytesLt b a with
  | false => rfl
  | true => rw [← bytesLt_irrefl a, bytesLt_trans _ _ _ h h']

section
variable (sha : Bytes → FixedBytes 32)

theorem combineHashes_comm (a b : FixedBytes 32) : combineHashes sha a b = combineHashes sha b a := by
  unfold combineHashes
  rcases bytesLt_tri a.1 b.1 with h | h | h
  · rw [if_pos h, if_neg (by simp [bytesLt_asymm h])]
  · rw [Subtype.ext h]
  · rw [if_pos h, if_neg (by simp [bytesLt_asymm h])]

/-- One hash more on the way up. -/
def LeafNode.ext (h : FixedBytes 32) (l : LeafNode) : LeafNode := { l with branch := l.branch ++ [h] }

/-- `NodeInfo::combine` without the check of the depth. -/
def NodeInfo.join (a b : NodeInfo) : NodeInfo :=
  if bytesLt a.hash.1 b.hash.1 then ⟨combineHashes sha a.hash b.hash, a.leaves.map (.ext b.hash) ++ b.leaves.map (.ext a.hash)⟩
  else ⟨combineHashes sha a.hash b.hash, b.leaves.map (.ext a.hash) ++ a.leaves.map (.ext b.hash)⟩

theorem pushAll_ok {h : FixedBytes 32} {ls : List LeafNode} (hl : ∀ l ∈ ls, l.branch.length < 128) :
    pushAll h ls = .ok (ls.map (.ext h)) := by
  induction ls with
  | nil => rfl
  | cons l ls ih =>
    have := hl l (by simp)
    have e : l.push h = .ok (l.ext h) := by
      unfold LeafNode.push
      rw [if_neg (by simp only [MAX_TREE_DEPTH]; omega)]
      rfl
    simp only [pushAll]
    rw [e, ih fun x hx => hl x (by simp [hx])]
    rfl

theorem combine_ok {a b : NodeInfo} (ha : ∀ l ∈ a.leaves, l.branch.length < 128) (hb : ∀ l ∈ b.leaves, l.branch.length < 128) :
    a.combine sha b = .ok (a.join sha b) := by
  unfold NodeInfo.combine NodeInfo.join
  by_cases h : bytesLt a.hash.1 b.hash.1
  · simp only [h, if_true]
    rw [pushAll_ok ha, pushAll_ok hb]
    rfl
  · simp only [h, if_false, Bool.false_eq_true]
    rw [pushAll_ok ha, pushAll_ok hb]
    rfl

/-- The hash of a tree. -/
def Spec.Tree.hash : Tree → FixedBytes 32
  | .leaf v s => leafNodeHash sha s v
  | .node l r => combineHashes sha (hash r) (hash l)

/-- What the builder makes of a tree. -/
def Spec.Tree.info : Tree → NodeInfo
  | .leaf v s => .newLeaf sha s v
  | .node l r => (info r).join sha (info l)

/-- The tree with the children in the order of their hashes. -/
def Spec.Tree.arrange : Tree → Tree
  | .leaf v s => .leaf v s
  | .node l r => if bytesLt (r.hash sha).1 (l.hash sha).1 then .node (arrange r) (arrange l) else .node (arrange l) (arrange r)

theorem info_hash (T : Tree) : (T.info sha).hash = T.hash sha := by
  induction T with
  | leaf v s => rfl
  | node l r hl hr =>
    simp only [Tree.info, NodeInfo.join, Tree.hash]
    split <;> simp [hl, hr]

theorem info_height {T : Tree} {l : LeafNode} (h : l ∈ (T.info sha).leaves) : l.branch.length ≤ T.height := by
  induction T generalizing l with
  | leaf v s =>
    simp only [Tree.info, NodeInfo.newLeaf, List.mem_singleton] at h
    subst h; simp
  | node a b ha hb =>
    simp only [Tree.info, NodeInfo.join] at h
    simp only [Tree.height]
    split at h <;>
    · rw [List.mem_append, List.mem_map, List.mem_map] at h
      rcases h with ⟨x, hx, rfl⟩ | ⟨x, hx, rfl⟩
      all_goals
        simp only [LeafNode.ext, List.length_append, List.length_cons, List.length_nil]
        first | (have := ha hx; omega) | (have := hb hx; omega)

theorem info_leaves (T : Tree) (d : Nat) :
    (T.info sha).leaves.map (fun l => (⟨UInt8.ofNat (d + l.branch.length), l.ver, l.script⟩ : TapLeaf)) = (T.arrange sha).list d := by
  induction T generalizing d with
  | leaf v s => rfl
  | node a b ha hb =>
    have e : ∀ (h : FixedBytes 32) (ls : List LeafNode),
        (ls.map (LeafNode.ext h)).map (fun l => (⟨UInt8.ofNat (d + l.branch.length), l.ver, l.script⟩ : TapLeaf)) =
        ls.map (fun l => (⟨UInt8.ofNat (d + 1 + l.branch.length), l.ver, l.script⟩ : TapLeaf)) := by
      intro h ls
      rw [List.map_map]
      refine List.map_congr_left fun l _ => ?_
      simp only [Function.comp, LeafNode.ext, List.length_append, List.length_cons, List.length_nil]
      rw [show d + (l.branch.length + (0 + 1)) = d + 1 + l.branch.length by omega]
    simp only [Tree.info, NodeInfo.join, Tree.arrange, info_hash]
    split
    · rw [List.map_append, e, e, ha, hb]; rfl
    · rw [List.map_append, e, e, ha, hb]; rfl

theorem arrange_height (T : Tree) : (T.arrange sha).height = T.height := by
  induction T with
  | leaf v s => rfl
  | node a b ha hb =>
    simp only [Tree.arrange]
    split <;> simp only [Tree.height, ha, hb]
    omega

theorem arrange_hash (T : Tree) : (T.arrange sha).hash sha = T.hash sha := by
  induction T with
  | leaf v s => rfl
  | node a b ha hb =>
    simp only [Tree.arrange]
    split <;> simp only [Tree.hash, ha, hb]
    exact combineHashes_comm sha _ _

theorem arrange_arrange (T : Tree) : (T.arrange sha).arrange sha = T.arrange sha := by
  induction T with
  | leaf v s => rfl
  | node a b ha hb =>
    simp only [Tree.arrange]
    split
    · rename_i h
      simp only [Tree.arrange, arrange_hash, bytesLt_asymm h, ha, hb]
      rfl
    · rename_i h
      simp only [Tree.arrange, arrange_hash, h, ha, hb]
      rfl

theorem arrange_swapped (T : Tree) : Swapped T (T.arrange sha) := by
  induction T with
  | leaf v s => exact .leaf
  | node a b ha hb =>
    simp only [Tree.arrange]
    split
    · exact .swap ha hb
    · exact .same ha hb

theorem swapped_size {S T : Tree} (h : Swapped S T) (d : Nat) :
    ((S.list d).flatMap encTapLeaf).length = ((T.list d).flatMap encTapLeaf).length := by
  induction h generalizing d with
  | leaf => rfl
  | same _ _ h1 h2 => simp only [Tree.list, List.flatMap_append, List.length_append, h1, h2]
  | swap _ _ h1 h2 => simp only [Tree.list, List.flatMap_append, List.length_append, h1, h2]; omega

theorem insert_grow {br : TapBuilder} {n : NodeInfo} {d : Nat} (h : br.length ≤ d) (hd : d ≤ 128) :
    br.insert sha n d = .ok (some n :: (List.replicate (d - br.length) none ++ br)) := by
  unfold TapBuilder.insert
  rw [if_neg (by simp only [MAX_TREE_DEPTH]; omega), if_neg (by omega)]
  have hp : TapBuilder.propagate sha br n d = .ok (br, n, d) := by
    match br with
    | [] => rfl
    | none :: _ => rfl
    | some c :: b =>
      simp only [List.length_cons] at h
      simp only [TapBuilder.propagate]
      rw [if_neg (by omega)]
  rw [hp]
  simp only [Bind.bind, Except.bind]
  rw [show d + 1 - br.length = (d - br.length) + 1 by omega, List.replicate_succ]
  rfl

/-- Feeding the builder with the leaves of a tree is inserting the tree. -/
theorem run_tree {T : Tree} {br : TapBuilder} {d : Nat} (hb : br.length ≤ d + 1) (hd : d + T.height ≤ 128) (ls : List TapLeaf) :
    br.run sha (T.list d ++ ls) = (br.insert sha (T.info sha) d >>= fun br => br.run sha ls) := by
  induction T generalizing br d ls with
  | leaf v s =>
    simp only [Tree.height] at hd
    simp only [Tree.list, List.cons_append, List.nil_append, TapBuilder.run, TapBuilder.addLeaf, Tree.info]
    rw [show (UInt8.ofNat d).toNat = d from UInt8.toNat_ofNat_of_lt' (by simp [UInt8.size]; omega)]
  | node l r hl hr =>
    simp only [Tree.height] at hd
    simp only [Tree.list, List.append_assoc]
    rw [hl (by omega) (by omega), insert_grow sha (by omega) (by omega)]
    simp only [Bind.bind, Except.bind]
    have e0 : (List.replicate (d + 1 - br.length) none ++ br).length = d + 1 := by simp; omega
    rw [hr (by simp; omega) (by omega)]
    simp only [Bind.bind, Except.bind]
    suffices hs : TapBuilder.insert sha (some (l.info sha) :: (List.replicate (d + 1 - br.length) none ++ br)) (r.info sha) (d + 1) =
        br.insert sha ((Tree.node l r).info sha) d by rw [hs]
    have hc : (r.info sha).combine sha (l.info sha) = .ok ((Tree.node l r).info sha) :=
      combine_ok sha (fun x hx => by have := info_height sha hx; omega) (fun x hx => by have := info_height sha hx; omega)
    unfold TapBuilder.insert
    rw [if_neg (by simp only [MAX_TREE_DEPTH]; omega), if_neg (by simp only [List.length_cons, e0]; omega),
      if_neg (by simp only [MAX_TREE_DEPTH]; omega), if_neg (by omega)]
    have hp : TapBuilder.propagate sha (some (l.info sha) :: (List.replicate (d + 1 - br.length) none ++ br)) (r.info sha) (d + 1) =
        TapBuilder.propagate sha (List.replicate (d + 1 - br.length) none ++ br) ((Tree.node l r).info sha) d := by
      simp only [TapBuilder.propagate]
      rw [if_pos e0, if_neg (by omega), hc]
      rfl
    rw [hp]
    by_cases h : br.length = d + 1
    · rw [h, Nat.sub_self]
      rfl
    · have e1 : d + 1 - br.length = (d - br.length) + 1 := by omega
      have hp1 : TapBuilder.propagate sha (List.replicate (d + 1 - br.length) none ++ br) ((Tree.node l r).info sha) d =
          .ok (List.replicate (d + 1 - br.length) none ++ br, (Tree.node l r).info sha, d) := by
        rw [e1, List.replicate_succ, List.cons_append]
        rfl
      have hp2 : TapBuilder.propagate sha br ((Tree.node l r).info sha) d = .ok (br, (Tree.node l r).info sha, d) := by
        match br with
        | [] => rfl
        | none :: _ => rfl
        | some c :: b =>
          simp only [List.length_cons] at h
          simp only [TapBuilder.propagate]
          rw [if_neg (by omega)]
      rw [hp1, hp2]
      simp only [Bind.bind, Except.bind, e0, Nat.sub_self, List.replicate_zero, List.nil_append]

theorem nodeOf_tree {T : Tree} (h : T.height ≤ 128) : nodeOf sha (T.list 0) = some (T.info sha) := by
  have := run_tree sha (T := T) (br := []) (d := 0) (by simp) (by omega) []
  rw [List.append_nil, insert_grow sha (by simp) (by omega)] at this
  unfold nodeOf
  rw [this]
  rfl

/-- The leaves listed by a builder with these trees in its branch. -/
def listing : List (Option Tree) → List TapLeaf
  | [] => []
  | some t :: r => listing r ++ t.list r.length
  | none :: r => listing r

/-- No leaf is deeper than 128. -/
def Fit : List (Option Tree) → Prop
  | [] => True
  | some t :: r => r.length + t.height ≤ 128 ∧ Fit r
  | none :: r => Fit r

/-- The branch of a builder with these trees. -/
def branchOf (F : List (Option Tree)) : TapBuilder := F.map (Option.map (Tree.info sha))

theorem propagate_forest {F : List (Option Tree)} {T : Tree} {d : Nat} {br : TapBuilder} {n : NodeInfo} {d' : Nat}
    (hF : Fit F) (hT : d + T.height ≤ 128) (hl : F.length ≤ d + 1)
    (h : TapBuilder.propagate sha (branchOf sha F) (T.info sha) d = .ok (br, n, d')) :
    ∃ (F' : List (Option Tree)) (T' : Tree), br = branchOf sha F' ∧ n = T'.info sha ∧ Fit F' ∧ d' + T'.height ≤ 128 ∧ F'.length ≤ d' + 1 ∧
      (F'.length = d' + 1 → ∃ R, F' = none :: R) ∧ listing F' ++ T'.list d' = listing F ++ T.list d := by
  induction F generalizing T d with
  | nil =>
    simp only [branchOf, List.map_nil, TapBuilder.propagate] at h
    cases h
    exact ⟨[], T, rfl, rfl, trivial, hT, by simp, by simp, rfl⟩
  | cons x R ih =>
    cases x with
    | none =>
      simp only [branchOf, List.map_cons, Option.map_none, TapBuilder.propagate] at h
      cases h
      exact ⟨none :: R, T, rfl, rfl, hF, hT, hl, fun _ => ⟨R, rfl⟩, rfl⟩
    | some C =>
      simp only [branchOf, List.map_cons, Option.map_some, TapBuilder.propagate, List.length_map] at h
      by_cases hd : R.length = d
      · rw [if_pos hd] at h
        by_cases h0 : d = 0
        · rw [if_pos h0] at h; cases h
        · rw [if_neg h0] at h
          obtain ⟨hC, hR⟩ := hF
          have hc : (T.info sha).combine sha (C.info sha) = .ok ((Tree.node C T).info sha) :=
            combine_ok sha (fun y hy => by have := info_height sha hy; omega) (fun y hy => by have := info_height sha hy; omega)
          rw [hc] at h
          obtain ⟨F', T', h1, h2, h3, h4, h5, h6, h7⟩ := ih (T := .node C T) (d := d - 1) hR (by simp only [Tree.height]; omega) (by omega) h
          refine ⟨F', T', h1, h2, h3, h4, h5, h6, ?_⟩
          rw [h7]
          simp only [listing, Tree.list, hd, show d - 1 + 1 = d by omega, List.append_assoc]
      · rw [if_neg hd] at h
        cases h
        refine ⟨some C :: R, T, rfl, rfl, hF, hT, hl, fun e => ?_, rfl⟩
        simp only [List.length_cons] at e
        omega

theorem listing_grow (k : Nat) (F : List (Option Tree)) : listing (List.replicate k none ++ F) = listing F := by
  induction k with
  | zero => rfl
  | succ k ih => rw [List.replicate_succ, List.cons_append]; exact ih

theorem fit_grow {k : Nat} {F : List (Option Tree)} (h : Fit F) : Fit (List.replicate k none ++ F) := by
  induction k with
  | zero => exact h
  | succ k ih => rw [List.replicate_succ, List.cons_append]; exact ih

theorem insert_forest {F : List (Option Tree)} {T : Tree} {d : Nat} {br : TapBuilder} (hF : Fit F) (hT : d + T.height ≤ 128)
    (h : TapBuilder.insert sha (branchOf sha F) (T.info sha) d = .ok br) :
    ∃ F', br = branchOf sha F' ∧ Fit F' ∧ (∃ t R, F' = some t :: R) ∧ listing F' = listing F ++ T.list d := by
  unfold TapBuilder.insert at h
  rw [if_neg (by simp only [MAX_TREE_DEPTH]; omega)] at h
  by_cases hl : d + 1 < (branchOf sha F).length
  · rw [if_pos hl] at h; cases h
  rw [if_neg hl] at h
  cases hp : TapBuilder.propagate sha (branchOf sha F) (T.info sha) d with
  | error e => rw [hp] at h; cases h
  | ok x =>
    obtain ⟨br1, n, d'⟩ := x
    rw [hp] at h
    obtain ⟨F', T', rfl, rfl, h3, h4, h5, h6, h7⟩ := propagate_forest sha hF hT (by simp [branchOf] at hl; omega) hp
    have h := Except.ok.inj h
    have hlen : (branchOf sha F').length = F'.length := by simp [branchOf]
    rw [hlen] at h
    by_cases he : F'.length = d' + 1
    · obtain ⟨R, rfl⟩ := h6 he
      simp only [List.length_cons] at he
      refine ⟨some T' :: R, ?_, ⟨by omega, h3⟩, ⟨_, _, rfl⟩, ?_⟩
      · rw [← h, List.length_cons, show d' + 1 - (R.length + 1) = 0 by omega]
        rfl
      · rw [← h7]
        simp only [listing, show R.length = d' by omega]
    · refine ⟨some T' :: (List.replicate (d' - F'.length) none ++ F'), ?_, ⟨?_, fit_grow h3⟩, ⟨_, _, rfl⟩, ?_⟩
      · rw [← h, show d' + 1 - F'.length = (d' - F'.length) + 1 by omega, List.replicate_succ]
        simp [branchOf]
      · simp only [List.length_append, List.length_replicate]
        omega
      · rw [← h7]
        simp only [listing, listing_grow, List.length_append, List.length_replicate, show d' - F'.length + F'.length = d' by omega]

theorem run_forest {F : List (Option Tree)} {ls : List TapLeaf} {br : TapBuilder} (hF : Fit F) (ht : F = [] ∨ ∃ t R, F = some t :: R)
    (h : TapBuilder.run sha (branchOf sha F) ls = .ok br) :
    ∃ F', br = branchOf sha F' ∧ Fit F' ∧ (F' = [] ∨ ∃ t R, F' = some t :: R) ∧ listing F' = listing F ++ ls := by
  induction ls generalizing F with
  | nil =>
    cases h
    exact ⟨F, rfl, hF, ht, by simp⟩
  | cons l ls ih =>
    simp only [TapBuilder.run] at h
    cases hi : TapBuilder.addLeaf sha (branchOf sha F) l with
    | error e => rw [hi] at h; cases h
    | ok br1 =>
      rw [hi] at h
      have hd : l.depth.toNat ≤ 128 := by
        unfold TapBuilder.addLeaf TapBuilder.insert at hi
        by_cases hd : MAX_TREE_DEPTH < l.depth.toNat
        · rw [if_pos hd] at hi; cases hi
        · simp only [MAX_TREE_DEPTH] at hd; omega
      obtain ⟨F1, rfl, h2, h3, h4⟩ := insert_forest sha (T := .leaf l.ver l.script) hF (by simp only [Tree.height]; omega) hi
      obtain ⟨F2, rfl, h5, h6, h7⟩ := ih h2 (.inr h3) h
      refine ⟨F2, rfl, h5, h6, ?_⟩
      rw [h7, h4]
      simp [Tree.list]

/-- A builder that took leaves has a node at the end of its branch. -/
theorem TapBuilder.run_top {ls : List TapLeaf} {br : TapBuilder} (h : TapBuilder.run sha [] ls = .ok br) :
    br = [] ∨ ∃ n r, br = some n :: r := by
  obtain ⟨F, rfl, -, h, -⟩ := run_forest sha (F := []) trivial (.inl rfl) h
  rcases h with rfl | ⟨t, R, rfl⟩
  · exact .inl rfl
  · exact .inr ⟨_, _, rfl⟩

theorem nodeOf_iff {ls : List TapLeaf} {n : NodeInfo} :
    nodeOf sha ls = some n ↔ ∃ T : Tree, T.height ≤ 128 ∧ ls = T.list 0 ∧ n = T.info sha := by
  constructor
  · intro h
    unfold nodeOf at h
    cases hr : TapBuilder.run sha [] ls with
    | error e => rw [hr] at h; cases h
    | ok br =>
      rw [hr] at h
      obtain ⟨F, rfl, h2, h3, h4⟩ := run_forest sha (F := []) trivial (.inl rfl) hr
      rcases h3 with rfl | ⟨t, R, rfl⟩
      · cases h
      · cases R with
        | cons x R => cases h
        | nil =>
          cases h
          refine ⟨t, by have := h2.1; simpa using this, ?_, rfl⟩
          rw [← List.nil_append ls]
          exact h4.symm
  · rintro ⟨T, h1, rfl, rfl⟩
    exact nodeOf_tree sha h1

theorem tapBuildOf_iff {ls m : List TapLeaf} :
    tapBuildOf sha ls = some m ↔ ∃ T : Tree, T.height ≤ 128 ∧ ls = T.list 0 ∧ m = (T.arrange sha).list 0 := by
  have e : ∀ T : Tree, (T.info sha).leaves.map LeafNode.toLeaf = (T.arrange sha).list 0 := by
    intro T
    rw [← info_leaves]
    refine List.map_congr_left fun l _ => ?_
    simp [LeafNode.toLeaf]
  unfold tapBuildOf
  rw [Option.map_eq_some_iff]
  constructor
  · rintro ⟨n, h, rfl⟩
    obtain ⟨T, h1, h2, rfl⟩ := (nodeOf_iff sha).mp h
    exact ⟨T, h1, h2, e T⟩
  · rintro ⟨T, h1, h2, rfl⟩
    exact ⟨_, (nodeOf_iff sha).mpr ⟨T, h1, h2, rfl⟩, e T⟩

theorem tapBuildOf_canon {l m : List TapLeaf} (h : tapBuildOf sha l = some m) : tapBuildOf sha m = some m := by
  obtain ⟨T, h1, rfl, rfl⟩ := (tapBuildOf_iff sha).mp h
  exact (tapBuildOf_iff sha).mpr ⟨T.arrange sha, by rw [arrange_height]; exact h1, rfl, by rw [arrange_arrange]⟩

theorem tapBuildOf_shrink {l m : List TapLeaf} (h : tapBuildOf sha l = some m) :
    (m.flatMap encTapLeaf).length ≤ (l.flatMap encTapLeaf).length := by
  obtain ⟨T, h1, rfl, rfl⟩ := (tapBuildOf_iff sha).mp h
  exact Nat.le_of_eq (swapped_size (arrange_swapped sha T) 0).symm
end

end Psbt
