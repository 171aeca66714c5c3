/- Merkle roots, control blocks and their order: the builder's are those of BIP-341. -/
import Verif.Spec.V0Update
import Verif.Lemmas.Encoding
import Verif.Lemmas.Ser
namespace Psbt
open Spec

theorem bytesLt_iff {a b : Bytes} : bytesLt a b = true ↔ a < b := by
  induction a generalizing b with
  | nil => cases b <;> simp [bytesLt]
  | cons x a ih =>
    cases b with
    | nil => simp [bytesLt]
    | cons y b =>
      simp only [bytesLt]
      rw [List.cons_lt_cons_iff]
      by_cases h : x < y
      · simp [h]
      · by_cases h' : y < x
        · have : x ≠ y := by rintro rfl; exact h h'
          simp [h, h', this]
        · have : x = y := by
            rw [UInt8.lt_iff_toNat_lt] at h h'
            exact UInt8.toNat_inj.mp (by omega)
          simp [h, h', this, ih]

variable {L : Lib}

theorem tapLeaf_eq (ver : LeafVersion) (s : Bytes) : tapLeaf L ver s = leafNodeHash L.sha256 s ver := by
  simp [tapLeaf, tagged, taggedMsg, leafNodeHash, tagHash, blob_fun]

theorem tapBranch_eq (a b : Hash32) : tapBranch L a b = combineHashes L.sha256 a b := by
  unfold tapBranch combineHashes tagged taggedMsg tagHash
  by_cases h : bytesLt a.1 b.1 = true
  · rw [if_pos h, if_pos (bytesLt_iff.mp h)]; rfl
  · rw [if_neg h, if_neg (fun e => h (bytesLt_iff.mpr e))]; rfl

theorem root_eq (T : Tree) : T.root L = T.hash L.sha256 := by
  induction T with
  | leaf v s => exact tapLeaf_eq v s
  | node l r hl hr => simp only [Tree.root, Tree.hash]; rw [tapBranch_eq, hl, hr, combineHashes_comm]

theorem sorted_eq (T : Tree) : T.sorted L = T.arrange L.sha256 := by
  induction T with
  | leaf v s => rfl
  | node l r hl hr =>
    simp only [Tree.sorted, Tree.arrange, hl, hr, root_eq]
    by_cases h : bytesLt (r.hash L.sha256).1 (l.hash L.sha256).1 = true
    · rw [if_pos h, if_pos (bytesLt_iff.mp h)]
    · rw [if_neg h, if_neg (fun e => h (bytesLt_iff.mpr e))]

theorem list_ne_nil (T : Tree) (d : Nat) : T.list d ≠ [] := by
  induction T generalizing d with
  | leaf => simp [Tree.list]
  | node l r hl hr => simp [Tree.list, hl]

theorem depth_ge {T : Tree} {d : Nat} (h : d + T.height < 256) {l : TapLeaf} (hl : l ∈ T.list d) : d ≤ l.depth.toNat := by
  induction T generalizing d with
  | leaf v s =>
    simp only [Tree.list, List.mem_singleton] at hl
    subst hl
    simp only [Tree.height] at h
    rw [UInt8.toNat_ofNat_of_lt' (by simpa using h)]
    omega
  | node a b ha hb =>
    simp only [Tree.height] at h
    simp only [Tree.list, List.mem_append] at hl
    rcases hl with hl | hl
    · have := ha (d := d + 1) (by omega) hl; omega
    · have := hb (d := d + 1) (by omega) hl; omega

theorem leaf_ne_node {v s a b d} {x y : List TapLeaf} (h : d + (Tree.node a b).height < 256) :
    (Tree.leaf v s).list d ++ x ≠ (Tree.node a b).list d ++ y := by
  intro e
  have hx : (⟨UInt8.ofNat d, v, s⟩ : TapLeaf) ∈ a.list (d + 1) := by
    cases hl : a.list (d + 1) with
    | nil => exact absurd hl (list_ne_nil a _)
    | cons z zs =>
      simp only [Tree.list, hl, List.cons_append, List.nil_append, List.cons.injEq] at e
      rw [← e.1]; simp
  simp only [Tree.height] at h
  have h1 := depth_ge (by omega) hx
  rw [show ((⟨UInt8.ofNat d, v, s⟩ : TapLeaf).depth) = UInt8.ofNat d from rfl, UInt8.toNat_ofNat_of_lt' (show d < 256 by omega)] at h1
  omega

/-- A listing determines its tree, whatever follows. -/
theorem list_split {S T : Tree} {d : Nat} {r r' : List TapLeaf} (hS : d + S.height < 256) (hT : d + T.height < 256)
    (h : S.list d ++ r = T.list d ++ r') : S = T ∧ r = r' := by
  induction S generalizing T d r r' with
  | leaf v s =>
    cases T with
    | leaf v' s' =>
      simp only [Tree.list, List.cons_append, List.nil_append, List.cons.injEq, TapLeaf.mk.injEq, true_and] at h
      obtain ⟨⟨rfl, rfl⟩, rfl⟩ := h
      exact ⟨rfl, rfl⟩
    | node a b => exact absurd h (leaf_ne_node hT)
  | node a b ha hb =>
    cases T with
    | leaf v' s' => exact absurd h.symm (leaf_ne_node hS)
    | node a' b' =>
      simp only [Tree.height] at hS hT
      simp only [Tree.list, List.append_assoc] at h
      obtain ⟨rfl, h2⟩ := ha (d := d + 1) (T := a') (by omega) (by omega) h
      obtain ⟨rfl, h3⟩ := hb (d := d + 1) (T := b') (by omega) (by omega) h2
      exact ⟨rfl, h3⟩

theorem tapBranch_comm (a b : Hash32) : tapBranch L a b = tapBranch L b a := by
  rw [tapBranch_eq, tapBranch_eq, combineHashes_comm]

theorem proven_append (h : Hash32) (p : List Hash32) (a : Hash32) : proven L h (p ++ [a]) = tapBranch L (proven L h p) a := by
  induction p generalizing h with
  | nil => rfl
  | cons b p ih => exact ih _

/-- A proof leads to the root. -/
theorem proven_path {ver script T p} (h : Path L ver script T p) : proven L (tapLeaf L ver script) p = T.root L := by
  induction h with
  | leaf => rfl
  | left _ ih => rw [proven_append, ih]; rfl
  | right _ ih => rw [proven_append, ih, tapBranch_comm]; rfl

/-- What a descriptor's leaves are. -/
inductive InfoIs (L : Lib) : List TapLeaf → Option NodeInfo → Prop
  | empty : InfoIs L [] none
  | tree {T : Tree} : T.height ≤ 128 → InfoIs L (T.list 0) (some (T.info L.sha256))

theorem V0.spendInfo_cases (tree : List TapLeaf) :
    (∃ info, V0.spendInfo L tree = .ok info ∧ InfoIs L tree info) ∨
    (∃ w, V0.spendInfo L tree = .error (.panic w)) ∧ tree ≠ [] ∧ ¬ ∃ T : Tree, T.height ≤ 128 ∧ tree = T.list 0 := by
  unfold V0.spendInfo
  cases tree with
  | nil => exact .inl ⟨none, rfl, .empty⟩
  | cons l ls =>
    simp only [List.isEmpty_cons, Bool.false_eq_true, if_false]
    cases hn : nodeOf L.sha256 (l :: ls) with
    | some n =>
      obtain ⟨T, h1, h2, h3⟩ := (nodeOf_iff L.sha256).mp hn
      refine .inl ⟨_, rfl, ?_⟩
      rw [h2, h3]
      exact .tree h1
    | none =>
      refine .inr ⟨⟨_, rfl⟩, by simp, ?_⟩
      rintro ⟨T, h1, h2⟩
      rw [h2, nodeOf_tree L.sha256 h1] at hn
      cases hn

theorem list_inj {S T : Tree} (hS : S.height ≤ 128) (hT : T.height ≤ 128) (h : S.list 0 = T.list 0) :
    S.info L.sha256 = T.info L.sha256 := by
  have := nodeOf_tree L.sha256 hS
  rw [h, nodeOf_tree L.sha256 hT] at this
  exact (Option.some.inj this).symm

theorem InfoIs.root {tree info} (h : InfoIs L tree info) : MerkleRoot L tree (V0.rootOf info) := by
  cases h with
  | empty => exact .empty
  | @tree T h =>
    have := MerkleRoot.tree (L := L) h
    simp only [V0.rootOf, Option.map_some, info_hash]
    rwa [root_eq] at this

theorem Spec.MerkleRoot.unique {tree r s} (h : MerkleRoot L tree r) (h' : MerkleRoot L tree s) : r = s := by
  cases h with
  | empty =>
    generalize ht : ([] : List TapLeaf) = t at h'
    cases h' with
    | empty => rfl
    | @tree T h => exact absurd ht.symm (list_ne_nil T 0)
  | @tree T h =>
    generalize ht : T.list 0 = t at h'
    cases h' with
    | empty => exact absurd ht (list_ne_nil T 0)
    | @tree S h2 =>
      have := list_inj (L := L) h h2 ht
      rw [root_eq, root_eq, ← info_hash, ← info_hash, this]

theorem V0.mem_branchesOf {T : Tree} {ver script p} :
    p ∈ V0.branchesOf (T.info L.sha256) script ver ↔ Path L ver script T p := by
  have key : ∀ p, (∃ l ∈ (T.info L.sha256).leaves, l.script = script ∧ l.ver = ver ∧ l.branch = p) ↔ Path L ver script T p := by
    induction T with
    | leaf v s =>
      intro p
      simp only [Tree.info, NodeInfo.newLeaf, List.mem_singleton, exists_eq_left]
      constructor
      · rintro ⟨rfl, rfl, rfl⟩; exact .leaf
      · intro h; cases h; exact ⟨rfl, rfl, rfl⟩
    | node a b ha hb =>
      intro p
      have e : (∃ l ∈ ((Tree.node a b).info L.sha256).leaves, l.script = script ∧ l.ver = ver ∧ l.branch = p) ↔
          (∃ l ∈ (a.info L.sha256).leaves, l.script = script ∧ l.ver = ver ∧ l.branch ++ [b.root L] = p) ∨
          (∃ l ∈ (b.info L.sha256).leaves, l.script = script ∧ l.ver = ver ∧ l.branch ++ [a.root L] = p) := by
        simp only [Tree.info, NodeInfo.join, root_eq, info_hash]
        split <;> simp only [List.mem_append, List.mem_map] <;>
        · constructor
          · rintro ⟨l, ⟨x, hx, rfl⟩ | ⟨x, hx, rfl⟩, h1, h2, h3⟩
            all_goals first | exact .inl ⟨x, hx, h1, h2, h3⟩ | exact .inr ⟨x, hx, h1, h2, h3⟩
          · rintro (⟨x, hx, h1, h2, h3⟩ | ⟨x, hx, h1, h2, h3⟩)
            all_goals first | exact ⟨_, .inl ⟨x, hx, rfl⟩, h1, h2, h3⟩ | exact ⟨_, .inr ⟨x, hx, rfl⟩, h1, h2, h3⟩
      rw [e]
      constructor
      · rintro (⟨l, h, h1, h2, rfl⟩ | ⟨l, h, h1, h2, rfl⟩)
        · exact .left ((ha _).mp ⟨l, h, h1, h2, rfl⟩)
        · exact .right ((hb _).mp ⟨l, h, h1, h2, rfl⟩)
      · intro h
        cases h with
        | left h' => obtain ⟨l, hm, h1, h2, rfl⟩ := (ha _).mpr h'; exact .inl ⟨l, hm, h1, h2, rfl⟩
        | right h' => obtain ⟨l, hm, h1, h2, rfl⟩ := (hb _).mpr h'; exact .inr ⟨l, hm, h1, h2, rfl⟩
  rw [← key p]
  simp only [V0.branchesOf, List.mem_map, List.mem_filter, decide_eq_true_eq]
  constructor
  · rintro ⟨l, ⟨h, h1, h2⟩, h3⟩; exact ⟨l, h, h1, h2, h3⟩
  · rintro ⟨l, h, h1, h2, h3⟩; exact ⟨l, ⟨h, h1, h2⟩, h3⟩

theorem pathBytes_inj {p q : List Hash32} (h : pathBytes p = pathBytes q) : p = q := by
  induction p generalizing q with
  | nil =>
    cases q with
    | nil => rfl
    | cons b q => have := congrArg List.length h; simp [pathBytes, b.2] at this; omega
  | cons a p ih =>
    cases q with
    | nil => have := congrArg List.length h; simp [pathBytes, a.2] at this
    | cons b q =>
      simp only [pathBytes, List.flatMap_cons] at h
      obtain ⟨h1, h2⟩ := List.append_inj h (by rw [a.2, b.2])
      rw [Subtype.ext h1, ih h2]

/-- No later than. -/
def NoLater (p q : List Hash32) : Prop := p.length < q.length ∨ p.length = q.length ∧ (p = q ∨ pathBytes p < pathBytes q)

theorem V0.branchLt_false {p q : List Hash32} : V0.branchLt q p = false ↔ NoLater p q := by
  unfold V0.branchLt NoLater
  split
  · rename_i h
    constructor
    · intro h; cases h
    · intro h'; omega
  · split
    · rename_i h h'; exact ⟨fun _ => .inl h', fun _ => rfl⟩
    · rename_i h h'
      constructor
      · intro hb
        refine .inr ⟨by omega, ?_⟩
        rcases bytesLt_tri (pathBytes p) (pathBytes q) with h | h | h
        · exact .inr (bytesLt_iff.mp h)
        · exact .inl (pathBytes_inj h)
        · rw [show bytesLt (q.flatMap fun h => h.1) (p.flatMap fun h => h.1) = true from h] at hb; cases hb
      · rintro (h | ⟨-, rfl | h⟩)
        · omega
        · exact bytesLt_irrefl _
        · exact bytesLt_asymm (bytesLt_iff.mpr h)

theorem NoLater.trans {p q r} (h : NoLater p q) (h' : NoLater q r) : NoLater p r := by
  rcases h with h | ⟨h1, h2⟩ <;> rcases h' with h' | ⟨h3, h4⟩
  · exact .inl (by omega)
  · exact .inl (by omega)
  · exact .inl (by omega)
  · refine .inr ⟨by omega, ?_⟩
    rcases h2 with rfl | h2
    · exact h4
    · rcases h4 with rfl | h4
      · exact .inr h2
      · exact .inr (List.lt_trans h2 h4)

theorem NoLater.antisymm {p q} (h : NoLater p q) (h' : NoLater q p) : p = q := by
  rcases h with h | ⟨h1, h2⟩ <;> rcases h' with h' | ⟨h3, h4⟩
  · omega
  · omega
  · omega
  · rcases h2 with rfl | h2
    · rfl
    · rcases h4 with rfl | h4
      · rfl
      · exact absurd (List.lt_trans h2 h4) (List.lt_irrefl _)

theorem NoLater.refl (p) : NoLater p p := .inr ⟨rfl, .inl rfl⟩

theorem V0.branchLt_true {p q : List Hash32} (h : V0.branchLt q p = true) : NoLater q p := by
  rw [← V0.branchLt_false]
  cases h' : V0.branchLt p q with
  | false => rfl
  | true =>
    exfalso
    have : ¬ NoLater p q := fun e => by rw [V0.branchLt_false.mpr e] at h; cases h
    unfold V0.branchLt at h h'
    split at h
    · rename_i h1
      rw [if_neg (by omega), if_pos h1] at h'
      cases h'
    · split at h
      · cases h
      · rename_i h1 h2
        rw [if_neg h2, if_neg h1] at h'
        rw [bytesLt_asymm h] at h'; cases h'

theorem V0.smallest_spec (bs : List (List Hash32)) :
    (bs = [] ∧ V0.smallestBranch bs = none) ∨ ∃ p, V0.smallestBranch bs = some p ∧ p ∈ bs ∧ ∀ q ∈ bs, NoLater p q := by
  induction bs with
  | nil => exact .inl ⟨rfl, rfl⟩
  | cons b r ih =>
    refine .inr ?_
    simp only [V0.smallestBranch]
    rcases ih with ⟨rfl, e⟩ | ⟨c, e, h1, h2⟩
    · rw [e]; exact ⟨b, rfl, by simp, by simp [NoLater.refl]⟩
    · rw [e]; simp only
      cases hl : V0.branchLt c b with
      | true =>
        refine ⟨c, by simp, by simp [h1], fun q hq => ?_⟩
        rcases List.mem_cons.mp hq with rfl | hq
        · exact V0.branchLt_true hl
        · exact h2 q hq
      | false =>
        refine ⟨b, by simp, by simp, fun q hq => ?_⟩
        rcases List.mem_cons.mp hq with rfl | hq
        · exact .refl _
        · exact (V0.branchLt_false.mp hl).trans (h2 q hq)

theorem V0.smallest_iff {T : Tree} {ver script p} :
    V0.smallestBranch (V0.branchesOf (T.info L.sha256) script ver) = some p ↔ BestPath L ver script T p := by
  rcases V0.smallest_spec (V0.branchesOf (T.info L.sha256) script ver) with ⟨h, e⟩ | ⟨q, e, h1, h2⟩
  · rw [e]
    refine ⟨fun h => (by cases h), fun hb => ?_⟩
    have := V0.mem_branchesOf.mpr hb.1
    rw [h] at this; cases this
  · rw [e]
    constructor
    · intro h; cases h
      exact ⟨V0.mem_branchesOf.mp h1, fun q hq => h2 q (V0.mem_branchesOf.mpr hq)⟩
    · rintro ⟨h3, h4⟩
      rw [(h2 p (V0.mem_branchesOf.mpr h3)).antisymm (h4 q (V0.mem_branchesOf.mp h1))]

theorem pathBytes_length (p : List Hash32) : (pathBytes p).length = 32 * p.length := by
  induction p with
  | nil => rfl
  | cons a p ih =>
    have : pathBytes (a :: p) = a.1 ++ pathBytes p := rfl
    rw [this, List.length_append, a.2, ih, List.length_cons]; omega

theorem path_length {ver script T p} (h : Path L ver script T p) : p.length ≤ T.height := by
  induction h with
  | leaf => simp
  | left _ ih => simp only [List.length_append, Tree.height, List.length_cons, List.length_nil]; omega
  | right _ ih => simp only [List.length_append, Tree.height, List.length_cons, List.length_nil]; omega

theorem blob_inj {a b : Bytes} (h : blob a = blob b) : a = b := by
  have key : (compact a.length).length = (compact b.length).length := by
    have h0 : (blob a).head? = (blob b).head? := by rw [h]
    unfold blob compact at h0
    unfold compact
    have small : ∀ n : Nat, n ≤ 252 → UInt8.ofNat n ≠ 0xFD ∧ UInt8.ofNat n ≠ 0xFE ∧ UInt8.ofNat n ≠ 0xFF := by
      intro n hn
      refine ⟨?_, ?_, ?_⟩ <;>
      · intro e
        have := congrArg UInt8.toNat e
        rw [UInt8.toNat_ofNat_of_lt' (show n < 256 by omega)] at this
        revert this
        simp only [UInt8.reduceToNat]
        omega
    split <;> rename_i h1
    · have := small _ h1
      split <;> rename_i h2
      · rfl
      · rw [if_pos h1, if_neg h2] at h0
        split at h0
        · simp at h0; exact absurd h0 this.1
        · split at h0
          · simp at h0; exact absurd h0 this.2.1
          · simp at h0; exact absurd h0 this.2.2
    · rw [if_neg h1] at h0
      by_cases h2 : b.length ≤ 252
      · have := small _ h2
        rw [if_pos h2] at h0
        split at h0
        · simp at h0; exact absurd h0.symm this.1
        · split at h0
          · simp at h0; exact absurd h0.symm this.2.1
          · simp at h0; exact absurd h0.symm this.2.2
      · rw [if_neg h2] at h0 ⊢
        by_cases g1 : a.length < 2 ^ 16 <;> by_cases g2 : b.length < 2 ^ 16 <;> by_cases g3 : a.length < 2 ^ 32 <;>
          by_cases g4 : b.length < 2 ^ 32 <;> simp only [g1, g2, g3, g4, if_true, if_false, le, List.length_cons, List.length_map,
            List.length_range] <;> simp [g1, g2, g3, g4] at h0
  exact (List.append_inj h key).2

theorem tapBranch_cancel {a b s : Hash32} (h : (if a.1 < s.1 then a.1 ++ s.1 else s.1 ++ a.1) = (if b.1 < s.1 then b.1 ++ s.1 else s.1 ++ b.1)) :
    a = b := by
  have irr : ∀ x : Bytes, ¬ x < x := fun x => List.lt_irrefl x
  apply Subtype.ext
  split at h <;> split at h
  · exact (List.append_inj h (by rw [a.2, b.2])).1
  · rename_i h1 _
    have := (List.append_inj h (by rw [a.2, s.2])).1
    rw [this] at h1; exact absurd h1 (irr _)
  · rename_i _ h1
    have := (List.append_inj h (by rw [b.2, s.2])).1
    rw [this] at h1; exact absurd h1 (irr _)
  · exact (List.append_inj h rfl).2

theorem branchMsg_comm (a b : Hash32) : (if a.1 < b.1 then a.1 ++ b.1 else b.1 ++ a.1) = (if b.1 < a.1 then b.1 ++ a.1 else a.1 ++ b.1) := by
  by_cases h : a.1 < b.1
  · rw [if_pos h, if_neg (List.lt_asymm h)]
  · rw [if_neg h]
    by_cases h' : b.1 < a.1
    · rw [if_pos h']
    · rw [if_neg h', List.le_antisymm h h']

/-- A proof that is not empty ends with the sibling of a subtree that has the rest of it as a proof. -/
theorem path_snoc {ver script T p s} (h : Path L ver script T (p ++ [s])) :
    ∃ A : Tree, Path L ver script A p ∧ T.root L = tapBranch L (A.root L) s ∧ (∀ m ∈ A.hashed L, m ∈ T.hashed L) ∧
      taggedMsg L "TapBranch" (if (A.root L).1 < s.1 then (A.root L).1 ++ s.1 else s.1 ++ (A.root L).1) ∈ T.hashed L := by
  generalize e : p ++ [s] = q at h
  cases h with
  | leaf => cases p <;> cases e
  | @left l r p' h =>
    obtain ⟨rfl, e2⟩ := List.append_inj' e rfl
    cases e2
    refine ⟨l, h, rfl, ?_, ?_⟩
    · intro m hm; simp [Tree.hashed, hm]
    · simp [Tree.hashed]
  | @right l r p' h =>
    obtain ⟨rfl, e2⟩ := List.append_inj' e rfl
    cases e2
    refine ⟨r, h, by rw [tapBranch_comm]; rfl, ?_, ?_⟩
    · intro m hm; simp [Tree.hashed, hm]
    · rw [branchMsg_comm]; simp [Tree.hashed]

theorem path_nil {ver script T} (h : Path L ver script T []) : T = .leaf ver script := by
  generalize e : ([] : List Hash32) = q at h
  cases h with
  | leaf => rfl
  | @left l r p' h => cases p' <;> cases e
  | @right l r p' h => cases p' <;> cases e

/-- Without collisions a proof leads to the root from one leaf only. -/
theorem path_inj {ver ver' script script' A B p} (ha : Path L ver script A p) (hb : Path L ver' script' B p)
    (h : A.root L = B.root L) {ms : List Bytes} (hA : ∀ m ∈ A.hashed L, m ∈ ms) (hB : ∀ m ∈ B.hashed L, m ∈ ms)
    (hc : CollisionFree L ms) : ver = ver' ∧ script = script' := by
  obtain ⟨q, rfl⟩ : ∃ q, p = q.reverse := ⟨p.reverse, by simp⟩
  induction q generalizing A B with
  | nil =>
    cases path_nil ha
    cases path_nil hb
    have := hc _ (hA _ (by simp [Tree.hashed])) _ (hB _ (by simp [Tree.hashed])) h
    have := List.append_cancel_left this
    injection this with e1 e2
    exact ⟨Subtype.ext e1, blob_inj e2⟩
  | cons s p ih =>
    rw [List.reverse_cons] at ha hb
    obtain ⟨A', a1, a2, a3, a4⟩ := path_snoc ha
    obtain ⟨B', b1, b2, b3, b4⟩ := path_snoc hb
    rw [a2, b2] at h
    have := hc _ (hA _ a4) _ (hB _ b4) h
    have := tapBranch_cancel (List.append_cancel_left this)
    exact ih this (fun m hm => hA _ (a3 _ hm)) (fun m hm => hB _ (b3 _ hm)) a1 b1

theorem encControl_eq (odd : Bool) (x : Bytes) (p : List Hash32) :
    V0.encControlBlock odd TAPSCRIPT x p = controlBytes TAPSCRIPT odd x p := by
  cases odd <;> rfl

/-- The control blocks of the right length parse. -/
theorem ctrl_parse (odd : Bool) (x : L.xonly.T) {p : List Hash32} (hp : p.length ≤ 128) :
    ∃ cb, L.ctrl.parse (controlBytes TAPSCRIPT odd x.bytes p) = some cb ∧ cb.bytes = controlBytes TAPSCRIPT odd x.bytes p := by
  have hx := (L.xonly_len _ _ x.ok).2
  have hl : (x.bytes ++ pathBytes p).length = 32 + 32 * p.length := by rw [List.length_append, hx, pathBytes_length]
  have e : L.ctrl.dec (controlBytes TAPSCRIPT odd x.bytes p) = some (controlBytes TAPSCRIPT odd x.bytes p) := by
    simp only [Lib.ctrl, ctrlDec, controlBytes, hl]
    rw [if_neg (by simp only [MAX_TREE_DEPTH]; omega), if_neg (by cases odd <;> decide),
      List.take_append_of_le_length (by omega), List.take_of_length_le (by omega), x.ok, Option.map_some,
      List.drop_append_of_le_length (by omega), List.drop_of_length_le (by omega), List.nil_append]
  exact ⟨⟨_, e⟩, L.ctrl.parse_bytes ⟨_, e⟩, rfl⟩

namespace V0
open Psbt.Spec.V0
variable {U : UpdLib L}

/-- The control block the program finds is the one it should be. -/
theorem controlBlock_iff {tree info} (h : InfoIs L tree info) {x : L.xonly.T} {script cb} :
    U.controlBlock x info script = some cb ↔ BlockOf U x tree script cb := by
  cases h with
  | empty =>
    refine ⟨fun h => (by cases h), ?_⟩
    rintro ⟨T, _, _, h, _⟩
    exact absurd h.symm (list_ne_nil T 0)
  | @tree T hT =>
    have hhash : (T.info L.sha256).hash = T.root L := by rw [info_hash, root_eq]
    simp only [UpdLib.controlBlock, bind, Option.bind]
    cases hb : smallestBranch (branchesOf (T.info L.sha256) script TAPSCRIPT) with
    | none =>
      refine ⟨fun h => (by cases h), ?_⟩
      rintro ⟨S, p, h1, h2, h3, -⟩
      have := smallest_iff.mpr h3
      rw [← list_inj hT h1 h2] at this
      rw [show TAPSCRIPT = (⟨0xc0, by decide⟩ : LeafVersion) from rfl, this] at hb
      cases hb
    | some p =>
      have hp := smallest_iff.mp hb
      simp only [encControl_eq, hhash]
      obtain ⟨c, e1, e2⟩ := ctrl_parse (U.outputOdd x (some (T.root L))) x (p := p) (by have := path_length hp.1; omega)
      rw [e1]
      constructor
      · intro h; cases h
        exact ⟨T, p, hT, rfl, hp, e2⟩
      · rintro ⟨S, q, h1, h2, h3, h4⟩
        have hS := list_inj (L := L) hT h1 h2
        have hr : T.root L = S.root L := by rw [root_eq, root_eq, ← info_hash, ← info_hash, hS]
        have := smallest_iff.mpr h3
        rw [← hS, show (⟨0xc0, by decide⟩ : LeafVersion) = TAPSCRIPT from rfl, hb] at this
        cases this
        congr 1
        refine Foreign.T.ext' ?_
        rw [e2, h4, hr]; rfl

theorem path_of_mem {T : Tree} {ver script} {d d' : Nat} (h : (⟨UInt8.ofNat d', ver, script⟩ : TapLeaf) ∈ T.list d) :
    ∃ p, Path L ver script T p := by
  induction T generalizing d with
  | leaf v s =>
    simp only [Tree.list, List.mem_singleton, TapLeaf.mk.injEq] at h
    obtain ⟨-, rfl, rfl⟩ := h
    exact ⟨_, .leaf⟩
  | node l r hl hr =>
    simp only [Tree.list, List.mem_append] at h
    rcases h with h | h
    · obtain ⟨p, hp⟩ := hl h; exact ⟨_, .left hp⟩
    · obtain ⟨p, hp⟩ := hr h; exact ⟨_, .right hp⟩

/-- Every leaf has one. -/
theorem controlBlock_some {tree info} (h : InfoIs L tree info) {x : L.xonly.T} {l : TapLeaf} (hl : l ∈ tree) (hv : l.ver = TAPSCRIPT) :
    U.controlBlock x info l.script ≠ none := by
  cases h with
  | empty => cases hl
  | @tree T hT =>
    obtain ⟨p, hp⟩ := path_of_mem (L := L) (d' := l.depth.toNat) (ver := l.ver) (script := l.script) (by simpa using hl)
    rw [hv] at hp
    simp only [UpdLib.controlBlock, bind, Option.bind]
    rcases smallest_spec (branchesOf (T.info L.sha256) l.script TAPSCRIPT) with ⟨e, -⟩ | ⟨q, e, h1, h2⟩
    · have := mem_branchesOf.mpr hp; rw [e] at this; cases this
    · rw [e]
      simp only [encControl_eq]
      obtain ⟨c, e1, e2⟩ := ctrl_parse (U.outputOdd x (some (T.info L.sha256).hash)) x (p := q)
        (by have := path_length (mem_branchesOf.mp h1); omega)
      rw [e1]; simp
end V0
end Psbt
