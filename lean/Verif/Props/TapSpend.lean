/- C96: what is filled in from taproot descriptors is enough to spend by each of their scripts. -/
import Verif.Spec.TapSpend
import Verif.Props.V0Update
namespace Psbt.V0
open Psbt Psbt.Spec Psbt.Spec.V0

variable {L : Lib} {U : UpdLib L}

/-! ### C96 -/

/-- C96. The output spent is that of the internal key and the Merkle root in the updated input. -/
theorem C96_input_committed {p q : Psbt L} {n : Nat} {ik ls} (hd : Definite U (.tr ik ls))
    (h : p.updateInput U n (.tr ik ls) = .ok (q, .ok ())) :
    ∃ t i j u x, HasInput p n t i ∧ HasInput q n t j ∧ UtxoAgree True t i u ∧ j.tapInternalKey = some x ∧
      u.scriptPubkey = [0x51, 0x20] ++ (U.outputKey x j.tapMerkleRoot).bytes := by
  obtain ⟨t, i, u, j, h1, h2, h3, h4, rfl⟩ := (C71_updated_iff hd).mp h
  have hlt := (List.getElem?_eq_some_iff.mp h1.2).1
  obtain ⟨g1, g2⟩ := h4.tr _ _ rfl
  obtain ⟨pk, s, k1, k2, -⟩ := g1.keys
  generalize hs : u.scriptPubkey = spk at h3
  cases h3 with
  | @tr _ pk' _ xs r hx hk hr =>
    have hpk := hk.symm.trans k1.1
    injection hpk with hpk
    subst hpk
    refine ⟨t, i, j, u, U.xonly pk', h1, ⟨h1.1, by simp [withInput, hlt]⟩, h2, k2, ?_⟩
    rw [hs, (g2 pk' xs hk hx).1.unique hr]

/-- The last leaf with a control block is proven by it. -/
theorem lastBlock_proves {x : L.xonly.T} {xs : List (UInt8 × Mini U.Shape L.pubkey.T)} {r cb v} (hr : MerkleRoot L (treeOf U xs) r)
    (hw : LastBlock U x xs cb v) :
    ProvesLeaf U ([0x51, 0x20] ++ (U.outputKey x r).bytes) cb.bytes v.1 v.2 ∧ ∃ l ∈ xs, v.1 = U.tapEncode l.2 := by
  obtain ⟨a, l, b, e, ⟨T, c, hT, ht, hp, hc⟩, e1, e2, -⟩ := hw
  have e2 : v.2 = ⟨0xc0, by decide⟩ := Subtype.ext e2
  rw [ht] at hr
  cases hr.unique (.tree hT)
  have hl := path_length hp.1
  refine ⟨⟨x, _, c, by rw [e2]; exact hc, by omega, ?_, ?_⟩, l, by rw [e]; simp, e1⟩
  · rw [e1, e2, proven_path hp.1]
  · rw [e1, e2, proven_path hp.1]

/-- C96. The scripts that are new in the updated input come with control blocks that prove that the output spent commits to
them. -/
theorem C96_scripts_proven {p q : Psbt L} {n : Nat} {ik ls} (hd : Definite U (.tr ik ls))
    (h : p.updateInput U n (.tr ik ls) = .ok (q, .ok ())) :
    ∃ t i j u, HasInput p n t i ∧ HasInput q n t j ∧ UtxoAgree True t i u ∧
      ∀ cb v, j.tapScripts.get cb = some v → i.tapScripts.get cb = some v ∨ ProvesLeaf U u.scriptPubkey cb.bytes v.1 v.2 := by
  obtain ⟨t, i, u, j, h1, h2, h3, h4, rfl⟩ := (C71_updated_iff hd).mp h
  have hlt := (List.getElem?_eq_some_iff.mp h1.2).1
  obtain ⟨-, g2⟩ := h4.tr _ _ rfl
  refine ⟨t, i, j, u, h1, ⟨h1.1, by simp [withInput, hlt]⟩, h2, fun cb v hv => ?_⟩
  generalize hs : u.scriptPubkey = spk at h3
  cases h3 with
  | @tr _ pk _ xs r hx hk hr =>
    obtain ⟨-, ho⟩ := g2 pk xs hk hx
    by_cases hb : ∃ w, LastBlock U (U.xonly pk) xs cb w
    · right
      obtain ⟨w, hw⟩ := hb
      have := ((ho cb).1 w hw).symm.trans hv
      cases this
      exact (lastBlock_proves hr hw).1
    · left
      rw [← (ho cb).2 (fun w hw => hb ⟨w, hw⟩)]; exact hv

theorem pathOf_listed {T : Tree} {l : TapLeaf} (h : l ∈ T.list 0) : ∃ p, Path L l.ver l.script T p :=
  path_of_mem (d' := l.depth.toNat) (d := 0) (by simpa using h)

/-- Every leaf has a control block. -/
theorem leaf_block {x : L.xonly.T} {xs : List (UInt8 × Mini U.Shape L.pubkey.T)} {r} (hr : MerkleRoot L (treeOf U xs) r) {l} (hl : l ∈ xs)
    (hc : ∀ T : Tree, T.height ≤ 128 → treeOf U xs = T.list 0 → CollisionFree L (T.hashed L)) :
    ∃ cb, LastBlock U x xs cb (U.tapEncode l.2, ⟨0xc0, by decide⟩) := by
  have hmem : (⟨l.1, ⟨0xc0, by decide⟩, U.tapEncode l.2⟩ : TapLeaf) ∈ treeOf U xs := List.mem_map.mpr ⟨l, hl, rfl⟩
  generalize htree : treeOf U xs = tree at hr hmem
  cases hr with
  | empty => cases hmem
  | @tree T hT =>
    have hinfo : InfoIs L (treeOf U xs) (some (T.info L.sha256)) := htree ▸ .tree hT
    obtain ⟨cb, hcb⟩ := Option.ne_none_iff_exists'.mp
      (controlBlock_some (U := U) hinfo (x := x) (htree ▸ hmem) rfl)
    obtain ⟨w, hw⟩ := lastBlock_of_mem (U := U) ⟨l, hl, hcb⟩
    have hw := (lastBlockIn_iff hinfo).mp hw
    have hb := (controlBlock_iff hinfo).mp hcb
    have hw0 := hw
    obtain ⟨a, l', b, -, ⟨T1, p1, t1, t2, t3, t4⟩, e1, e2, -⟩ := hw
    obtain ⟨T2, p2, s1, s2, s3, s4⟩ := hb
    have u1 : T1 = T := (list_split (d := 0) (r := []) (r' := []) (by omega) (by omega) (by simpa [htree] using t2.symm)).1
    have u2 : T2 = T := (list_split (d := 0) (r := []) (r' := []) (by omega) (by omega) (by simpa [htree] using s2.symm)).1
    subst u1
    subst u2
    have hpp : p1 = p2 := by
      have := t4.symm.trans s4
      simp only [controlBytes, List.cons.injEq, true_and] at this
      exact pathBytes_inj (List.append_cancel_left this)
    subst hpp
    have hscript : U.tapEncode l'.2 = U.tapEncode l.2 :=
      (path_inj t3.1 s3.1 rfl (fun _ h => h) (fun _ h => h) (hc _ t1 t2)).2
    have hw : w = (U.tapEncode l.2, ⟨0xc0, by decide⟩) := Prod.ext (e1.trans hscript) (Subtype.ext e2)
    exact ⟨cb, hw ▸ hw0⟩

/-- C96. Every leaf of the descriptor has such an entry afterwards, provided that no two of the strings hashed for the script tree
have the same hash. -/
theorem C96_every_leaf {p q : Psbt L} {n : Nat} {ik ls} (hd : Definite U (.tr ik ls))
    (h : p.updateInput U n (.tr ik ls) = .ok (q, .ok ())) {xs} (hx : LeavesAre U ls xs)
    (hc : ∀ T : Tree, T.height ≤ 128 → treeOf U xs = T.list 0 → CollisionFree L (T.hashed L)) :
    ∃ t i j u, HasInput p n t i ∧ HasInput q n t j ∧ UtxoAgree True t i u ∧
      ∀ l ∈ xs, ∃ cb, j.tapScripts.get cb = some (U.tapEncode l.2, ⟨0xc0, by decide⟩) ∧
        ProvesLeaf U u.scriptPubkey cb.bytes (U.tapEncode l.2) ⟨0xc0, by decide⟩ := by
  obtain ⟨t, i, u, j, h1, h2, h3, h4, rfl⟩ := (C71_updated_iff hd).mp h
  have hlt := (List.getElem?_eq_some_iff.mp h1.2).1
  obtain ⟨-, g2⟩ := h4.tr _ _ rfl
  refine ⟨t, i, j, u, h1, ⟨h1.1, by simp [withInput, hlt]⟩, h2, fun l hl => ?_⟩
  generalize hs : u.scriptPubkey = spk at h3
  cases h3 with
  | @tr _ pk _ xs' r hx' hk hr =>
    cases (deriveLeaves_ok.mpr hx).symm.trans (deriveLeaves_ok.mpr hx')
    obtain ⟨-, ho⟩ := g2 pk xs hk hx
    obtain ⟨cb, hcb⟩ := leaf_block (x := U.xonly pk) hr hl hc
    exact ⟨cb, (ho cb).1 _ hcb, (lastBlock_proves hr hcb).1⟩

/-- C96, in part: an output is that of the internal key and the script tree in it after the update, if it had no tree before or the
descriptor has one. Missing is the case that it had one and the descriptor has none; see `C96_stale_tree_counterexample`. -/
theorem C96_output_committed_partial {p q : Psbt L} {n : Nat} {ik ls} (hd : Definite U (.tr ik ls))
    (h : p.updateOutput U n (.tr ik ls) = .ok (q, .ok ())) {o : Output L} (ho : p.outputs[n]? = some o)
    (hne : ls ≠ [] ∨ o.tapTree = none) :
    ∃ t j, p.unsignedTx.output[n]? = some t ∧ q.unsignedTx = p.unsignedTx ∧ q.outputs[n]? = some j ∧ Committed U t.scriptPubkey j := by
  obtain ⟨t, o', j, h1, h2, h3, h4, rfl⟩ := (C72_updated_iff hd).mp h
  cases ho.symm.trans h1
  have hlt := (List.getElem?_eq_some_iff.mp h1).1
  obtain ⟨g1, g2, g3⟩ := h4.tr _ _ rfl
  obtain ⟨pk, s, k1, k2, -⟩ := g1.keys
  refine ⟨t, j, h2, rfl, by simp [hlt], ?_⟩
  generalize t.scriptPubkey = spk at h3
  cases h3 with
  | @tr _ pk' _ xs r hx hk hr =>
    have hpk := hk.symm.trans k1.1
    injection hpk with hpk
    subst hpk
    refine ⟨U.xonly pk', r, k2, ?_, rfl⟩
    by_cases hl : ls = []
    · subst hl
      cases hx
      rw [g2 rfl]
      rcases hne with hne | hne
      · exact absurd rfl hne
      · rw [hne]; exact hr
    · obtain ⟨tt, T, e1, e2, e3, e4⟩ := g3 hl xs hx
      rw [e1]
      show MerkleRoot L tt.leaves r
      rw [e3] at hr
      cases hr.unique (.tree e2)
      have hT : T.root L = (T.sorted L).root L := by rw [sorted_eq, root_eq, root_eq, arrange_hash]
      rw [e4, hT]
      exact .tree (by rw [sorted_eq, arrange_height]; exact e2)

section Examples
/-- Keys and scripts as before; output keys depend on the root, and hashes on the whole string. -/
def sLib : UpdLib Demo.mixLib where
  Key := UInt8
  derive b := .ok (Demo.val 33 (by decide) b)
  fingerprint b := Demo.rep 4 b
  path b := some [b.toUInt32]
  inner pk := pk
  xonly pk := Demo.val 32 (by decide) (pk.bytes.headD 0)
  Shape := UInt8
  encode m := m.shape :: m.keys.map fun k => k.bytes.headD 0
  tapEncode m := 0xee :: m.shape :: m.keys.map fun k => k.bytes.headD 0
  outputKey x r := match r with | none => x | some h => Demo.val 32 (by decide) (x.bytes.headD 0 + h.1.headD 0)
  outputOdd x _ := x.bytes.headD 0 == 5
/-- Three leaves, two of them with the same script. -/
def sLeaves : List (UInt8 × Mini UInt8 UInt8) := [(1, ⟨9, [4]⟩), (2, ⟨8, [5, 6]⟩), (2, ⟨9, [4]⟩)]
def sDescr : Descriptor sLib.Shape sLib.Key := .tr (5 : UInt8) sLeaves
def sTree : Tree := .node (.leaf TAPSCRIPT [0xee, 9, 4]) (.node (.leaf TAPSCRIPT [0xee, 8, 5, 6]) (.leaf TAPSCRIPT [0xee, 9, 4]))
def sSpk : Bytes := [0x51, 0x20] ++ List.replicate 32 (5 + (sTree.root Demo.mixLib).1.headD 0)
def sPsbt : Psbt Demo.mixLib where
  unsignedTx := ⟨2, 0, [⟨⟨Demo.rep 32 7, 0⟩, [], 0xFFFFFFFF, []⟩], [⟨500, sSpk⟩]⟩
  version := 0
  xpub := .empty
  proprietary := .empty
  unknown := .empty
  inputs := [{ Input.default Demo.mixLib with witnessUtxo := some ⟨1000, sSpk⟩ }]
  outputs := [Output.default Demo.mixLib]
/-- A tree of one leaf. -/
def sOld : TapTree Demo.mixLib := ⟨[⟨0, TAPSCRIPT, [0xaa]⟩], by decide +kernel⟩
def sDone (r : Out Empty (Psbt Demo.mixLib × Except UpdateErr Unit)) : Option (Psbt Demo.mixLib) :=
  match r with | .ok (q, .ok ()) => some q | _ => none
end Examples

-- The input and the output are updated; there are two entries, since the two leaves with the same script share one.
example : ((sDone (sPsbt.updateInput sLib 0 sDescr)).map fun q => q.inputs.map fun i => i.tapScripts.l.map fun e => (e.1.bytes.length, e.2.1)) =
    some [[(97, [0xee, 8, 5, 6]), (65, [0xee, 9, 4])]] := by decide +kernel
example : ((sDone (sPsbt.updateOutput sLib 0 sDescr)).map fun q => q.outputs.map fun o => o.tapTree.map fun t => t.leaves.map TapLeaf.depth) =
    some [some [1, 2, 2]] := by decide +kernel
example : Definite sLib sDescr := by intro k _ pk _ h; cases h
-- The proviso is met.
example : ∀ xs, LeavesAre sLib sLeaves xs →
    ∀ T : Tree, T.height ≤ 128 → treeOf sLib xs = T.list 0 → CollisionFree Demo.mixLib (T.hashed Demo.mixLib) := by
  intro xs hx T hT h
  cases deriveLeaves_ok.mpr hx
  have : T = sTree := (list_split (d := 0) (r := []) (r' := []) (by omega) (by decide)
    (by rw [List.append_nil, List.append_nil]; exact h.symm)).1
  subst this
  unfold CollisionFree
  decide +kernel

/-- C96 fails for outputs that have a script tree when they are updated with a descriptor without one: the tree stays, although the
output does not commit to it. -/
theorem C96_stale_tree_counterexample : ∃ (p q : Psbt Demo.mixLib) (ik : sLib.Key) (o : Output Demo.mixLib) (t : TxOut),
    p.updateOutput sLib 0 (.tr ik []) = .ok (q, .ok ()) ∧ q.outputs = [o] ∧ q.unsignedTx.output = [t] ∧
    ¬ Committed sLib t.scriptPubkey o := by
  refine ⟨{ sPsbt with
      unsignedTx := { sPsbt.unsignedTx with output := [⟨500, [0x51, 0x20] ++ List.replicate 32 5⟩] }
      outputs := [{ Output.default Demo.mixLib with tapTree := some sOld }] }, _, (5 : UInt8), _, _, rfl, rfl, rfl, ?_⟩
  rintro ⟨x, r, h1, h2, h3⟩
  cases Option.some.inj h1
  cases h2.unique (MerkleRoot.tree (T := .leaf TAPSCRIPT [0xaa]) (by decide))
  revert h3
  decide +kernel

end Psbt.V0
