/- Every field codec is lawful: it reads back what it writes and never grows what it reads. -/
import Verif.Lemmas.Wire
import Verif.Model.Raw
namespace Psbt

/-- Laws of a field codec. -/
structure LawfulCodec {α : Type} (c : Codec α) : Prop where
  rt : ∀ a, (c.ser a).length ≤ MAX_VEC_SIZE → c.deser (c.ser a) = .ok a
  shrink : ∀ b a, c.deser b = .ok a → (c.ser a).length ≤ b.length

theorem LawfulCodec.stable {α : Type} {c : Codec α} (h : LawfulCodec c) {b : Bytes} {a : α}
    (hd : c.deser b = .ok a) (hb : b.length ≤ MAX_VEC_SIZE) : c.deser (c.ser a) = .ok a :=
  h.rt a (Nat.le_trans (h.shrink b a hd) hb)

theorem lawful_consensus {α : Type} {e : α → Bytes} {d : Dec α}
    (h1 : ∀ a, (e a).length ≤ MAX_VEC_SIZE → RT e d a) (h2 : Canon e d) : LawfulCodec (consensusCodec e d) where
  rt a ha := by
    simp only [consensusCodec]
    rw [consensusDeser_enc (h1 a ha)]; rfl
  shrink b a h := by
    simp only [consensusCodec, mapErr_ok] at *
    have := h2 _ _ _ (consensusDeser_ok h)
    rw [this]; simp

/-- What the consensus codecs accept is exactly what they write. -/
theorem consensusCodec_exact {α : Type} {e : α → Bytes} {d : Dec α} (h2 : Canon e d) {b : Bytes} {a : α}
    (h : (consensusCodec e d).deser b = .ok a) : b = e a := by
  simp only [consensusCodec, mapErr_ok] at h
  have := h2 _ _ _ (consensusDeser_ok h)
  simpa using this

theorem Foreign.parse_some {F : Foreign} {b : Bytes} {a : F.T} (h : F.parse b = some a) :
    F.dec b = some a.bytes := by
  unfold Foreign.parse at h
  split at h
  · cases h; assumption
  · cases h

theorem Foreign.parse_bytes (F : Foreign) (a : F.T) : F.parse a.bytes = some a := by
  unfold Foreign.parse
  split
  · rename_i c hc
    rw [a.ok] at hc
    cases hc; rfl
  · rename_i hc
    rw [a.ok] at hc; cases hc

theorem Foreign.bytes_ne_nil {F : Foreign} (a : F.T) : a.bytes ≠ [] := F.nonempty _ _ a.ok

theorem okOr_ok {ε α : Type} {e : ε} {o : Option α} {a : α} : okOr e o = .ok a ↔ o = some a := by
  cases o <;> simp [okOr]

theorem lawful_foreign (F : Foreign) (e : SerErr) : LawfulCodec (F.codec e) where
  rt a _ := by simp [Foreign.codec, Foreign.parse_bytes, okOr]
  shrink b a h := by
    simp only [Foreign.codec, okOr_ok] at h
    exact F.shrink _ _ (Foreign.parse_some h)

theorem lawful_hash (n : Nat) : LawfulCodec (hashCodec n) where
  rt a _ := by simp [hashCodec, a.2]
  shrink b a h := by
    simp only [hashCodec] at h ⊢
    split at h
    · cases h; simp
    · cases h

theorem lawful_dleq : LawfulCodec dleqCodec where
  rt a _ := by simp [dleqCodec, a.2]
  shrink b a h := by
    simp only [dleqCodec] at h ⊢
    split at h
    · cases h; simp
    · cases h

theorem lawful_amount : LawfulCodec amountCodec :=
  lawful_consensus (fun a _ r => decU64_enc a r) (fun _ _ _ h => decU64_ok h)

theorem lawful_u32 : LawfulCodec u32Codec :=
  lawful_consensus (fun a _ r => decU32_enc a r) (fun _ _ _ h => decU32_ok h)

theorem lawful_txOut : LawfulCodec txOutCodec :=
  lawful_consensus (fun a ha => decTxOut_enc (by
    simp only [encTxOut, encVec, List.length_append, MAX_VEC_SIZE] at ha; omega)) (fun _ _ _ h => (decTxOut_ok h).1)

theorem length_flatMap_ge {α : Type} {f : α → Bytes} {l : List α} {a : α} (h : a ∈ l) :
    (f a).length ≤ (l.flatMap f).length := by
  induction l with
  | nil => simp at h
  | cons x t ih =>
    simp only [List.flatMap_cons, List.length_append]
    rcases List.mem_cons.mp h with rfl | h
    · omega
    · have := ih h; omega

theorem length_le_flatMap {α : Type} {f : α → Bytes} {l : List α} (h : ∀ a ∈ l, 0 < (f a).length) :
    l.length ≤ (l.flatMap f).length := by
  induction l with
  | nil => simp
  | cons x t ih =>
    simp only [List.flatMap_cons, List.length_append, List.length_cons]
    have := ih (fun a ha => h a (by simp [ha]))
    have := h x (by simp)
    omega

theorem encList_bounds {α : Type} {e : α → Bytes} {l : List α} {n : Nat} (hp : ∀ a ∈ l, 0 < (e a).length)
    (h : (encList e l).length ≤ n) : l.length ≤ n ∧ ∀ a ∈ l, (e a).length ≤ n := by
  simp only [encList, List.length_append] at h
  have := length_le_flatMap hp
  exact ⟨by omega, fun a ha => by have := length_flatMap_ge (f := e) ha; omega⟩

theorem encVec_pos (v : Bytes) : 0 < (encVec v).length := by
  have := encVar_length_pos v.length
  simp only [encVec, List.length_append]; omega

theorem encWitness_bounds {w : List Bytes} {n : Nat} (h : (encWitness w).length ≤ n) :
    w.length ≤ n ∧ ∀ x ∈ w, x.length ≤ n := by
  obtain ⟨h1, h2⟩ := encList_bounds (fun a _ => encVec_pos a) h
  refine ⟨h1, fun x hx => ?_⟩
  have := h2 x hx
  simp only [encVec, List.length_append] at this; omega

theorem lawful_witness : LawfulCodec witnessCodec :=
  lawful_consensus (fun a ha => by
    obtain ⟨h1, h2⟩ := encWitness_bounds ha
    simp only [MAX_VEC_SIZE] at h1 h2
    exact decWitness_enc (by omega) (fun x hx => by have := h2 x hx; omega)) (fun _ _ _ h => (decWitness_ok h).1)

theorem encTxIn_pos (i : TxIn) : 0 < (encTxIn i).length := by
  simp only [encTxIn, List.length_append, encU32_length]; omega
theorem encTxOut_pos (i : TxOut) : 0 < (encTxOut i).length := by
  simp only [encTxOut, List.length_append, encU64_length]; omega

theorem Tx.small_of_length {t : Tx} {n : Nat} (hn : n < 2 ^ 64) (h : (encTx t).length ≤ n) : t.Small := by
  unfold encTx at h
  split at h
  · rename_i hseg
    simp only [List.length_append] at h
    have hI : (encList encTxIn t.input).length ≤ n := by omega
    have hO : (encList encTxOut t.output).length ≤ n := by omega
    have hW : (t.input.flatMap (fun i => encWitness i.witness)).length ≤ n := by omega
    obtain ⟨a1, a2⟩ := encList_bounds (fun a _ => encTxIn_pos a) hI
    obtain ⟨b1, b2⟩ := encList_bounds (fun a _ => encTxOut_pos a) hO
    refine ⟨by omega, by omega, ?_, ?_⟩
    · intro i hi
      have e1 := a2 i hi
      have e2 := length_flatMap_ge (f := fun i : TxIn => encWitness i.witness) hi
      obtain ⟨w1, w2⟩ := encWitness_bounds (n := n) (w := i.witness) (Nat.le_trans e2 hW)
      simp only [encTxIn, encVec, List.length_append] at e1
      exact ⟨by omega, by omega, fun w hw => by have := w2 w hw; omega⟩
    · intro o ho
      have := b2 o ho
      simp only [encTxOut, encVec, List.length_append] at this
      omega
  · rename_i hseg
    simp only [Tx.usesSegwit, Bool.not_eq_true, Bool.or_eq_false_iff, List.any_eq_false] at hseg
    simp only [encTxLegacy, List.length_append] at h
    have hI : (encList encTxIn t.input).length ≤ n := by omega
    have hO : (encList encTxOut t.output).length ≤ n := by omega
    obtain ⟨a1, a2⟩ := encList_bounds (fun a _ => encTxIn_pos a) hI
    obtain ⟨b1, b2⟩ := encList_bounds (fun a _ => encTxOut_pos a) hO
    refine ⟨by omega, by omega, ?_, ?_⟩
    · intro i hi
      have e1 := a2 i hi
      have hw : i.witness = [] := by simpa using hseg.1 i hi
      simp only [encTxIn, encVec, List.length_append] at e1
      exact ⟨by omega, by simp [hw], by simp [hw]⟩
    · intro o ho
      have := b2 o ho
      simp only [encTxOut, encVec, List.length_append] at this
      omega

theorem Tx.small_of_length_legacy {t : Tx} {n : Nat} (hn : n < 2 ^ 64) (hw : ∀ i ∈ t.input, i.witness = [])
    (h : (encTxLegacy t).length ≤ n) : t.Small := by
  simp only [encTxLegacy, List.length_append] at h
  have hI : (encList encTxIn t.input).length ≤ n := by omega
  have hO : (encList encTxOut t.output).length ≤ n := by omega
  obtain ⟨a1, a2⟩ := encList_bounds (fun a _ => encTxIn_pos a) hI
  obtain ⟨b1, b2⟩ := encList_bounds (fun a _ => encTxOut_pos a) hO
  refine ⟨by omega, by omega, ?_, ?_⟩
  · intro i hi
    have e1 := a2 i hi
    simp only [encTxIn, encVec, List.length_append] at e1
    exact ⟨by omega, by simp [hw i hi], by simp [hw i hi]⟩
  · intro o ho
    have := b2 o ho
    simp only [encTxOut, encVec, List.length_append] at this
    omega

theorem lawful_tx : LawfulCodec txCodec :=
  lawful_consensus (fun _ ha => decTx_enc (Tx.small_of_length (by simp [MAX_VEC_SIZE]) ha))
    (fun _ _ _ h => (decTx_ok h).1)

theorem lawful_raw : LawfulCodec rawCodec where
  rt _ _ := rfl
  shrink b a h := by cases h; exact Nat.le_refl _

theorem consensusDeser_u32 (n : UInt32) : consensusDeser decU32 (encU32 n) = .ok n :=
  consensusDeser_enc (e := encU32) (fun r => decU32_enc n r)

theorem consensusDeser_u32_ok {b : Bytes} {n : UInt32} (h : consensusDeser decU32 b = .ok n) : b = encU32 n := by
  have := decU32_ok (consensusDeser_ok h); simpa using this

theorem lawful_height : LawfulCodec heightCodec where
  rt a _ := by simp [heightCodec, consensusDeser_u32, a.2]
  shrink b a h := by
    simp only [heightCodec, bind_ok, mapErr_ok] at h ⊢
    obtain ⟨n, h1, h2⟩ := h
    split at h2
    · cases h2; rw [consensusDeser_u32_ok h1]; simp
    · cases h2

theorem lawful_time : LawfulCodec timeCodec where
  rt a _ := by simp [timeCodec, consensusDeser_u32, a.2]
  shrink b a h := by
    simp only [timeCodec, bind_ok, mapErr_ok] at h ⊢
    obtain ⟨n, h1, h2⟩ := h
    split at h2
    · cases h2; rw [consensusDeser_u32_ok h1]; simp
    · cases h2

theorem encU32_cons (n : UInt32) : ∃ a b c d, encU32 n = [a, b, c, d] := by
  simp only [encU32, leEnc]; exact ⟨_, _, _, _, rfl⟩

theorem decPath_enc (p : List UInt32) : decPath (p.flatMap encU32) = .ok p := by
  induction p with
  | nil => rfl
  | cons n p ih =>
    obtain ⟨a, b, c, d, e⟩ := encU32_cons n
    have h : UInt32.ofNat (leDec [a, b, c, d]) = n := by
      rw [← e]
      have := decU32_enc n []
      simp only [decU32, encU32] at this ⊢
      rw [readN_append (leEnc_length _ _)] at this
      simp only [ok_bind, Except.ok.injEq, Prod.mk.injEq, and_true] at this
      exact this
    simp only [List.flatMap_cons, e, List.cons_append, List.nil_append, decPath, ih, ok_bind, h]

theorem decPath_ok {b : Bytes} {p : List UInt32} (h : decPath b = .ok p) : b = p.flatMap encU32 := by
  fun_induction decPath b generalizing p with
  | case1 => cases h; rfl
  | case2 a b c d r ih =>
    simp only [bind_ok] at h
    obtain ⟨q, h1, h2⟩ := h
    cases h2
    have h3 := ih h1
    have h4 : encU32 (UInt32.ofNat (leDec [a, b, c, d])) = [a, b, c, d] := by
      have := leDec_lt [a, b, c, d]
      unfold encU32
      rw [UInt32.toNat_ofNat_of_lt' (by simpa using this)]
      exact leEnc_leDec' rfl
    simp only [List.flatMap_cons, h4, ← h3, List.cons_append, List.nil_append]
  | case3 => cases h

theorem keySource_rt (k : KeySource) : keySourceCodec.deser (keySourceCodec.ser k) = .ok k := by
  obtain ⟨⟨f, hf⟩, p⟩ := k
  simp only [keySourceCodec]
  have hl : ¬ (f ++ p.flatMap encU32).length < 4 := by simp; omega
  rw [dif_neg hl]
  have hd : (f ++ p.flatMap encU32).drop 4 = p.flatMap encU32 := by rw [← hf]; simp
  have ht : (f ++ p.flatMap encU32).take 4 = f := by rw [← hf]; simp
  simp only [hd, decPath_enc, mapErr_of_ok, ok_bind, ht]

theorem keySource_exact {b : Bytes} {k : KeySource} (h : keySourceCodec.deser b = .ok k) :
    b = keySourceCodec.ser k := by
  simp only [keySourceCodec] at h ⊢
  split at h
  · cases h
  · simp only [bind_ok, mapErr_ok] at h
    obtain ⟨p, h1, h2⟩ := h
    cases h2
    rw [← decPath_ok h1]
    simp

theorem lawful_keySource : LawfulCodec keySourceCodec where
  rt k _ := keySource_rt k
  shrink b k h := by rw [keySource_exact h]; exact Nat.le_refl _

theorem getLast?_concat {α : Type} (l : List α) (a : α) : (l ++ [a]).getLast? = some a := by simp

theorem lawful_ecdsaSig (L : Lib) : LawfulCodec (ecdsaSigCodec L) where
  rt s _ := by
    simp only [ecdsaSigCodec, getLast?_concat, List.dropLast_concat, Foreign.parse_bytes]
    rw [dif_pos s.ty.2]
  shrink b s h := by
    simp only [ecdsaSigCodec] at h ⊢
    split at h
    · cases h
    · rename_i t ht
      split at h
      · split at h
        · rename_i d hd
          cases h
          have := L.derSig.shrink _ _ (Foreign.parse_some hd)
          have hb : b ≠ [] := by rintro rfl; simp at ht
          have := List.length_pos_iff.mpr hb
          simp only [List.length_append, List.length_dropLast, List.length_singleton] at *
          omega
        · cases h
      · cases h

theorem lawful_tapSig : LawfulCodec tapSigCodec where
  rt s _ := by
    obtain ⟨⟨g, hg⟩, ⟨t, ht⟩⟩ := s
    simp only [tapSigCodec]
    split
    · rename_i h0
      subst h0
      rfl
    · rename_i h0
      have h1 : ¬ (g ++ [t]).length = 64 := by simp [hg]
      have h2 : (g ++ [t]).length = 65 := by simp [hg]
      rw [dif_neg h1, dif_pos h2]
      simp only [getLast?_concat, List.dropLast_concat]
      rw [dif_pos ht]
  shrink b s h := by
    simp only [tapSigCodec] at h ⊢
    split at h
    · cases h; simp
    · split at h
      · split at h
        · cases h
        · split at h
          · rename_i hlen _ _ _ _
            cases h
            simp only
            split <;> simp <;> omega
          · cases h
      · cases h

theorem xonly_len {L : Lib} (k : L.xonly.T) : k.bytes.length = 32 := (L.xonly_len _ _ k.ok).1

theorem lawful_xonlyLeaf (L : Lib) : LawfulCodec (xonlyLeafCodec L) where
  rt p _ := by
    obtain ⟨k, ⟨h, hh⟩⟩ := p
    have hk := xonly_len k
    simp only [xonlyLeafCodec]
    have hl : ¬ (k.bytes ++ h).length < 32 := by simp; omega
    have hd : (k.bytes ++ h).drop 32 = h := by rw [← hk]; simp
    have ht : (k.bytes ++ h).take 32 = k.bytes := by rw [← hk]; simp
    rw [if_neg hl, hd, ht]
    simp [xonlyCodec, Foreign.codec, Foreign.parse_bytes, okOr, hashCodec, hh]
  shrink b p h := by
    simp only [xonlyLeafCodec] at h ⊢
    split at h
    · cases h
    · simp only [bind_ok] at h
      obtain ⟨k, h1, x, h2, h3⟩ := h
      cases h3
      have e1 := (lawful_foreign _ _).shrink _ _ h1
      have e2 := (lawful_hash 32).shrink _ _ h2
      simp only [Foreign.codec, hashCodec, List.length_take, List.length_drop, List.length_append] at *
      omega

theorem leafVersion?_self (v : LeafVersion) : leafVersion? v.1 = some v := by
  simp only [leafVersion?]; rw [dif_pos v.2]

theorem leafVersion?_some {x : UInt8} {v : LeafVersion} (h : leafVersion? x = some v) : x = v.1 := by
  simp only [leafVersion?] at h
  split at h
  · cases h; rfl
  · cases h

theorem lawful_leafScript : LawfulCodec leafScriptCodec where
  rt p _ := by
    simp only [leafScriptCodec, getLast?_concat, leafVersion?_self, List.dropLast_concat]
  shrink b p h := by
    simp only [leafScriptCodec] at h ⊢
    split at h
    · cases h
    · rename_i v hv
      split at h
      · cases h
        have hb : b ≠ [] := by rintro rfl; simp at hv
        have := List.length_pos_iff.mpr hb
        simp only [List.length_append, List.length_dropLast, List.length_singleton] at *
        omega
      · cases h

theorem lawful_tapOrigin : LawfulCodec tapOriginCodec where
  rt p hp := by
    obtain ⟨hs, k⟩ := p
    simp only [tapOriginCodec, List.length_append] at hp ⊢
    have hb := (encList_bounds (e := fun h : Hash32 => h.1) (l := hs) (n := MAX_VEC_SIZE)
      (fun a _ => by simp [a.2]) (by omega)).1
    simp only [MAX_VEC_SIZE] at hb
    rw [decList_enc (e := fun h : Hash32 => h.1) (by omega) (fun a _ r => decHash32_enc a r)]
    simp only [mapErr_of_ok, ok_bind, keySource_rt]
  shrink b p h := by
    simp only [tapOriginCodec, bind_ok, mapErr_ok] at h ⊢
    obtain ⟨⟨hs, r⟩, h1, k, h2, h3⟩ := h
    cases h3
    obtain ⟨h4, -⟩ := decList_ok (e := fun h : Hash32 => h.1) (fun _ _ _ h => decHash32_ok h) h1
    have h5 := keySource_exact h2
    simp only at h5
    subst h5
    rw [h4]
    simp

theorem leafScript_exact {b : Bytes} {p : Bytes × LeafVersion} (h : leafScriptCodec.deser b = .ok p) :
    b = leafScriptCodec.ser p := by
  simp only [leafScriptCodec] at h ⊢
  split at h
  · cases h
  · rename_i v hv
    split at h
    · rename_i lv hlv
      cases h
      have := leafVersion?_some hlv
      subst this
      obtain ⟨l, rfl⟩ := List.getLast?_eq_some_iff.mp hv
      simp
    · cases h

theorem tapOrigin_exact {b : Bytes} {p : List Hash32 × KeySource} (h : tapOriginCodec.deser b = .ok p) :
    b = tapOriginCodec.ser p := by
  simp only [tapOriginCodec, bind_ok, mapErr_ok] at h ⊢
  obtain ⟨⟨hs, r⟩, h1, k, h2, h3⟩ := h
  cases h3
  obtain ⟨h4, -⟩ := decList_ok (e := fun h : Hash32 => h.1) (fun _ _ _ h => decHash32_ok h) h1
  have h5 := keySource_exact h2
  simp only at h5
  subst h5
  exact h4

theorem decTapLeaves_enc {sha : Bytes → FixedBytes 32} {ls : List TapLeaf} (h : ∀ l ∈ ls, l.script.length < 2 ^ 64) {fuel : Nat}
    (hf : ls.length ≤ fuel) {br br' : TapBuilder} (hr : br.run sha ls = .ok br') :
    decTapLeaves sha fuel br (ls.flatMap encTapLeaf) = .ok (ls, br') := by
  induction ls generalizing fuel br with
  | nil => cases hr; cases fuel <;> rfl
  | cons l t ih =>
    cases fuel with
    | zero => simp at hf
    | succ fuel =>
      simp only [List.flatMap_cons, encTapLeaf, List.cons_append, decTapLeaves]
      rw [decVecFin_enc (h l (by simp))]
      simp only [mapErr_of_ok, ok_bind, leafVersion?_self]
      simp only [TapBuilder.run, bind_ok] at hr
      obtain ⟨br1, h1, h2⟩ := hr
      have e : TapBuilder.addLeaf sha br ⟨l.depth, l.ver, l.script⟩ = .ok br1 := h1
      rw [e]
      simp only
      rw [ih (fun x hx => h x (by simp [hx])) (by simpa using hf) h2]
      rfl

theorem decTapLeaves_ok {sha : Bytes → FixedBytes 32} {fuel : Nat} {b : Bytes} {ls : List TapLeaf} {br br' : TapBuilder}
    (h : decTapLeaves sha fuel br b = .ok (ls, br')) : b = ls.flatMap encTapLeaf ∧ br.run sha ls = .ok br' := by
  induction fuel generalizing b ls br with
  | zero =>
    cases b with
    | nil => cases h; exact ⟨rfl, rfl⟩
    | cons x y => cases h
  | succ fuel ih =>
    match b with
    | [] => cases h; exact ⟨rfl, rfl⟩
    | [_] => cases h
    | d :: v :: r =>
      simp only [decTapLeaves, bind_ok, mapErr_ok] at h
      obtain ⟨⟨s, r1⟩, h1, h2⟩ := h
      split at h2
      · cases h2
      · rename_i lv hlv
        split at h2
        · cases h2
        · rename_i br1 hbr
          simp only [bind_ok] at h2
          obtain ⟨⟨ls', br2⟩, h3, h4⟩ := h2
          cases h4
          obtain ⟨h5, -⟩ := decVecFin_ok h1
          obtain ⟨h6, h7⟩ := ih h3
          subst h6
          refine ⟨?_, ?_⟩
          · rw [h5, leafVersion?_some hlv]
            simp [encTapLeaf]
          · simp only [TapBuilder.run, bind_ok]
            exact ⟨_, hbr, h7⟩

theorem run_of_tapBuild {L : Lib} {ls m : List TapLeaf} (h : L.tapBuild ls = some m) : ∃ br, TapBuilder.run L.sha256 [] ls = .ok br := by
  unfold Lib.tapBuild tapBuildOf nodeOf at h
  cases hr : TapBuilder.run L.sha256 [] ls with
  | ok br => exact ⟨br, rfl⟩
  | error e => rw [hr] at h; cases h

theorem lawful_tapTree (L : Lib) : LawfulCodec (tapTreeCodec L) where
  rt t ht := by
    simp only [tapTreeCodec] at ht ⊢
    obtain ⟨br, hbr⟩ := run_of_tapBuild t.ok
    rw [decTapLeaves_enc _ _ hbr]
    · simp only [ok_bind]
      split
      · rename_i m hm
        have := t.ok
        rw [this] at hm
        cases hm; rfl
      · rename_i hm
        have := t.ok
        rw [this] at hm; cases hm
    · intro l hl
      have := length_flatMap_ge (f := encTapLeaf) hl
      simp only [encTapLeaf, encVec, List.length_cons, List.length_append, MAX_VEC_SIZE] at *
      omega
    · exact length_le_flatMap (fun a _ => by simp [encTapLeaf])
  shrink b t h := by
    simp only [tapTreeCodec, bind_ok] at h ⊢
    obtain ⟨⟨ls, br⟩, h1, h2⟩ := h
    split at h2
    · rename_i m hm
      cases h2
      rw [(decTapLeaves_ok h1).1]
      exact L.tap_shrink _ _ hm
    · cases h2

end Psbt
