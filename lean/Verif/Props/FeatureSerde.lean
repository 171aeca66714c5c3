/- C76: what a program without silent payments reads of the serde data of one with them. -/
import Verif.Props.Serde
import Verif.Props.Feature
import Verif.Spec.FeatureSerde
namespace Psbt
open Spec (plain plainSerde dropSilent)
variable {L : Lib} {n m : Nat} {S : SerdeLib L} {f : Fmt}

private theorem plainSerde_good (h : S.Good) : (plainSerde n m S).Good := by
  obtain ⟨⟩ := h
  constructor <;> first
    | assumption
    | exact ⟨fun f a => by simp [plainSerde, SCodec.Good.rt, *], fun f a hf => by simp only [plainSerde]; exact SCodec.Good.notNull ‹_› f _ hf,
        fun f a hf => by simp only [plainSerde]; exact SCodec.Good.json ‹_› f _ hf⟩

/-- Two fields in the middle that are not fields of the reader. -/
private theorem skip {α : Type} {names : List String} {c : SCodec α} (h : ByName names c) (hf : f.human = true) {a b : List (String × SVal)}
    {s t : String} (hs : s ∉ names) (ht : t ∉ names) (v w : SVal) :
    c.de f (structSer f (a ++ [(s, v), (t, w)] ++ b)) = c.de f (structSer f (a ++ b)) := by
  simp only [structSer, hf, ↓reduceIte, List.map_append, List.map_cons, List.map_nil]
  rw [h.perm (f := f) (l' := (.str s, v) :: (.str t, w) :: (a.map (fun nv => (SVal.str nv.1, nv.2)) ++ b.map (fun nv => (SVal.str nv.1, nv.2)))),
    h.unknown hs, h.unknown ht]
  rw [List.append_assoc]
  exact (List.perm_middle).trans (.cons _ (by simpa using List.perm_middle))

private theorem global_read (hs : L.sp = true) (hf : f.human = true) (g : V2.Global L) :
    (V2.Global.serde (plainSerde n m S)).de f ((V2.Global.serde S).ser f g) =
      (V2.Global.serde (plainSerde n m S)).de f
        ((V2.Global.serde (plainSerde n m S)).ser f { Spec.plainGlobal n m g with unknowns := g.unknowns }) := by
  conv => lhs; rhs; simp only [V2.Global.serde, hs, ↓reduceIte]
  rw [skip V2.Global.byName hf (by simp [V2.Global.fieldNames, plain]) (by simp [V2.Global.fieldNames, plain])]
  rfl

private theorem input_read (hs : L.sp = true) (hf : f.human = true) (i : V2.Input L) :
    (V2.Input.serde (plainSerde n m S)).de f ((V2.Input.serde S).ser f i) =
      (V2.Input.serde (plainSerde n m S)).de f
        ((V2.Input.serde (plainSerde n m S)).ser f { Spec.plainInput n m i with unknowns := i.unknowns }) := by
  conv => lhs; rhs; simp only [V2.Input.serde, hs, ↓reduceIte]
  have e2 : (mapS (plainSerde n m S).pubkey (plainSerde n m S).ecdsaSig).ser f (Spec.plainInput n m i).partialSigs =
      (mapS S.pubkey S.ecdsaSig).ser f i.partialSigs := by
    simp only [mapS, Spec.plainInput, Spec.mapTo]
    congr 1
    exact List.map_map
  rw [skip V2.Input.byName hf (by simp [V2.Input.fieldNames, plain]) (by simp [V2.Input.fieldNames, plain])]
  congr 1
  conv => rhs; simp only [V2.Input.serde, e2]
  rfl

private theorem output_read (hs : L.sp = true) (hf : f.human = true) (o : V2.Output L) :
    (V2.Output.serde (plainSerde n m S)).de f ((V2.Output.serde S).ser f o) =
      (V2.Output.serde (plainSerde n m S)).de f
        ((V2.Output.serde (plainSerde n m S)).ser f { Spec.plainOutput n m o with unknowns := o.unknowns }) := by
  conv => lhs; rhs; simp only [V2.Output.serde, hs, ↓reduceIte]
  have e2 : (optS (plainSerde n m S).tapTree).ser f (Spec.plainOutput n m o).tapTree = (optS S.tapTree).ser f o.tapTree := by
    cases h : o.tapTree <;> simp only [optS, Spec.plainOutput, h] <;> rfl
  rw [skip V2.Output.byName hf (by simp [V2.Output.fieldNames, plain]) (by simp [V2.Output.fieldNames, plain])]
  congr 1
  conv => rhs; simp only [V2.Output.serde, e2]
  rfl

private theorem vec_read {α β : Type} {c : SCodec α} {d : SCodec β} {g : α → β} (h : ∀ a, d.de f (c.ser f a) = d.de f (d.ser f (g a))) (l : List α) :
    (vecS d).de f ((vecS c).ser f l) = (vecS d).de f ((vecS d).ser f (l.map g)) := by
  simp only [vecS]
  induction l with
  | nil => rfl
  | cons a l ih => simp only [List.map_cons, mapAll, h a, ih]

/-- C76. What a program with silent payment support writes in a human-readable format is to a program without it what that program
would have written itself for the PSBT without the silent payment data: the data is lost without notice. -/
theorem C76_downgrade_loses (hs : L.sp = true) (S : SerdeLib L) (f : Fmt) (hf : f.human = true) (p : V2.Psbt L) :
    (V2.Psbt.serde (plainSerde n m S)).de f ((V2.Psbt.serde S).ser f p) =
      (V2.Psbt.serde (plainSerde n m S)).de f ((V2.Psbt.serde (plainSerde n m S)).ser f (dropSilent n m p)) := by
  conv => lhs; unfold V2.Psbt.serde
  conv => rhs; unfold V2.Psbt.serde
  simp only
  rw [structDe_ser (by decide) (by rfl), structDe_ser (by decide) (by rfl)]
  simp only [Option.bind_eq_bind, Option.bind_some]
  iterate 6 rw [reqField_eq (by rfl)]
  rw [global_read hs hf, vec_read (input_read hs hf), vec_read (output_read hs hf)]
  rfl

/-- C76. So it is read, without the silent payment data, except that a format that does not borrow strings cannot give back
preimages of hashes. -/
theorem C76_downgrade_reads (hs : L.sp = true) (S : SerdeLib L) (hS : S.Good) (f : Fmt) (hf : f.human = true) (p : V2.Psbt L) :
    (V2.Psbt.serde (plainSerde n m S)).de f ((V2.Psbt.serde S).ser f p) = some (dropSilent n m p) ↔
      (f.borrows = false → ∀ i ∈ p.inputs, Spec.NoPreimages i) := by
  rw [C76_downgrade_loses hs S f hf]
  have h := V2.Psbt.serde_rt (f := f) (plainSerde_good (n := n) (m := m) hS) (dropSilent n m p)
    ⟨fun _ => ⟨rfl, rfl⟩, fun i hi _ => by obtain ⟨j, _, rfl⟩ := List.mem_map.1 hi; exact ⟨rfl, rfl⟩,
      fun i hi _ => by obtain ⟨j, _, rfl⟩ := List.mem_map.1 hi; exact ⟨rfl, rfl⟩⟩
  unfold SCodec.Rt at h
  rw [h]
  simp only [hf, true_imp_iff]
  refine imp_congr_right fun _ => ?_
  simp only [dropSilent, List.mem_map, forall_exists_index, and_imp, forall_apply_eq_imp_iff₂]
  exact Iff.rfl

/-- C76, the other way round, for human-readable formats: a PSBT without silent payment data written by a program with silent payment
support is read by a program without it, and is the same PSBT (the one that program has after reading the binary form, C122), except
that a format that does not borrow strings cannot give back preimages of hashes. -/
theorem C76_downgrade_partial (hs : L.sp = true) (S : SerdeLib L) (hS : S.Good) (f : Fmt) (hf : f.human = true) (p : V2.Psbt L)
    (hp : Spec.NoSilentData p) :
    (V2.Psbt.serde (plainSerde n m S)).de f ((V2.Psbt.serde S).ser f p) = some (Spec.plainPsbt n m p) ↔
      (f.borrows = false → ∀ i ∈ p.inputs, Spec.NoPreimages i) := by
  have e : Spec.plainPsbt n m p = dropSilent n m p := by
    have hg : Spec.plainGlobal n m p.global = { Spec.plainGlobal n m p.global with unknowns := p.global.unknowns } := by
      simp only [Spec.plainGlobal, hp.global.1, hp.global.2]; rfl
    have hi : p.inputs.map (Spec.plainInput n m) = p.inputs.map fun i => { Spec.plainInput n m i with unknowns := i.unknowns } :=
      List.map_congr_left fun i hi => by simp only [Spec.plainInput, (hp.inputs i hi).1, (hp.inputs i hi).2]; rfl
    have ho : p.outputs.map (Spec.plainOutput n m) = p.outputs.map fun i => { Spec.plainOutput n m i with unknowns := i.unknowns } :=
      List.map_congr_left fun o ho => by simp only [Spec.plainOutput, (hp.outputs o ho).1, (hp.outputs o ho).2]; rfl
    unfold Spec.plainPsbt dropSilent
    rw [hi, ho, ← hg]
  rw [e]
  exact C76_downgrade_reads hs S hS f hf p
/-- A PSBT with silent payment data is read without it; the PSBT without the data is read as well. -/
example : (V2.Psbt.serde (plainSerde 0 0 (someSerde V2.FL))).de ⟨true, true⟩ ((V2.Psbt.serde (someSerde V2.FL)).ser ⟨true, true⟩ V2.fP) =
    some (dropSilent 0 0 V2.fP) ∧ V2.fP.global.spEcdhShares ≠ .empty :=
  ⟨(C76_downgrade_reads rfl _ (someSerde_good _) ⟨true, true⟩ rfl _).2 nofun, by decide +kernel⟩
example : ∃ p : V2.Psbt V2.FL, p.inputs ≠ [] ∧ p.outputs ≠ [] ∧ Spec.NoSilentData p :=
  ⟨⟨{ V2.fP.global with spEcdhShares := .empty, spDleqProofs := .empty },
    V2.fP.inputs.map fun i => { i with spEcdhShares := .empty, spDleqProofs := .empty },
    V2.fP.outputs.map fun o => { o with spV0Info := none, spV0Label := none }⟩,
    by decide +kernel, by decide +kernel, ⟨⟨rfl, rfl⟩, fun i hi => by obtain ⟨_, _, rfl⟩ := List.mem_map.1 hi; exact ⟨rfl, rfl⟩,
      fun i hi => by obtain ⟨_, _, rfl⟩ := List.mem_map.1 hi; exact ⟨rfl, rfl⟩⟩⟩

/-- C76. In a format that writes structs as sequences nothing is read, with or without silent payment data. -/
theorem C76_downgrade_counterexample {L L' : Lib} (h : L.sp = true) (h' : L'.sp = false) (S : SerdeLib L) (S' : SerdeLib L') (f : Fmt)
    (hf : f.human = false) (p : V2.Psbt L) : (V2.Psbt.serde S').de f ((V2.Psbt.serde S).ser f p) = none := by
  have hg : (V2.Global.serde S').de f ((V2.Global.serde S).ser f p.global) = none := by
    conv => lhs; unfold V2.Global.serde
    simp only [h, h', Bool.false_eq_true, ↓reduceIte, List.append_nil]
    unfold structSer
    simp [structDe, V2.Global.fieldNames, h', hf]
  conv => lhs; unfold V2.Psbt.serde
  simp only
  rw [structDe_ser (by decide) (by rfl)]
  simp only [Option.bind_eq_bind, Option.bind_some]
  rw [reqField_eq (by rfl), hg]
  rfl
example : (V2.Psbt.serde (someSerde (Demo.lib false))).de ⟨false, true⟩ ((V2.Psbt.serde (someSerde V2.FL)).ser ⟨false, true⟩ V2.fP) = none :=
  C76_downgrade_counterexample rfl rfl _ _ _ rfl _

end Psbt
