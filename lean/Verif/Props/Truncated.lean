/- C98: a PSBT shows where it ends, so one that was cut off is not mistaken for a complete one. -/
import Verif.Props.V2Parse2
import Verif.Props.V0Parse
import Verif.Props.Text
namespace Psbt

/-- The decoder does not look beyond what it reads. -/
def Local {ε α : Type} (dec : Bytes → Except ε (α × Bytes)) : Prop :=
  ∀ b a r, dec b = .ok (a, r) → ∃ u, b = u ++ r ∧ ∀ c, dec (u ++ c) = .ok (a, c)

theorem Local.extend {ε α : Type} {dec : Bytes → Except ε (α × Bytes)} (hd : Local dec) {b r : Bytes} {a : α} (h : dec b = .ok (a, r))
    (c : Bytes) : dec (b ++ c) = .ok (a, r ++ c) := by
  obtain ⟨u, rfl, hu⟩ := hd b a r h
  rw [List.append_assoc]
  exact hu _

theorem local_of_shape {ε α : Type} {dec : Bytes → Except ε (α × Bytes)}
    (h : ∀ b a r, dec b = .ok (a, r) → ∃ ps : List Pair, b = serializeMap ps ++ r ∧ (∀ p ∈ ps, PairFits p) ∧
      ∀ r', dec (serializeMap ps ++ r') = .ok (a, r')) : Local dec := by
  intro b a r e
  obtain ⟨ps, h1, -, h2⟩ := h b a r e
  exact ⟨_, h1, h2⟩

theorem local_decodeN {ε α : Type} {dec : Bytes → Except ε (α × Bytes)} (hd : Local dec) (n : Nat) : Local (V2.decodeN dec n) := by
  induction n with
  | zero => intro b a r h; cases h; exact ⟨[], rfl, fun c => rfl⟩
  | succ n ih =>
    intro b l r h
    simp only [V2.decodeN, bind_ok] at h
    obtain ⟨⟨a, r1⟩, h1, ⟨as, r2⟩, h2, h3⟩ := h
    cases h3
    obtain ⟨u, rfl, hu⟩ := hd _ _ _ h1
    obtain ⟨u', e, hu'⟩ := ih _ _ _ h2
    subst e
    refine ⟨u ++ u', by simp, fun c => ?_⟩
    simp only [V2.decodeN, List.append_assoc]
    rw [hu, ok_bind]
    simp only
    rw [hu', ok_bind]

/-- A proper prefix of a text is the text of a proper prefix. -/
theorem b64_cut : ∀ b' b w, b64Encode b' ++ w = b64Encode b → w ≠ [] → ∃ x, b = b' ++ x ∧ x ≠ [] := by
  have pad : ∀ n : Nat, n < 64 → b64Char n ≠ 61 := fun n h => Spec.b64Char_pad h
  have inj : ∀ {m n : Nat}, m < 64 → n < 64 → b64Char m = b64Char n → m = n := by
    intro m n hm hn h
    have := Spec.b64Val_char hm
    rw [h, Spec.b64Val_char hn] at this
    exact (Option.some.inj this).symm
  apply Spec.three_induction
  · intro b w h hw
    exact ⟨b, rfl, by rintro rfl; exact hw (by simpa [b64Encode] using h)⟩
  · intro a b w h hw
    match b with
    | [] => cases h
    | [x] => exact absurd (by simpa [b64Encode] using congrArg List.length h) hw
    | [x, y] => exact absurd (List.length_eq_zero_iff.mp (by simpa [b64Encode] using congrArg List.length h)) hw
    | x :: y :: z :: r =>
      have hz := z.toNat_lt
      simp only [b64Encode, List.cons_append, List.cons.injEq] at h
      exact absurd h.2.2.2.1.symm (pad _ (by omega))
  · intro a a' b w h hw
    match b with
    | [] => cases h
    | [x] => exact absurd (List.length_eq_zero_iff.mp (by simpa [b64Encode] using congrArg List.length h)) hw
    | [x, y] => exact absurd (List.length_eq_zero_iff.mp (by simpa [b64Encode] using congrArg List.length h)) hw
    | x :: y :: z :: r =>
      have hz := z.toNat_lt
      simp only [b64Encode, List.cons_append, List.cons.injEq] at h
      exact absurd h.2.2.2.1.symm (pad _ (by omega))
  · intro a a' a'' r ih b w h hw
    have ha := a.toNat_lt
    have ha' := a'.toNat_lt
    have ha'' := a''.toNat_lt
    match b with
    | [] => cases h
    | [x] => exact absurd (List.length_eq_zero_iff.mp (by have := congrArg List.length h; simp only [b64Encode, List.length_append, List.length_cons, List.length_nil] at this; omega)) hw
    | [x, y] => exact absurd (List.length_eq_zero_iff.mp (by have := congrArg List.length h; simp only [b64Encode, List.length_append, List.length_cons, List.length_nil] at this; omega)) hw
    | x :: y :: z :: s =>
      have hx := x.toNat_lt
      have hy := y.toNat_lt
      have hz := z.toNat_lt
      simp only [b64Encode, List.cons_append, List.cons.injEq] at h
      obtain ⟨h1, h2, h3, h4, h5⟩ := h
      have h1 := inj (by omega) (by omega) h1
      have h2 := inj (by omega) (by omega) h2
      have h3 := inj (by omega) (by omega) h3
      have h4 := inj (by omega) (by omega) h4
      have e1 : a = x := UInt8.toNat_inj.mp (by omega)
      have e2 : a' = y := UInt8.toNat_inj.mp (by omega)
      have e3 : a'' = z := UInt8.toNat_inj.mp (by omega)
      obtain ⟨t, rfl, ht⟩ := ih s w h5 hw
      exact ⟨t, by rw [e1, e2, e3]; rfl, ht⟩

namespace V2
variable {L : Lib}

/-- What was read as the PSBT, and the bytes left over. -/
def ReadsTo (p : Psbt L) (b r : Bytes) : Prop :=
  ∃ d r1 r2, b = MAGIC ++ 0xff :: d ∧ Global.decode L d = .ok (p.global, r1) ∧ p.global.inputCount.toNat * L.inputSize < 2 ^ 63 ∧
    decodeN (Input.decode L) p.global.inputCount.toNat r1 = .ok (p.inputs, r2) ∧ p.global.outputCount.toNat * L.outputSize < 2 ^ 63 ∧
    decodeN (Output.decode L) p.global.outputCount.toNat r2 = .ok (p.outputs, r)

theorem reads_iff {b : Bytes} {p : Psbt L} : Psbt.deserialize L b = .ok p ↔ ∃ r, ReadsTo p b r := by
  rw [deserialize_ok]
  constructor
  · rintro ⟨d, r1, r2, r3, h⟩; exact ⟨r3, d, r1, r2, h⟩
  · rintro ⟨r3, d, r1, r2, h⟩; exact ⟨d, r1, r2, r3, h⟩

theorem ReadsTo.local {p : Psbt L} {b r : Bytes} (h : ReadsTo p b r) : ∃ u, b = u ++ r ∧ ∀ c, ReadsTo p (u ++ c) c := by
  obtain ⟨d, r1, r2, rfl, h1, h2, h3, h4, h5⟩ := h
  obtain ⟨u1, rfl, k1⟩ := local_of_shape Global.decode_shape _ _ _ h1
  obtain ⟨u2, rfl, k2⟩ := local_decodeN (local_of_shape Input.decode_shape) _ _ _ _ h3
  obtain ⟨u3, rfl, k3⟩ := local_decodeN (local_of_shape Output.decode_shape) _ _ _ _ h5
  exact ⟨MAGIC ++ 0xff :: (u1 ++ (u2 ++ u3)), by simp,
    fun c => ⟨u1 ++ (u2 ++ (u3 ++ c)), _, _, by simp, k1 _, h2, k2 _, h4, k3 _⟩⟩

theorem ReadsTo.unique {p q : Psbt L} {b r s : Bytes} (h : ReadsTo p b r) (h' : ReadsTo q b s) : r = s := by
  obtain ⟨d, r1, r2, rfl, h1, h2, h3, h4, h5⟩ := h
  obtain ⟨d', r1', r2', e, k1, k2, k3, k4, k5⟩ := h'
  cases List.append_cancel_left e
  obtain ⟨e1, e2⟩ := Prod.mk.inj (Except.ok.inj (h1.symm.trans k1))
  rw [e1, e2, k3] at h3
  obtain ⟨-, e3⟩ := Prod.mk.inj (Except.ok.inj h3)
  rw [e1, ← e3, k5] at h5
  exact (Prod.mk.inj (Except.ok.inj h5)).2.symm

/-- What was read to its end is refused if any of its last bytes are missing. -/
theorem ReadsTo.cut {p : Psbt L} {u v w : Bytes} (h : ReadsTo p u []) (e : u = v ++ w) (hw : w ≠ []) :
    ∃ x, Psbt.deserialize L v = .error (.err x) := by
  subst e
  cases hv : Psbt.deserialize L v with
  | ok q =>
    obtain ⟨s, hs⟩ := reads_iff.mp hv
    obtain ⟨u', rfl, hu'⟩ := hs.local
    rw [List.append_assoc] at h
    have := h.unique (hu' _)
    simp [hw] at this
  | error x =>
    cases x with
    | err x => exact ⟨x, rfl⟩
    | panic why =>
      exfalso
      obtain ⟨g, r, h1, h2⟩ := C16_panics_only_on_huge_counts_partial hv
      obtain ⟨d, r1, r2, e, k1, k2, k3, k4, k5⟩ := h
      have hl : 5 ≤ v.length := by
        rcases Nat.lt_or_ge v.length 5 with hlt | hge
        · rw [List.drop_eq_nil_of_le (by omega)] at h1
          obtain ⟨ps, e, -⟩ := Global.decode_shape _ _ _ h1
          have := congrArg List.length e
          simp [serializeMap] at this
        · exact hge
      have hd : d = v.drop 5 ++ w := by
        have := congrArg (List.drop 5) e
        rw [List.drop_append_of_le_length hl] at this
        exact this.symm
      have := (local_of_shape Global.decode_shape).extend h1 w
      rw [← hd, k1] at this
      obtain ⟨rfl, -⟩ := Prod.mk.inj (Except.ok.inj this)
      omega

/-- C98. Bytes that are read as a PSBT v2 start with bytes that are read as this PSBT whatever follows them. Any fewer
of these are refused with an error. -/
theorem C98_v2_ends {b : Bytes} {p : Psbt L} (h : Psbt.deserialize L b = .ok p) :
    ∃ u r, b = u ++ r ∧ (∀ c, Psbt.deserialize L (u ++ c) = .ok p) ∧
      ∀ v w, u = v ++ w → w ≠ [] → ∃ e, Psbt.deserialize L v = .error (.err e) := by
  obtain ⟨r, hr⟩ := reads_iff.mp h
  obtain ⟨u, hu, hc⟩ := hr.local
  refine ⟨u, r, hu, fun c => reads_iff.mpr ⟨c, hc c⟩, fun v w e hw => ?_⟩
  have := hc []
  rw [List.append_nil] at this
  exact this.cut e hw

/-- C98. The serialisation of a PSBT v2 is refused if any of its last bytes are missing, and read back if any bytes follow. -/
theorem C98_v2_cut {p : Psbt L} (h : Spec.WF p) :
    (∀ v w, p.serialize = v ++ w → w ≠ [] → ∃ e, Psbt.deserialize L v = .error (.err e)) ∧
      ∀ c, Psbt.deserialize L (p.serialize ++ c) = .ok p := by
  refine ⟨fun v w e hw => ReadsTo.cut (p := p) (u := p.serialize) ?_ e hw, deserialize_serialize_append h⟩
  refine ⟨serializeMap p.global.getPairs ++ (p.inputs.flatMap (fun i => serializeMap i.getPairs) ++
    (p.outputs.flatMap (fun o => serializeMap o.getPairs) ++ [])), _,
    p.outputs.flatMap (fun o => serializeMap o.getPairs) ++ [], ?_, Global.rt h.global _, ?_, ?_, ?_, ?_⟩
  · simp [Psbt.serialize, List.append_assoc]
  · rw [h.inputCount]; exact h.inputMem
  · rw [h.inputCount]
    exact decodeN_enc (fun i hi r => Input.rt (h.inputs i hi) r) _
  · rw [h.outputCount]; exact h.outputMem
  · rw [h.outputCount]
    exact decodeN_enc (fun i hi r => Output.rt (h.outputs i hi) r) _

/-- C98. The string form of a PSBT v2 is refused if any of its last characters are missing. -/
theorem C98_v2_text {p : Psbt L} (h : Spec.WF p) {v w : Bytes} (e : p.toText = v ++ w) (hw : w ≠ []) :
    ∃ e, Psbt.ofText L v = .error (.err e) := by
  unfold Psbt.ofText
  cases hd : b64Decode v with
  | none => exact ⟨_, rfl⟩
  | some b =>
    have := Psbt.Spec.b64Decode_some hd
    subst this
    obtain ⟨x, hx, hx'⟩ := b64_cut _ _ _ e.symm hw
    obtain ⟨e, he⟩ := (C98_v2_cut h).1 _ _ hx hx'
    simp only [he]
    exact ⟨_, rfl⟩

example : Spec.WF demo ∧ ∃ v w, demo.serialize = v ++ w ∧ w ≠ [] :=
  ⟨wf_of_deserialize demo_roundtrip, demo.serialize.take 100, demo.serialize.drop 100, by simp, by decide +kernel⟩

end V2

namespace V0
variable {L : Lib}

/-- What was read as the PSBT, and the bytes left over. -/
def ReadsTo (p : Psbt L) (b r : Bytes) : Prop :=
  ∃ d r1 r2, b = V2.MAGIC ++ 0xff :: d ∧ decodeGlobal L d = .ok ({ p with inputs := [], outputs := [] }, r1) ∧
    (∀ i ∈ p.unsignedTx.input, i.scriptSig = [] ∧ i.witness = []) ∧ p.unsignedTx.input.length * L.inputSize < 2 ^ 63 ∧
    V2.decodeN (Input.decode L) p.unsignedTx.input.length r1 = .ok (p.inputs, r2) ∧ p.unsignedTx.output.length * L.outputSize < 2 ^ 63 ∧
    V2.decodeN (Output.decode L) p.unsignedTx.output.length r2 = .ok (p.outputs, r)

theorem reads_iff {b : Bytes} {p : Psbt L} : Psbt.deserialize L b = .ok p ↔ ∃ r, ReadsTo p b r := by
  rw [deserialize_ok]
  constructor
  · rintro ⟨d, r1, r2, r3, h⟩; exact ⟨r3, d, r1, r2, h⟩
  · rintro ⟨r3, d, r1, r2, h⟩; exact ⟨d, r1, r2, r3, h⟩

theorem ReadsTo.local {p : Psbt L} {b r : Bytes} (h : ReadsTo p b r) : ∃ u, b = u ++ r ∧ ∀ c, ReadsTo p (u ++ c) c := by
  obtain ⟨d, r1, r2, rfl, h1, h0, h2, h3, h4, h5⟩ := h
  obtain ⟨u1, rfl, k1⟩ := local_of_shape decodeGlobal_shape _ _ _ h1
  obtain ⟨u2, rfl, k2⟩ := local_decodeN (local_of_shape Input.decode_shape) _ _ _ _ h3
  obtain ⟨u3, rfl, k3⟩ := local_decodeN (local_of_shape Output.decode_shape) _ _ _ _ h5
  exact ⟨V2.MAGIC ++ 0xff :: (u1 ++ (u2 ++ u3)), by simp,
    fun c => ⟨u1 ++ (u2 ++ (u3 ++ c)), _, _, by simp, k1 _, h0, h2, k2 _, h4, k3 _⟩⟩

theorem ReadsTo.unique {p q : Psbt L} {b r s : Bytes} (h : ReadsTo p b r) (h' : ReadsTo q b s) : r = s := by
  obtain ⟨d, r1, r2, rfl, h1, -, h2, h3, h4, h5⟩ := h
  obtain ⟨d', r1', r2', e, k1, -, k2, k3, k4, k5⟩ := h'
  cases List.append_cancel_left e
  obtain ⟨e1, e2⟩ := Prod.mk.inj (Except.ok.inj (h1.symm.trans k1))
  have e1 : p.unsignedTx = q.unsignedTx := by have := congrArg Psbt.unsignedTx e1; exact this
  rw [e1, e2, k3] at h3
  obtain ⟨-, e3⟩ := Prod.mk.inj (Except.ok.inj h3)
  rw [e1, ← e3, k5] at h5
  exact (Prod.mk.inj (Except.ok.inj h5)).2.symm

theorem panics {b : Bytes} {why : String} (h : Psbt.deserialize L b = .error (.panic why)) :
    ∃ g r, decodeGlobal L (b.drop 5) = .ok (g, r) ∧
      (2 ^ 63 ≤ g.unsignedTx.input.length * L.inputSize ∨ 2 ^ 63 ≤ g.unsignedTx.output.length * L.outputSize) := by
  unfold Psbt.deserialize at h
  split at h
  · cases h
  · split at h
    · cases h
    · revert h
      simp only [V2.orFail]
      cases hg : decodeGlobal L (List.drop 5 b) with
      | error e => intro h; cases h
      | ok x =>
        simp only [mapErr_of_ok, ok_bind]
        cases x.1.unsignedTxChecks with
        | error e => intro h; cases h
        | ok u =>
          simp only [mapErr_of_ok, ok_bind]
          split
          · rename_i hc
            intro _
            rw [V2.capacityOverflow_iff] at hc
            exact ⟨x.1, x.2, rfl, .inl (by omega)⟩
          · cases V2.decodeN (Input.decode L) x.1.unsignedTx.input.length x.2 with
            | error e => intro h; cases h
            | ok y =>
              simp only [mapErr_of_ok, ok_bind]
              split
              · rename_i hc
                intro _
                rw [V2.capacityOverflow_iff] at hc
                exact ⟨x.1, x.2, rfl, .inr (by omega)⟩
              · cases V2.decodeN (Output.decode L) x.1.unsignedTx.output.length y.2 with
                | error e => intro h; cases h
                | ok z => intro h; cases h

/-- What was read to its end is refused if any of its last bytes are missing. -/
theorem ReadsTo.cut {p : Psbt L} {u v w : Bytes} (h : ReadsTo p u []) (e : u = v ++ w) (hw : w ≠ []) :
    ∃ x, Psbt.deserialize L v = .error (.err x) := by
  subst e
  cases hv : Psbt.deserialize L v with
  | ok q =>
    obtain ⟨s, hs⟩ := reads_iff.mp hv
    obtain ⟨u', rfl, hu'⟩ := hs.local
    rw [List.append_assoc] at h
    have := h.unique (hu' _)
    simp [hw] at this
  | error x =>
    cases x with
    | err x => exact ⟨x, rfl⟩
    | panic why =>
      exfalso
      obtain ⟨g, r, h1, h2⟩ := panics hv
      obtain ⟨d, r1, r2, e, k1, -, k2, k3, k4, k5⟩ := h
      have hl : 5 ≤ v.length := by
        rcases Nat.lt_or_ge v.length 5 with hlt | hge
        · rw [List.drop_eq_nil_of_le (by omega)] at h1
          obtain ⟨ps, e, -⟩ := decodeGlobal_shape _ _ _ h1
          have := congrArg List.length e
          simp [serializeMap] at this
        · exact hge
      have hd : d = v.drop 5 ++ w := by
        have := congrArg (List.drop 5) e
        rw [List.drop_append_of_le_length hl] at this
        exact this.symm
      have := (local_of_shape decodeGlobal_shape).extend h1 w
      rw [← hd, k1] at this
      obtain ⟨rfl, -⟩ := Prod.mk.inj (Except.ok.inj this)
      simp only at h2
      omega

/-- C98. Bytes that are read as a PSBT v0 start with bytes that are read as this PSBT whatever follows them. Any fewer
of these are refused with an error. -/
theorem C98_v0_ends {b : Bytes} {p : Psbt L} (h : Psbt.deserialize L b = .ok p) :
    ∃ u r, b = u ++ r ∧ (∀ c, Psbt.deserialize L (u ++ c) = .ok p) ∧
      ∀ v w, u = v ++ w → w ≠ [] → ∃ e, Psbt.deserialize L v = .error (.err e) := by
  obtain ⟨r, hr⟩ := reads_iff.mp h
  obtain ⟨u, hu, hc⟩ := hr.local
  refine ⟨u, r, hu, fun c => reads_iff.mpr ⟨c, hc c⟩, fun v w e hw => ?_⟩
  have := hc []
  rw [List.append_nil] at this
  exact this.cut e hw

/-- C98. The serialisation of a PSBT v0 is refused if any of its last bytes are missing, and read back if any bytes follow. -/
theorem C98_v0_cut {p : Psbt L} (h : Spec.V0.WF p) :
    (∀ v w, p.serialize = v ++ w → w ≠ [] → ∃ e, Psbt.deserialize L v = .error (.err e)) ∧
      ∀ c, Psbt.deserialize L (p.serialize ++ c) = .ok p := by
  refine ⟨fun v w e hw => ReadsTo.cut (p := p) (u := p.serialize) ?_ e hw, deserialize_serialize_append h⟩
  refine ⟨serializeMap p.getPairs ++ (p.inputs.flatMap (fun i => serializeMap i.getPairs) ++
    (p.outputs.flatMap (fun o => serializeMap o.getPairs) ++ [])), _,
    p.outputs.flatMap (fun o => serializeMap o.getPairs) ++ [], ?_,
    gl_rt (p := p) ?_ ((gl_size_iff p).mp h.globalSize) h.version _, h.unsigned, ?_, ?_, ?_, ?_⟩
  · simp [Psbt.serialize, List.append_assoc]
  · exact (gl_wf_iff p).mp ⟨h.version, fun i hi => (h.unsigned i hi).2, h.sizes, h.props, h.unknowns⟩
  · rw [← h.inputCount]; exact h.inputMem
  · rw [← h.inputCount]
    exact V2.decodeN_enc (fun i hi r => Input.rt (h.inputs i hi) r) _
  · rw [← h.outputCount]; exact h.outputMem
  · rw [← h.outputCount]
    exact V2.decodeN_enc (fun i hi r => Output.rt (h.outputs i hi) r) _

/-- C98. The string form of a PSBT v0 is refused if any of its last characters are missing. -/
theorem C98_v0_text {p : Psbt L} (h : Spec.V0.WF p) {v w : Bytes} (e : p.toText = v ++ w) (hw : w ≠ []) :
    ∃ e, Psbt.ofText L v = .error (.err e) := by
  unfold Psbt.ofText
  cases hd : b64Decode v with
  | none => exact ⟨_, rfl⟩
  | some b =>
    have := Spec.b64Decode_some hd
    subst this
    obtain ⟨x, hx, hx'⟩ := b64_cut _ _ _ e.symm hw
    obtain ⟨e, he⟩ := (C98_v0_cut h).1 _ _ hx hx'
    simp only [he]
    exact ⟨_, rfl⟩

example : Spec.V0.WF demo ∧ ∃ v w, demo.serialize = v ++ w ∧ w ≠ [] :=
  ⟨wf_of_deserialize demo_roundtrip, demo.serialize.take 60, demo.serialize.drop 60, by simp, by decide +kernel⟩

end V0
end Psbt
