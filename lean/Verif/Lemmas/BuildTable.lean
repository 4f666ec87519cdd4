import Verif.Lemmas.Build
import Verif.Lemmas.Types
import Verif.Props.Types
import Verif.Props.Scale

/-! # Builders of the crate: every value of the right type has a wire form -/

namespace Ublox
open Spec Gen Props

/-- Static facts about a field of fixed size of a builder. -/
def buildB (f : FieldDesc) : Bool :=
  width f.ty != 0 &&
  match f.map, f.ty with
  | none, _ => f.scale.isNone
  | some .f32, _ => f.scale.isSome
  | some .f64, _ => f.scale.isSome
  | some (.enum e), .u8 => e.intoRaw && f.scale.isNone
  | some (.flags d), .u8 => d.intoRaw && d.nbits == 8 && f.scale.isNone
  | some (.flags d), .u16 => d.intoRaw && d.nbits == 16 && f.scale.isNone
  | some (.flags d), .u32 => d.intoRaw && d.nbits == 32 && f.scale.isNone
  | some .uartMode, .u32 => f.scale.isNone
  | some .itfmConfig, .u32 => f.scale.isNone
  | some .itfmConfig2, .u32 => f.scale.isNone
  | some .resetMode, .u8 => f.scale.isNone
  | some .alignment, .u16 => f.scale.isNone
  | _, _ => false

theorem build_table : (allPackets.all fun d => !d.hasBuilder ||
    (decide (total d.fields < 65536) && d.fields.all fun f => f.ty == .tail || buildB f)) = true := by
  decide +kernel

theorem build_total {d : PackDesc} (hd : d ∈ allPackets) (hb : d.hasBuilder = true) :
    total d.fields < 65536 := by
  have h := List.all_eq_true.mp build_table d hd
  rw [hb, Bool.not_true, Bool.false_or, Bool.and_eq_true] at h
  exact of_decide_eq_true h.1

theorem build_field {d : PackDesc} (hd : d ∈ allPackets) (hb : d.hasBuilder = true)
    {f : FieldDesc} (hf : f ∈ d.fields) (ht : f.ty ≠ .tail) : buildB f = true := by
  have h := List.all_eq_true.mp build_table d hd
  rw [hb, Bool.not_true, Bool.false_or, Bool.and_eq_true] at h
  have := List.all_eq_true.mp h.2 f hf
  simpa [ht] using this

theorem scaled_bytes {d : PackDesc} {f : FieldDesc} {c : Conv} {x : Fl} {v : Val}
    (hd : d ∈ allPackets) (hb : d.hasBuilder = true) (hf : f ∈ d.fields)
    (hm : f.map = some c) (hv : floatVal c x = some v) (hn : ¬ SignedNan f v)
    (hs : f.scale.isSome = true) :
    ∃ r, f.bytes v = .ok r.toLeBytes ∧ r.ofTy f.ty = true ∧ Scaled f (slack c) x r := by
  obtain ⟨s, hs⟩ := Option.isSome_iff_exists.mp hs
  cases x with
  | fin q =>
    obtain ⟨r, m, lo, hi, h1, h2, h3, h4, h5⟩ :=
      c43_finite_partial (q := q) hd hb hf hs hm hv rfl
    refine ⟨r, h1, h2, m, lo, hi, s, h3, h4, hs, ?_, ?_⟩
    · intro q' hq'; simp only [Fl.val?, Option.some.injEq] at hq'; rw [← hq']; exact h5
    · intro neg hx; cases hx
  | negZero =>
    obtain ⟨r, m, lo, hi, h1, h2, h3, h4, h5⟩ :=
      c43_finite_partial (q := 0) hd hb hf hs hm hv rfl
    refine ⟨r, h1, h2, m, lo, hi, s, h3, h4, hs, ?_, ?_⟩
    · intro q' hq'; simp only [Fl.val?, Option.some.injEq] at hq'; rw [← hq']; exact h5
    · intro neg hx; cases hx
  | inf neg =>
    obtain ⟨r, lo, hi, h1, h2, h3, h4⟩ := c43_infinite hd hb hf hs hm hv
    refine ⟨r, h1, h2, _, lo, hi, s, h4, h3, hs, ?_, ?_⟩
    · intro q' hq'; simp only [Fl.val?, reduceCtorEq] at hq'
    · intro neg' hx; cases hx; rfl
  | nan neg =>
    obtain ⟨lo, hi, -, hr, hc⟩ := scaled_field hd hb hf hs
    have hlo : lo = 0 := by
      have : lo ≤ 0 := by rcases hc with ⟨_, h, _⟩ | ⟨_, h⟩ <;> exact h.lo0
      have : ¬ lo < 0 := fun hlt => hn ⟨⟨lo, hi, hr, hlt⟩, neg, by
        cases c <;> simp [floatVal] at hv <;> subst hv <;> simp⟩
      omega
    subst hlo
    obtain ⟨r, h1, h2, h3⟩ := c43_nan_unsigned hd hb hf hs hm hv hr
    rcases h3 with h3 | h3
    · exact ⟨r, h1, h2, _, 0, hi, s, h3, hr, hs, fun q hq => by simp [Fl.val?] at hq,
        fun neg' hx => by cases hx⟩
    · exact ⟨r, h1, h2, _, 0, hi, s, h3, hr, hs, fun q hq => by simp [Fl.val?] at hq,
        fun neg' hx => by cases hx⟩

/-- Every value of the right type has a wire form. -/
theorem field_bytes {d : PackDesc} {f : FieldDesc} {v : Val} (hd : d ∈ allPackets)
    (hb : d.hasBuilder = true) (hf : f ∈ d.fields) (ht : f.ty ≠ .tail) (hv : HasType f v)
    (hn : ¬ SignedNan f v) : ∃ r, f.bytes v = .ok r.toLeBytes ∧ RawOf f v r := by
  have hB := build_field hd hb hf ht
  unfold buildB at hB
  rw [Bool.and_eq_true] at hB
  obtain ⟨-, hB⟩ := hB
  unfold HasType at hv
  revert hv
  split
  · -- raw
    rename_i r hm
    intro hr
    refine ⟨r, ?_, hr, ?_⟩
    · unfold FieldDesc.bytes; rw [hm]; simp only [hr, if_true]; rfl
    · rw [hm]
  · rename_i x hm
    intro _
    rw [hm] at hB
    obtain ⟨r, h1, h2, h3⟩ := scaled_bytes hd hb hf hm rfl hn hB
    exact ⟨r, h1, h2, by rw [hm]; exact h3⟩
  · rename_i x hm
    intro _
    rw [hm] at hB
    obtain ⟨r, h1, h2, h3⟩ := scaled_bytes hd hb hf hm rfl hn hB
    exact ⟨r, h1, h2, by rw [hm]; exact h3⟩
  · rename_i e x hm
    intro hx
    rw [hm] at hB
    have hty : f.ty = .u8 := by revert hB; cases f.ty <;> simp
    rw [hty] at hB
    simp only [Bool.and_eq_true] at hB
    obtain ⟨hi, -⟩ := hB
    refine ⟨.u8 x.2, ?_, by rw [hty]; rfl, ?_⟩
    · unfold FieldDesc.bytes
      rw [hm]
      have : e.allVariants.contains x = true := by simpa using hx
      simp only [Conv.intoRaw, hi, this, Bool.and_true, if_true]
      rfl
    · rw [hm]; rfl
  · rename_i e x hm
    intro hx
    rw [hm] at hB
    have ht := e.fromBitsTruncate_eq hx
    have hcase : (f.ty = .u8 ∧ e.nbits = 8 ∨ f.ty = .u16 ∧ e.nbits = 16 ∨
        f.ty = .u32 ∧ e.nbits = 32) ∧ e.intoRaw = true := by
      revert hB; cases f.ty <;> simp <;> grind
    obtain ⟨⟨hty, hnb⟩ | ⟨hty, hnb⟩ | ⟨hty, hnb⟩, hi⟩ := hcase
    · refine ⟨.u8 (UInt8.ofNat x), ?_, by rw [hty]; rfl, ?_⟩
      · unfold FieldDesc.bytes
        rw [hm]
        simp only [Conv.intoRaw, hi, ht, beq_self_eq_true, Bool.and_true, if_true, hnb,
          RawVal.ofUnsigned]
        rfl
      · rw [hm]; rw [hnb] at hx
        simp only [intOf, Option.some.injEq, UInt8.toNat_ofNat']; omega
    · refine ⟨.u16 (UInt16.ofNat x), ?_, by rw [hty]; rfl, ?_⟩
      · unfold FieldDesc.bytes
        rw [hm]
        simp only [Conv.intoRaw, hi, ht, beq_self_eq_true, Bool.and_true, if_true, hnb,
          RawVal.ofUnsigned]
        rfl
      · rw [hm]; rw [hnb] at hx
        simp only [intOf, Option.some.injEq, UInt16.toNat_ofNat']; omega
    · refine ⟨.u32 (UInt32.ofNat x), ?_, by rw [hty]; rfl, ?_⟩
      · unfold FieldDesc.bytes
        rw [hm]
        simp only [Conv.intoRaw, hi, ht, beq_self_eq_true, Bool.and_true, if_true, hnb,
          RawVal.ofUnsigned]
        rfl
      · rw [hm]; rw [hnb] at hx
        simp only [intOf, Option.some.injEq, UInt32.toNat_ofNat']; omega
  · rename_i m hm
    intro _
    rw [hm] at hB
    have hty : f.ty = .u32 := by revert hB; cases f.ty <;> simp
    refine ⟨.u32 m.intoRaw, ?_, by rw [hty]; rfl, ?_⟩
    · unfold FieldDesc.bytes; rw [hm]; rfl
    · rw [hm]; simp only [intOf, c30_uart_into]
  · rename_i m hm
    intro _
    rw [hm] at hB
    have hty : f.ty = .u32 := by revert hB; cases f.ty <;> simp
    refine ⟨.u32 m.intoRaw, ?_, by rw [hty]; rfl, ?_⟩
    · unfold FieldDesc.bytes; rw [hm]; rfl
    · rw [hm]
  · rename_i m hm
    intro _
    rw [hm] at hB
    have hty : f.ty = .u32 := by revert hB; cases f.ty <;> simp
    refine ⟨.u32 m.intoRaw, ?_, by rw [hty]; rfl, ?_⟩
    · unfold FieldDesc.bytes; rw [hm]; rfl
    · rw [hm]
  · rename_i m hm
    intro _
    rw [hm] at hB
    have hty : f.ty = .u8 := by revert hB; cases f.ty <;> simp
    refine ⟨.u8 m.intoRaw, ?_, by rw [hty]; rfl, ?_⟩
    · unfold FieldDesc.bytes; rw [hm]; rfl
    · rw [hm]; cases m <;> rfl
  · rename_i m hm
    intro _
    rw [hm] at hB
    have hty : f.ty = .u16 := by revert hB; cases f.ty <;> simp
    refine ⟨.u16 m.intoRaw, ?_, by rw [hty]; rfl, ?_⟩
    · unfold FieldDesc.bytes; rw [hm]; rfl
    · rw [hm]; cases m <;> rfl
  · intro h; cases h

/-- The blocks of a list of fields, each with its meaning. -/
theorem blocks_of {fs : List FieldDesc} {b : Builder} (hl : b.length = fs.length)
    (h : ∀ (i : Nat) (f : FieldDesc) (v : Val), fs[i]? = some f → b[i]? = some v →
      width f.ty ≠ 0 ∧ ∃ r, f.bytes v = .ok r.toLeBytes ∧ RawOf f v r) :
    ∃ ks, Blocks fs b ks ∧ ∀ (i : Nat) (f : FieldDesc) (v : Val) (k : Bytes), fs[i]? = some f →
      b[i]? = some v → ks[i]? = some k → k.length = width f.ty ∧ ∃ r, RawOf f v r ∧ Denotes r k := by
  induction fs generalizing b with
  | nil =>
    match b, hl with
    | [], _ => exact ⟨[], trivial, by simp⟩
  | cons f fs ih =>
    match b, hl with
    | v :: vs, hl =>
      obtain ⟨hw, r, h1, h2⟩ := h 0 f v rfl rfl
      obtain ⟨ks, k1, k2⟩ := ih (b := vs) (by simpa using hl) (fun i f v hf hv => h (i + 1) f v hf hv)
      have hlen : r.toLeBytes.length = width f.ty := by
        have := RawVal.toLeBytes_length h2.1
        rw [size_some hw] at this
        exact (Option.some.inj this).symm
      refine ⟨r.toLeBytes :: ks, ⟨h1, hlen, hw, k1⟩, ?_⟩
      intro i g u k hg hu hk
      cases i with
      | zero =>
        simp only [List.getElem?_cons_zero, Option.some.injEq] at hg hu hk
        subst hg; subst hu; subst hk
        exact ⟨hlen, r, h2, r.denotes_toLeBytes⟩
      | succ i =>
        simp only [List.getElem?_cons_succ] at hg hu hk
        exact k2 i g u k hg hu hk

theorem buildable_blocks {d : PackDesc} (hd : d ∈ allPackets) (hb : d.hasBuilder = true)
    (ht : ∀ f ∈ d.fields, f.ty ≠ .tail) {b : Builder} (h : Buildable d.fields b) :
    ∃ ks, Blocks d.fields b ks ∧ PayloadOf d.fields b ks.flatten := by
  obtain ⟨ks, h1, h2⟩ := blocks_of h.1 fun i f v hf hv => by
    have hm := List.mem_of_getElem? hf
    have hbf := build_field hd hb hm (ht f hm)
    unfold buildB at hbf
    rw [Bool.and_eq_true, bne_iff_ne] at hbf
    obtain ⟨t1, t2⟩ := h.2 i f v hf hv
    exact ⟨hbf.1, field_bytes hd hb hm (ht f hm) t1 t2⟩
  exact ⟨ks, h1, ks, rfl, h1.length.2.1, h2⟩

end Ublox
