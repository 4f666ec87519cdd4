import Verif.Spec.Ieee
import Verif.Lemmas.Float
import Mathlib.Algebra.Ring.Int.Parity

/-! Rounding of the model (`Model/Float.lean`) is rounding to nearest, ties to even. -/

namespace Ublox
open Spec

/-- The format as the standard describes it. -/
def FloatFmt.binary (fmt : FloatFmt) : Binary := ⟨fmt.p, fmt.emin, fmt.emax⟩

theorem fmt32_binary : fmt32.binary = binary32 := rfl
theorem fmt64_binary : fmt64.binary = binary64 := rfl

/-- No integer is nearer, and one that is as near means that the chosen one is even. -/
theorem rne_nearest (q : Rat) (k : Int) : |(rne q : Rat) - q| ≤ |(k : Rat) - q| ∧
    (k ≠ rne q → |(rne q : Rat) - q| = |(k : Rat) - q| → Even (rne q)) := by
  have hf := Rat.floor_le q
  have hf' := Rat.lt_floor_add_one q
  push_cast at hf'
  generalize hF : q.floor = f at hf hf'
  have hk : k ≤ f ∨ f + 1 ≤ k := by omega
  have hk' : (k : Rat) ≤ f ∨ (f : Rat) + 1 ≤ k := by
    rcases hk with h | h
    · exact .inl (by exact_mod_cast h)
    · exact .inr (by exact_mod_cast h)
  unfold rne
  simp only [hF]
  have ha : |(f : Rat) - q| = q - f := by rw [abs_of_nonpos (by linarith)]; ring
  have hb : |((f + 1 : Int) : Rat) - q| = f + 1 - q := by push_cast; rw [abs_of_nonneg (by linarith)]
  have hd : |(k : Rat) - q| = q - k ∧ (k : Rat) ≤ f ∨ |(k : Rat) - q| = k - q ∧ (f : Rat) + 1 ≤ k := by
    rcases hk' with h | h
    · exact .inl ⟨by rw [abs_of_nonpos (by linarith)]; ring, h⟩
    · exact .inr ⟨by rw [abs_of_nonneg (by linarith)], h⟩
  split
  · next h =>
    rw [ha]
    rcases hd with ⟨hd, h'⟩ | ⟨hd, h'⟩ <;> rw [hd]
    · refine ⟨by linarith, fun hne he => absurd ?_ hne⟩
      have : (k : Rat) = f := by linarith
      exact_mod_cast this
    · exact ⟨by linarith, fun _ he => by linarith⟩
  · split
    · next h1 h2 =>
      rw [hb]
      rcases hd with ⟨hd, h'⟩ | ⟨hd, h'⟩ <;> rw [hd]
      · exact ⟨by linarith, fun _ he => by linarith⟩
      · refine ⟨by linarith, fun hne he => absurd ?_ hne⟩
        have : (k : Rat) = ((f + 1 : Int) : Rat) := by push_cast; linarith
        exact_mod_cast this
    · next h1 h2 =>
      have h3 : q - f = 1 / 2 := by linarith
      split
      · next he =>
        rw [ha]
        refine ⟨?_, fun _ _ => Int.even_iff.mpr he⟩
        rcases hd with ⟨hd, h'⟩ | ⟨hd, h'⟩ <;> rw [hd] <;> linarith
      · next he =>
        rw [hb]
        refine ⟨?_, fun _ _ => Int.even_iff.mpr (by omega)⟩
        rcases hd with ⟨hd, h'⟩ | ⟨hd, h'⟩ <;> rw [hd] <;> linarith

theorem rne_mono {q : Rat} {k : Int} (h : (k : Rat) ≤ q) : k ≤ rne q := by
  by_contra hc
  have h1 : rne q + 1 ≤ k := by omega
  have h2 : ((rne q : Int) : Rat) + 1 ≤ k := by exact_mod_cast h1
  have := (rne_nearest q k).1
  rw [abs_of_nonpos (by linarith), abs_of_nonpos (by linarith)] at this
  linarith

theorem rne_mono' {q : Rat} {k : Int} (h : q ≤ (k : Rat)) : rne q ≤ k := by
  by_contra hc
  have h1 : k + 1 ≤ rne q := by omega
  have h2 : (k : Rat) + 1 ≤ (rne q : Int) := by exact_mod_cast h1
  have := (rne_nearest q k).1
  rw [abs_of_nonneg (by linarith), abs_of_nonneg (by linarith)] at this
  linarith

/-- Rounding is to the nearest number of the format, ties to even. -/
theorem round_rounds (fmt : FloatFmt) (hp : 2 ≤ fmt.p) (q : Rat) : fmt.binary.Rounds q (fmt.round q) := by
  by_cases hq0 : q = 0
  · subst hq0
    have h0 : fmt.round 0 = 0 := by unfold FloatFmt.round; simp
    have hs : fmt.binary.Stored 0 0 fmt.emin := ⟨by simp, by simp, le_refl _, .inr rfl⟩
    rw [h0]
    exact ⟨⟨0, _, hs⟩, fun s _ => ⟨by simp, fun _ _ => ⟨0, _, hs, by simp⟩⟩⟩
  have hpos : 0 < |q| := abs_pos.mpr hq0
  obtain ⟨hl1, hl2⟩ := ilog2_spec hpos
  have hr : fmt.round q = (rne (q / 2 ^ fmt.ulpExp q) : Rat) * 2 ^ fmt.ulpExp q := by
    unfold FloatFmt.round
    rw [if_neg hq0]
    simp only [pow2_eq]
  have hE : fmt.ulpExp q = max (ilog2 |q| - ((fmt.p : Int) - 1)) fmt.emin := by
    unfold FloatFmt.ulpExp
    rw [ratAbs_eq]
  generalize fmt.ulpExp q = E at hr hE
  generalize ilog2 |q| = L at hl1 hl2 hE
  have hu : (0 : Rat) < 2 ^ E := by positivity
  generalize hM : rne (q / 2 ^ E) = M at hr
  have hx : |q / 2 ^ E| = |q| / 2 ^ E := by rw [abs_div, abs_of_pos hu]
  -- bounds of the quotient
  have hup : |q / 2 ^ E| ≤ ((2 ^ fmt.p : Int) : Rat) := by
    rw [hx, div_le_iff₀ hu]
    refine hl2.le.trans ?_
    push_cast
    rw [← zpow_natCast, ← zpow_add₀ (by norm_num)]
    exact zpow_le_zpow_right₀ (by norm_num) (by omega)
  have hlow : E = fmt.emin ∨ ((2 ^ (fmt.p - 1) : Int) : Rat) ≤ |q / 2 ^ E| := by
    by_cases h : E = fmt.emin
    · exact .inl h
    · right
      rw [hx, le_div_iff₀ hu]
      refine le_trans ?_ hl1
      push_cast
      rw [← zpow_natCast, ← zpow_add₀ (by norm_num)]
      exact zpow_le_zpow_right₀ (by norm_num) (by omega)
  have hMup : |M| ≤ 2 ^ fmt.p := by
    rw [abs_le] at hup ⊢
    rw [← hM]
    refine ⟨?_, rne_mono' hup.2⟩
    have : ((-2 ^ fmt.p : Int) : Rat) ≤ q / 2 ^ E := by push_cast at hup ⊢; exact hup.1
    exact rne_mono this
  have hMlow : E = fmt.emin ∨ 2 ^ (fmt.p - 1) ≤ |M| := by
    refine hlow.imp_right fun h => ?_
    rw [le_abs] at h ⊢
    rw [← hM]
    refine h.imp rne_mono fun h => ?_
    have : q / 2 ^ E ≤ ((-2 ^ (fmt.p - 1) : Int) : Rat) := by push_cast at h ⊢; linarith
    have := rne_mono' this
    omega
  -- the result in the form in which it is stored
  have hstored : ∃ m e, fmt.binary.Stored (fmt.round q) m e ∧ (Even M → Even m) := by
    by_cases h : |M| = 2 ^ fmt.p
    · obtain ⟨p, hp'⟩ : ∃ p, fmt.p = p + 2 := ⟨fmt.p - 2, by omega⟩
      have hh : M = 2 * (M / 2) ∧ |M / 2| = 2 ^ (p + 1) := by
        rw [hp', pow_succ] at h
        rcases abs_choice M with hc | hc <;> rw [hc] at h
        · have e : M = 2 ^ (p + 1) * 2 := h
          have e2 : M / 2 = 2 ^ (p + 1) := by omega
          exact ⟨by omega, by rw [e2]; exact abs_of_pos (by positivity)⟩
        · have e : -M = 2 ^ (p + 1) * 2 := h
          have e2 : M / 2 = -2 ^ (p + 1) := by omega
          exact ⟨by omega, by rw [e2, abs_neg]; exact abs_of_pos (by positivity)⟩
      have hlt : (2 : Int) ^ (p + 1) < 2 ^ (p + 2) := by
        rw [pow_succ 2 (p + 1)]
        have : (0 : Int) < 2 ^ (p + 1) := by positivity
        omega
      refine ⟨M / 2, E + 1, ⟨?_, ?_, ?_, ?_⟩, ?_⟩
      · rw [hr, zpow_add_one₀ (by norm_num)]
        have : (M : Rat) = 2 * ((M / 2 : Int) : Rat) := by exact_mod_cast hh.1
        rw [this]; ring
      · show |M / 2| < 2 ^ fmt.p
        rw [hh.2, hp']; exact hlt
      · show fmt.emin ≤ E + 1
        omega
      · left
        show 2 ^ (fmt.p - 1) ≤ |M / 2|
        rw [hh.2, hp']; exact le_refl _
      · intro _
        have h2 : Even |M / 2| := by rw [hh.2, pow_succ]; exact even_two.mul_left _
        rcases abs_choice (M / 2) with hc | hc <;> rw [hc] at h2
        · exact h2
        · exact even_neg.mp h2
    · refine ⟨M, E, ⟨hr, lt_of_le_of_ne hMup h, ?_, ?_⟩, id⟩
      · show fmt.emin ≤ E
        omega
      · exact hMlow.symm
  obtain ⟨m, e, hst, hev⟩ := hstored
  refine ⟨⟨m, e, hst⟩, ?_⟩
  -- distance to a multiple of the unit
  have hmult : ∀ k : Int, |fmt.round q - q| ≤ |(k : Rat) * 2 ^ E - q| ∧
      ((k : Rat) * 2 ^ E ≠ fmt.round q → |fmt.round q - q| = |(k : Rat) * 2 ^ E - q| → Even M) := by
    intro k
    have e1 : ∀ k : Int, |(k : Rat) * 2 ^ E - q| = |(k : Rat) - q / 2 ^ E| * 2 ^ E := by
      intro k
      have : (k : Rat) * 2 ^ E - q = ((k : Rat) - q / 2 ^ E) * 2 ^ E := by field_simp
      rw [this, abs_mul, abs_of_pos hu]
    have hn := rne_nearest (q / 2 ^ E) k
    rw [hM] at hn
    rw [hr, e1, e1]
    refine ⟨mul_le_mul_of_nonneg_right hn.1 hu.le, fun hne he => hn.2 ?_ ?_⟩
    · rintro rfl; exact hne rfl
    · exact mul_right_cancel₀ hu.ne' he
  rintro s ⟨ms, es, h1, h2, h3, -⟩
  have h2' : |ms| < 2 ^ fmt.p := h2
  have h3' : fmt.emin ≤ es := h3
  by_cases he : E ≤ es
  · obtain ⟨j, hj⟩ := Int.eq_ofNat_of_zero_le (show 0 ≤ es - E by omega)
    have hs : s = ((ms * 2 ^ j : Int) : Rat) * 2 ^ E := by
      rw [h1, show es = (j : Int) + E by omega, zpow_add₀ (by norm_num), zpow_natCast]
      push_cast; ring
    rw [hs]
    exact ⟨(hmult _).1, fun hne h => ⟨m, e, hst, hev ((hmult _).2 hne h)⟩⟩
  · -- smaller than the power of two below `q`, which is a multiple of the unit
    have hEL : E + ((fmt.p : Int) - 1) = L := by omega
    have hsmall : |s| < 2 ^ L := by
      rw [h1, abs_mul, abs_of_pos (show (0 : Rat) < 2 ^ es by positivity)]
      have a1 : |(ms : Rat)| < 2 ^ (fmt.p : Int) := by rw [zpow_natCast]; exact_mod_cast h2'
      calc |(ms : Rat)| * 2 ^ es < 2 ^ (fmt.p : Int) * 2 ^ es :=
            mul_lt_mul_of_pos_right a1 (by positivity)
        _ = 2 ^ ((fmt.p : Int) + es) := by rw [← zpow_add₀ (by norm_num)]
        _ ≤ 2 ^ L := zpow_le_zpow_right₀ (by norm_num) (by omega)
    have hpow : (2 : Rat) ^ L = ((2 ^ (fmt.p - 1) : Int) : Rat) * 2 ^ E := by
      push_cast
      rw [← zpow_natCast, ← zpow_add₀ (by norm_num)]
      congr 1; omega
    have hlt : |fmt.round q - q| < |s - q| := by
      obtain ⟨hs1, hs2⟩ := abs_lt.mp hsmall
      rcases le_total 0 q with h0 | h0
      · rw [abs_of_nonneg h0] at hl1
        have := (hmult (2 ^ (fmt.p - 1))).1
        rw [← hpow, abs_of_nonpos (show (2 : Rat) ^ L - q ≤ 0 by linarith)] at this
        rw [abs_of_nonpos (show s - q ≤ 0 by linarith)]
        linarith
      · rw [abs_of_nonpos h0] at hl1
        have := (hmult (-2 ^ (fmt.p - 1))).1
        rw [show ((-2 ^ (fmt.p - 1) : Int) : Rat) * 2 ^ E = -2 ^ L by rw [hpow]; push_cast; ring,
          abs_of_nonneg (show 0 ≤ -(2 : Rat) ^ L - q by linarith)] at this
        rw [abs_of_nonneg (show 0 ≤ s - q by linarith)]
        linarith
    exact ⟨hlt.le, fun _ h => absurd h hlt.ne⟩

namespace Spec.Binary

theorem Stored.neg {b : Binary} {r : Rat} {m e : Int} (h : b.Stored r m e) : b.Stored (-r) (-m) e := by
  obtain ⟨h1, h2, h3, h4⟩ := h
  exact ⟨by rw [h1]; push_cast; ring, by rwa [abs_neg], h3, by rwa [abs_neg]⟩

/-- Between two different numbers with even significands there is another number. -/
theorem between {b : Binary} (hb : 1 ≤ b.digits) {r r' : Rat} {m e m' e' : Int} (h : b.Stored r m e)
    (h' : b.Stored r' m' e') (he : Even m) (he' : Even m') (h0 : 0 ≤ r) (hlt : r < r') :
    ∃ s, b.Has s ∧ r < s ∧ s < r' := by
  obtain ⟨h1, h2, h3, h4⟩ := h
  obtain ⟨h1', h2', h3', h4'⟩ := h'
  have hu : (0 : Rat) < 2 ^ e := by positivity
  have hu' : (0 : Rat) < 2 ^ e' := by positivity
  have hm0 : 0 ≤ m := by
    by_contra hc
    have : (m : Rat) < 0 := by exact_mod_cast not_le.mp hc
    have := mul_neg_of_neg_of_pos this hu
    linarith
  have hmul : (m : Rat) * 2 ^ e < m' * 2 ^ e' := by rw [← h1, ← h1']; exact hlt
  have hm0' : 0 < m' := by
    by_contra hc
    have h5 : (m' : Rat) ≤ 0 := by exact_mod_cast not_lt.mp hc
    have := mul_nonpos_of_nonpos_of_nonneg h5 hu'.le
    linarith
  rw [abs_of_nonneg hm0] at h2 h4
  rw [abs_of_pos hm0'] at h2' h4'
  have heven : Even ((2 : Int) ^ b.digits) := (even_two).pow_of_ne_zero (by omega)
  have hm1 : m + 1 < 2 ^ b.digits := by
    obtain ⟨a, ha⟩ := he
    obtain ⟨c, hc⟩ := heven
    omega
  have hee : e ≤ e' := by
    by_contra hc
    have hne : e ≠ b.least := by omega
    have h5 := h4.resolve_right hne
    have a1 : ((2 ^ (b.digits - 1) : Int) : Rat) ≤ m := by exact_mod_cast h5
    have a2 : (m' : Rat) < ((2 ^ b.digits : Int) : Rat) := by exact_mod_cast h2'
    have a3 : ((2 ^ (b.digits - 1) : Int) : Rat) * 2 ^ e ≤ m * 2 ^ e := mul_le_mul_of_nonneg_right a1 hu.le
    have a4 : (m' : Rat) * 2 ^ e' < ((2 ^ b.digits : Int) : Rat) * 2 ^ e' := mul_lt_mul_of_pos_right a2 hu'
    have a5 : ((2 ^ b.digits : Int) : Rat) * 2 ^ e' ≤ ((2 ^ (b.digits - 1) : Int) : Rat) * 2 ^ e := by
      push_cast
      rw [← zpow_natCast, ← zpow_natCast, ← zpow_add₀ (by norm_num), ← zpow_add₀ (by norm_num)]
      exact zpow_le_zpow_right₀ (by norm_num) (by omega)
    linarith
  refine ⟨((m + 1 : Int) : Rat) * 2 ^ e, ⟨m + 1, e, rfl, ?_, h3, ?_⟩, ?_, ?_⟩
  · rw [abs_of_nonneg (by omega)]; exact hm1
  · rw [abs_of_nonneg (by omega)]
    exact h4.imp_left fun h => by omega
  · rw [h1]
    push_cast
    linarith
  · obtain ⟨j, hj⟩ := Int.eq_ofNat_of_zero_le (show 0 ≤ e' - e by omega)
    have hr' : r' = ((m' * 2 ^ j : Int) : Rat) * 2 ^ e := by
      rw [h1', show e' = (j : Int) + e by omega, zpow_add₀ (by norm_num), zpow_natCast]
      push_cast; ring
    have hgt : m < m' * 2 ^ j := by
      rw [h1, hr'] at hlt
      have := lt_of_mul_lt_mul_right hlt hu.le
      exact_mod_cast this
    have hev : Even (m' * 2 ^ j) := he'.mul_right _
    have hne : m + 1 < m' * 2 ^ j := by
      obtain ⟨a, ha⟩ := he
      obtain ⟨c, hc⟩ := hev
      omega
    rw [hr']
    refine mul_lt_mul_of_pos_right ?_ hu
    exact_mod_cast hne

/-- There is only one number that a number is rounded to. -/
theorem Rounds.unique {b : Binary} (hb : 1 ≤ b.digits) {q r r' : Rat} (h : b.Rounds q r)
    (h' : b.Rounds q r') : r = r' := by
  by_contra hne
  have hd : |r - q| = |r' - q| := le_antisymm (h.2 r' h'.1).1 (h'.2 r h.1).1
  obtain ⟨m, e, hs, hm⟩ := (h.2 r' h'.1).2 (Ne.symm hne) hd
  obtain ⟨m', e', hs', hm'⟩ := (h'.2 r h.1).2 hne hd.symm
  -- no number lies between them
  have key : ∀ {r r' : Rat}, |r - q| = |r' - q| → (∀ s, b.Has s → |r - q| ≤ |s - q|) → r < r' →
      ∀ s, b.Has s → r < s → s < r' → False := by
    intro r r' hd hn hlt s hs h1 h2
    have hn := hn s hs
    rcases abs_eq_abs.mp hd with h | h
    · linarith
    · have a1 : r - q < 0 := by linarith
      rw [abs_of_neg a1] at hn
      rcases le_total 0 (s - q) with h3 | h3
      · rw [abs_of_nonneg h3] at hn; linarith
      · rw [abs_of_nonpos h3] at hn; linarith
  have zero : b.Has 0 := ⟨0, b.least, by simp, by simp, le_refl _, .inr rfl⟩
  have main : ∀ {r r' : Rat} {m e m' e' : Int}, b.Stored r m e → b.Stored r' m' e' → Even m → Even m' →
      r < r' → ∃ s, b.Has s ∧ r < s ∧ s < r' := by
    intro r r' m e m' e' hs hs' hm hm' hlt
    rcases le_or_gt 0 r with h0 | h0
    · exact between hb hs hs' hm hm' h0 hlt
    · rcases lt_or_ge 0 r' with h1 | h1
      · exact ⟨0, zero, h0, h1⟩
      · obtain ⟨s, ⟨ms, es, hs1⟩, h2, h3⟩ :=
          between hb hs'.neg hs.neg hm'.neg hm.neg (by linarith) (neg_lt_neg hlt)
        exact ⟨-s, ⟨_, _, hs1.neg⟩, by linarith, by linarith⟩
  rcases lt_or_gt_of_ne hne with hlt | hlt
  · obtain ⟨s, h1, h2, h3⟩ := main hs hs' hm hm' hlt
    exact key hd (fun s hs => (h.2 s hs).1) hlt s h1 h2 h3
  · obtain ⟨s, h1, h2, h3⟩ := main hs' hs hm' hm hlt
    exact key hd.symm (fun s hs => (h'.2 s hs).1) hlt s h1 h2 h3

end Spec.Binary

end Ublox
