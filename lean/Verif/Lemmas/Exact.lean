import Verif.Lemmas.Ieee
import Verif.Lemmas.Position

/-!
# The steps of scaled readings and settings are correctly rounded
-/

namespace Ublox

open Spec

theorem FmtOk.two_le {fmt : FloatFmt} (h : FmtOk fmt) : 2 ≤ fmt.p := by have := h.p; omega

theorem FmtOk.rounds {fmt : FloatFmt} (h : FmtOk fmt) (q : Rat) : fmt.binary.Rounds q (fmt.round q) :=
  round_rounds fmt h.two_le q

/-- The value of a literal. -/
theorem lit_exact {fmt : FloatFmt} (h : FmtOk fmt) {s : Rat} (hs : (2 : Rat) ^ (fmt.emin + fmt.p) ≤ s)
    (hs' : s ≤ 2 ^ (60 : Int)) :
    Fl.lit fmt s = .fin (fmt.round s) ∧ |fmt.round s - s| ≤ s * 2 ^ (-(fmt.p : Int)) := by
  have h0 : (0 : Rat) < s := lt_of_lt_of_le (by positivity) hs
  obtain ⟨h1, h2⟩ := h.ofRat_normal false (q := s)
    (by
      rw [abs_of_pos h0]
      refine le_trans (zpow_le_zpow_right₀ (by norm_num) (by omega)) hs)
    (by rw [abs_of_pos h0]; refine le_trans hs' ?_; norm_num)
  rw [abs_of_pos h0] at h2
  exact ⟨h1, h2⟩

/-- An integer times a literal. -/
theorem mul_lit_exact {fmt : FloatFmt} (h : FmtOk fmt) {s : Rat}
    (hs : (2 : Rat) ^ (fmt.emin + fmt.p) ≤ s) (hs' : s ≤ 2 ^ (60 : Int)) {n : Int}
    (hn : |(n : Rat)| ≤ 2 ^ (40 : Int)) :
    ∃ x : Rat, Fl.mul fmt (Fl.ofInt n) (Fl.lit fmt s) = .fin x ∧ fmt.binary.Times n s x ∧
      |x| < 2 ^ fmt.emax := by
  obtain ⟨h1, h2⟩ := lit_exact h hs hs'
  have hr := h.rounds s
  generalize fmt.round s = s' at h1 h2 hr
  have h0 : (0 : Rat) < s := lt_of_lt_of_le (by positivity) hs
  have hu := h.u_le
  have h24 : (2 : Rat) ^ (-24 : Int) ≤ 1 / 2 := by norm_num
  have hu2 : (2 : Rat) ^ (-(fmt.p : Int)) ≤ 1 / 2 := hu.trans h24
  have h3 : s * 2 ^ (-(fmt.p : Int)) ≤ s * (1 / 2) := mul_le_mul_of_nonneg_left hu2 h0.le
  obtain ⟨h4, h5⟩ := abs_le.mp h2
  have hs1 : s / 2 ≤ s' := by linarith
  have hs2 : s' ≤ 2 * s := by linarith
  have hs0 : 0 < s' := by linarith
  rw [h1]
  refine ⟨fmt.round ((n : Rat) * s'), ?_, ⟨s', hr, h.rounds _⟩, ?_⟩
  all_goals
    by_cases hn0 : n = 0
    · subst hn0
      first
      | (show Fl.ofRat fmt _ _ = _
         have e : ((0 : Int) : Rat) * s' = 0 := by simp
         have e2 : (decide (((0 : Int) : Rat) < 0) ^^ decide (s' < 0)) = false := by
           rw [decide_eq_false (by simp), decide_eq_false (by linarith)]; rfl
         rw [e, e2]
         unfold Fl.ofRat
         have : (0 : Rat) < 2 ^ fmt.emax := by positivity
         simp only [round_zero, pow2_eq, ratAbs_eq, abs_zero]
         rw [if_neg (by linarith)]
         simp)
      | (have e : ((0 : Int) : Rat) * s' = 0 := by simp
         rw [e, round_zero, abs_zero]
         positivity)
    · have hn1 : (1 : Rat) ≤ |(n : Rat)| := by
        have : 1 ≤ |n| := Int.one_le_abs hn0
        exact_mod_cast this
      have habs : |(n : Rat) * s'| = |(n : Rat)| * s' := by rw [abs_mul, abs_of_pos hs0]
      have hlow : (2 : Rat) ^ (fmt.emin + fmt.p - 1) ≤ |(n : Rat) * s'| := by
        have e : (2 : Rat) ^ (fmt.emin + fmt.p - 1) = 2 ^ (fmt.emin + fmt.p) / 2 := by
          rw [zpow_sub₀ (by norm_num), zpow_one]
        rw [habs, e]
        nlinarith
      have hhigh : |(n : Rat) * s'| ≤ 2 ^ (126 : Int) := by
        rw [habs]
        have e : (2 : Rat) ^ (126 : Int) = 2 ^ (40 : Int) * (2 * 2 ^ (60 : Int)) * 2 ^ (25 : Int) := by
          norm_num
        have : |(n : Rat)| * s' ≤ 2 ^ (40 : Int) * (2 * 2 ^ (60 : Int)) :=
          mul_le_mul hn (by linarith) hs0.le (by positivity)
        rw [e]
        refine le_trans this (le_mul_of_one_le_right (by positivity) (by norm_num))
      obtain ⟨h6, h7⟩ := h.ofRat_normal (decide ((n : Rat) < 0) ^^ decide (s' < 0)) hlow hhigh
      first
      | exact h6
      | (rcases Fl.ofRat_cases fmt (decide ((n : Rat) < 0) ^^ decide (s' < 0)) ((n : Rat) * s') with
          ⟨-, h8⟩ | ⟨h8, -⟩
         · rw [h6] at h8; cases h8
         · exact h8)

/-- The sum of two finite floats that are not too large. -/
theorem add_exact {fmt : FloatFmt} (h : FmtOk fmt) {a b : Rat} (hab : |a + b| ≤ 2 ^ (126 : Int)) :
    ∃ v : Rat, Fl.add fmt (.fin a) (.fin b) = .fin v ∧ fmt.binary.Rounds (a + b) v := by
  obtain ⟨v, h1, -, -⟩ := add_close h (x := .fin a) (y := .fin b) (a := a) (b := b) rfl rfl hab
  have hr : (Fl.add fmt (.fin a) (.fin b)).val? = some (fmt.round (a + b)) := by
    rcases Fl.ofRat_cases fmt false (a + b) with ⟨-, h2⟩ | ⟨-, h2⟩
    · change Fl.add fmt (.fin a) (.fin b) = _ at h2
      rw [h2] at h1; cases h1
    · exact h2
  refine ⟨fmt.round (a + b), ?_, h.rounds _⟩
  change (Fl.ofRat fmt false (a + b)).val? = _ at hr
  show Fl.ofRat fmt false (a + b) = _
  unfold Fl.ofRat at hr ⊢
  simp only at hr ⊢
  split
  · rename_i h2; rw [if_pos h2] at hr; cases hr
  · split
    · rename_i h3; rw [h3]; rfl
    · rfl

/-- A literal times a finite float that is not too large. -/
theorem lit_mul_exact {fmt : FloatFmt} (h : FmtOk fmt) {x : Fl} {a s : Rat} (hx : x.val? = some a)
    (hs : (2 : Rat) ^ (fmt.emin + fmt.p) ≤ s) (hs' : s ≤ 2 ^ (60 : Int)) (ha : |a| ≤ 2 ^ (60 : Int)) :
    ∃ v : Rat, (Fl.mul fmt (Fl.lit fmt s) x).val? = some v ∧ fmt.binary.Times a s v := by
  obtain ⟨w, h1, -, -⟩ := mul_close h hx hs hs' ha
  obtain ⟨h2, -⟩ := lit_exact h hs hs'
  rw [h2] at h1 ⊢
  rw [mul_comm_val fmt _ hx]
  rcases Fl.mul_cases fmt (b := fmt.round s) hx with ⟨-, h3⟩ | ⟨-, h3⟩
  · rw [h3] at h1; cases h1
  · exact ⟨_, h3, _, h.rounds _, h.rounds _⟩

/-- The sum of finite floats. -/
theorem add_exact_val {fmt : FloatFmt} (h : FmtOk fmt) {y : Fl} {a b : Rat} (hy : y.val? = some b)
    (hb : fmt.binary.Rounds (a + b) (a + b) ∨ b ≠ 0) (hab : |a + b| ≤ 2 ^ (126 : Int)) :
    ∃ v : Rat, (Fl.add fmt (.fin a) y).val? = some v ∧ fmt.binary.Rounds (a + b) v := by
  cases y with
  | nan s => simp [Fl.val?] at hy
  | inf s => simp [Fl.val?] at hy
  | negZero =>
    simp only [Fl.val?, Option.some.injEq] at hy
    subst hy
    rw [add_zero] at hb ⊢
    exact ⟨a, rfl, hb.resolve_right (by simp)⟩
  | fin q =>
    simp only [Fl.val?, Option.some.injEq] at hy
    subst hy
    obtain ⟨v, h1, h2⟩ := add_exact h hab
    exact ⟨v, by rw [h1]; rfl, h2⟩

/-- Integers with no more digits than the format are numbers of the format. -/
theorem rounds_int {fmt : FloatFmt} (h : FmtOk fmt) {n : Int} (hn : |n| < 2 ^ fmt.p) :
    fmt.binary.Rounds n n := by
  have := h.rounds n
  rwa [round_int fmt h.emin0 hn] at this

theorem roundHalfAway_exact (y : Rat) : HalfAway y (Fl.roundHalfAway y) := by
  unfold HalfAway Fl.roundHalfAway
  split
  · rename_i h0
    have h1 : (((y + 1 / 2).floor : Int) : Rat) ≤ y + 1 / 2 := Rat.floor_le _
    have h2 : y + 1 / 2 < ((y + 1 / 2).floor : Int) + 1 := by
      have := Rat.lt_floor_add_one (y + 1 / 2)
      push_cast at this; exact this
    generalize (y + 1 / 2).floor = n at h1 h2
    refine ⟨abs_le.mpr ⟨by linarith, by linarith⟩, fun he => ?_⟩
    rcases abs_cases (y - n) with ⟨h3, -⟩ | ⟨h3, -⟩
    · rw [he] at h3; linarith
    · rw [he] at h3
      rw [abs_of_nonneg h0, abs_of_nonneg (by linarith)]
      linarith
  · rename_i h0
    have h1 : (((-y + 1 / 2).floor : Int) : Rat) ≤ -y + 1 / 2 := Rat.floor_le _
    have h2 : -y + 1 / 2 < ((-y + 1 / 2).floor : Int) + 1 := by
      have := Rat.lt_floor_add_one (-y + 1 / 2)
      push_cast at this; exact this
    generalize (-y + 1 / 2).floor = n at h1 h2
    have h0 : y < 0 := not_le.mp h0
    push_cast
    refine ⟨abs_le.mpr ⟨by linarith, by linarith⟩, fun he => ?_⟩
    rcases abs_cases (y - -n) with ⟨h3, -⟩ | ⟨h3, -⟩
    · rw [he] at h3
      rw [abs_of_neg h0, abs_neg, abs_of_nonneg (by linarith)]
      linarith
    · rw [he] at h3; linarith

theorem clamp_clamped {lo hi m : Int} (h : lo ≤ hi) : Clamped lo hi m (clamp lo hi m) := by
  unfold Clamped clamp; omega

/-- The raw value for a finite setting. -/
theorem asRaw_exact {fmt : FloatFmt} (h : FmtOk fmt) {s : Rat} (hs : ScaleOk s) {ty : RawTy} {lo hi : Int}
    (hr : intRange ty = some (lo, hi)) (ho : RangeOk fmt lo hi) {x : Fl} {q : Rat}
    (hx : x.val? = some q) :
    ∃ r c g y m k, fmt.binary.Rounds s c ∧ fmt.binary.Rounds (1 / c) g ∧ fmt.binary.Rounds (q * g) y ∧
      HalfAway y m ∧ Clamped lo hi m k ∧ (ScaleBack.ofScale fmt s).asRaw ty x = .ok r ∧
      r.ofTy ty = true ∧ intOf r = some k := by
  have h0 : (0 : Rat) < s := lt_of_lt_of_le (by norm_num) hs.1
  obtain ⟨h1, -⟩ := h.ofRat false (q := s)
    (by rw [abs_of_pos h0]; refine le_trans ?_ hs.1; norm_num)
    (by rw [abs_of_pos h0]; refine le_trans hs.2 ?_; norm_num)
  obtain ⟨s', f, e1, e2, -, e4, e5, -, e7, -⟩ := factor_ok h hs
  change Fl.lit fmt s = _ at h1
  rw [e1] at h1
  have hs' : s' = fmt.round s := by injection h1
  have hs0 : (0 : Rat) < s' := lt_of_lt_of_le (by norm_num) e4
  have hf : f = fmt.round (1 / s') := by
    have e3 := e2
    change Fl.div fmt (Fl.ofInt 1) (Fl.lit fmt s) = _ at e3
    rw [e1] at e3
    simp only [Fl.div, Fl.ofInt, Fl.val?, Fl.signNeg] at e3
    rw [if_neg hs0.ne'] at e3
    have e6 : ((1 : Int) : Rat) / s' = 1 / s' := by norm_num
    rw [e6] at e3
    rcases Fl.ofRat_cases fmt (decide (((1 : Int) : Rat) < 0) ^^ decide (s' < 0)) (1 / s') with
      ⟨-, h8⟩ | ⟨-, h8⟩
    · rw [e3] at h8; cases h8
    · rw [e3] at h8
      simpa [Fl.val?] using h8
  have hlh : lo ≤ hi := ho.lo0.trans ho.hi0
  refine (?_ : ∃ r k, Clamped lo hi (Fl.roundHalfAway (fmt.round (q * f))) k ∧
      (ScaleBack.ofScale fmt s).asRaw ty x = .ok r ∧ r.ofTy ty = true ∧ intOf r = some k).elim ?_
  · rcases Fl.mul_cases fmt (b := f) hx with ⟨h3, h4⟩ | ⟨-, h4⟩
    · have hsc : (ScaleBack.ofScale fmt s).scaled x = .inf (decide (fmt.round (q * f) < 0)) := by
        unfold ScaleBack.scaled
        rw [e2]
        show (Fl.mul fmt x (.fin f)).roundInt = _
        rw [h4]; rfl
      obtain ⟨r, r1, r2, r3⟩ := asRaw_inf (s := ScaleBack.ofScale fmt s) h hr ho hsc
      refine ⟨r, _, ?_, r1, r2, r3⟩
      have hbig : (2 : Rat) ^ (128 : Int) ≤ |fmt.round (q * f)| :=
        (zpow_le_zpow_right₀ (by norm_num) h.emax).trans h3
      obtain ⟨h5, -⟩ := roundHalfAway_exact (fmt.round (q * f))
      generalize fmt.round (q * f) = y at *
      obtain ⟨h6, h7⟩ := abs_le.mp h5
      have b1 := ho.hi33
      have b2 := ho.lo33
      have b3 : (hi : Rat) < 2 ^ (33 : Int) := by
        have : hi < 2 ^ 33 := by omega
        exact_mod_cast this
      have b4 : -(2 : Rat) ^ (33 : Int) < lo := by
        have : -2 ^ 33 < lo := by omega
        exact_mod_cast this
      have b5 : (2 : Rat) ^ (33 : Int) + 1 < 2 ^ (128 : Int) := by norm_num
      by_cases hy : y < 0
      · rw [abs_of_neg hy] at hbig
        rw [decide_eq_true hy]
        refine .inl ⟨?_, by simp⟩
        have : ((Fl.roundHalfAway y : Int) : Rat) < lo := by linarith
        exact_mod_cast this
      · rw [abs_of_nonneg (not_lt.mp hy)] at hbig
        rw [decide_eq_false hy]
        refine .inr (.inl ⟨?_, by simp⟩)
        have : (hi : Rat) < ((Fl.roundHalfAway y : Int) : Rat) := by linarith
        exact_mod_cast this
    · have hsc : ((ScaleBack.ofScale fmt s).scaled x).val? =
          some ((Fl.roundHalfAway (fmt.round (q * f)) : Int) : Rat) := by
        unfold ScaleBack.scaled
        rw [e2]
        exact Fl.roundInt_val h4
      obtain ⟨r, r1, r2, r3⟩ := asRaw_val (s := ScaleBack.ofScale fmt s) h hr ho hsc
      exact ⟨r, _, clamp_clamped hlh, r1, r2, r3⟩
  · rintro r ⟨k, h1, h2, h3, h4⟩
    exact ⟨r, s', f, _, _, k, hs' ▸ h.rounds s, hf ▸ h.rounds _, h.rounds _, roundHalfAway_exact _, h1,
      h2, h3, h4⟩

end Ublox
