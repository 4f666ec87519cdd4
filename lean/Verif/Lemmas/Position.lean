import Verif.Lemmas.Scale

/-!
# Rounding errors of scaled readings and of their sums
-/

namespace Ublox

theorem round_zero (fmt : FloatFmt) : fmt.round 0 = 0 := by unfold FloatFmt.round; simp

/-- A literal of moderate size. -/
theorem lit_close {fmt : FloatFmt} (h : FmtOk fmt) {s : Rat} (hs : (2 : Rat) ^ (fmt.emin + fmt.p) ≤ s)
    (hs' : s ≤ 2 ^ (60 : Int)) :
    ∃ s' : Rat, Fl.lit fmt s = .fin s' ∧ |s' - s| ≤ s * 2 ^ (-(fmt.p : Int)) := by
  have h0 : (0 : Rat) < s := lt_of_lt_of_le (by positivity) hs
  obtain ⟨h1, h2⟩ := h.ofRat_normal false (q := s)
    (by
      rw [abs_of_pos h0]
      refine le_trans (zpow_le_zpow_right₀ (by norm_num) (by omega)) hs)
    (by rw [abs_of_pos h0]; refine le_trans hs' ?_; norm_num)
  rw [abs_of_pos h0] at h2
  exact ⟨_, h1, h2⟩

/-- An integer times a literal is the exact product up to a relative error of three roundings. -/
theorem mul_lit {fmt : FloatFmt} (h : FmtOk fmt) {s : Rat} (hs : (2 : Rat) ^ (fmt.emin + fmt.p) ≤ s)
    (hs' : s ≤ 2 ^ (60 : Int)) {n : Int} (hn : |(n : Rat)| ≤ 2 ^ (40 : Int)) :
    ∃ v : Rat, (Fl.mul fmt (Fl.ofInt n) (Fl.lit fmt s)).val? = some v ∧
      |v - n * s| ≤ |n * s| * (3 * 2 ^ (-(fmt.p : Int))) := by
  obtain ⟨s', h1, h2⟩ := lit_close h hs hs'
  have h0 : (0 : Rat) < s := lt_of_lt_of_le (by positivity) hs
  have hu := h.u_le
  have h24 : (2 : Rat) ^ (-24 : Int) ≤ 1 / 2 := by norm_num
  have hu0 : (0 : Rat) < 2 ^ (-(fmt.p : Int)) := by positivity
  have hu2 : (2 : Rat) ^ (-(fmt.p : Int)) ≤ 1 / 2 := hu.trans h24
  have h3 : s * 2 ^ (-(fmt.p : Int)) ≤ s * (1 / 2) := mul_le_mul_of_nonneg_left hu2 h0.le
  obtain ⟨h4, h5⟩ := abs_le.mp h2
  rw [h1]
  by_cases hn0 : n = 0
  · subst hn0
    refine ⟨0, ?_, by simp⟩
    have := (Fl.mul_cases fmt (x := Fl.ofInt 0) (a := 0) (b := s') rfl)
    rw [zero_mul, round_zero, abs_zero] at this
    rcases this with ⟨h6, -⟩ | ⟨-, h6⟩
    · have : (0 : Rat) < 2 ^ fmt.emax := by positivity
      linarith
    · exact h6
  · have hn1 : (1 : Rat) ≤ |(n : Rat)| := by
      have : 1 ≤ |n| := Int.one_le_abs hn0
      exact_mod_cast this
    have hs1 : s / 2 ≤ s' := by linarith
    have hs2 : s' ≤ 2 * s := by linarith
    have hs0 : 0 < s' := by linarith
    have habs : |(n : Rat) * s'| = |(n : Rat)| * s' := by rw [abs_mul, abs_of_pos hs0]
    have hlow : (2 : Rat) ^ (fmt.emin + fmt.p - 1) ≤ |(n : Rat) * s'| := by
      have e : (2 : Rat) ^ (fmt.emin + fmt.p - 1) = 2 ^ (fmt.emin + fmt.p) / 2 := by
        rw [zpow_sub₀ (by norm_num), zpow_one]
      rw [habs, e]
      nlinarith
    have hhigh : |(n : Rat) * s'| ≤ 2 ^ (126 : Int) := by
      rw [habs]
      have e : (2 : Rat) ^ (126 : Int) = 2 ^ (40 : Int) * (2 * 2 ^ (60 : Int)) * 2 ^ (25 : Int) := by norm_num
      have : |(n : Rat)| * s' ≤ 2 ^ (40 : Int) * (2 * 2 ^ (60 : Int)) :=
        mul_le_mul hn (by linarith) hs0.le (by positivity)
      rw [e]
      refine le_trans this (le_mul_of_one_le_right (by positivity) (by norm_num))
    obtain ⟨h6, h7⟩ := h.ofRat_normal (decide ((n : Rat) < 0) ^^ decide (s' < 0)) hlow hhigh
    refine ⟨fmt.round ((n : Rat) * s'), ?_, ?_⟩
    · show (Fl.ofRat fmt _ ((n : Rat) * s')).val? = _
      rw [h6]; rfl
    · have e1 : fmt.round ((n : Rat) * s') - n * s = (fmt.round ((n : Rat) * s') - n * s') + n * (s' - s) := by
        ring
      have e2 : |(n : Rat) * (s' - s)| ≤ |(n : Rat)| * (s * 2 ^ (-(fmt.p : Int))) := by
        rw [abs_mul]; exact mul_le_mul_of_nonneg_left h2 (abs_nonneg _)
      have e3 : |(n : Rat) * s'| * 2 ^ (-(fmt.p : Int)) ≤ |(n : Rat)| * (2 * s) * 2 ^ (-(fmt.p : Int)) := by
        rw [habs]
        exact mul_le_mul_of_nonneg_right (mul_le_mul_of_nonneg_left hs2 (abs_nonneg _)) hu0.le
      rw [e1]
      refine (abs_add_le _ _).trans ?_
      rw [abs_mul (n : Rat) s, abs_of_pos h0]
      have e4 : |(n : Rat)| * s * (3 * 2 ^ (-(fmt.p : Int))) =
          |(n : Rat)| * (2 * s) * 2 ^ (-(fmt.p : Int)) + |(n : Rat)| * (s * 2 ^ (-(fmt.p : Int))) := by ring
      linarith

/-- The sum of two finite floats that are not too large. -/
theorem add_close {fmt : FloatFmt} (h : FmtOk fmt) {x y : Fl} {a b : Rat} (hx : x.val? = some a)
    (hy : y.val? = some b) (hab : |a + b| ≤ 2 ^ (126 : Int)) :
    ∃ v : Rat, (Fl.add fmt x y).val? = some v ∧ (a + b = 0 → v = 0) ∧
      |v - (a + b)| ≤ |a + b| * 2 ^ (-(fmt.p : Int)) + 2 ^ fmt.emin := by
  have hpos : (0 : Rat) < 2 ^ fmt.emin := by positivity
  have hexact : ∀ c : Rat, |c - c| ≤ |c| * 2 ^ (-(fmt.p : Int)) + 2 ^ fmt.emin := by
    intro c; rw [sub_self, abs_zero]; positivity
  cases x with
  | nan s => simp [Fl.val?] at hx
  | inf s => simp [Fl.val?] at hx
  | negZero =>
    simp only [Fl.val?, Option.some.injEq] at hx
    subst hx
    rw [zero_add]
    refine ⟨b, ?_, id, hexact b⟩
    cases y with
    | nan s => simp [Fl.val?] at hy
    | inf s => simp [Fl.val?] at hy
    | negZero => exact hy
    | fin q => exact hy
  | fin q =>
    simp only [Fl.val?, Option.some.injEq] at hx
    subst hx
    cases y with
    | nan s => simp [Fl.val?] at hy
    | inf s => simp [Fl.val?] at hy
    | negZero =>
      simp only [Fl.val?, Option.some.injEq] at hy
      subst hy
      rw [add_zero]
      exact ⟨q, rfl, id, hexact q⟩
    | fin r =>
      simp only [Fl.val?, Option.some.injEq] at hy
      subst hy
      have herr := round_err_any fmt (q + r)
      refine ⟨fmt.round (q + r), ?_, fun h0 => by rw [h0, round_zero], herr⟩
      rcases Fl.ofRat_cases fmt false (q + r) with ⟨h1, -⟩ | ⟨-, h1⟩
      · exfalso
        have h2 : |fmt.round (q + r)| ≤ |fmt.round (q + r) - (q + r)| + |q + r| := by
          have := abs_add_le (fmt.round (q + r) - (q + r)) (q + r)
          simpa using this
        have h3 : (2 : Rat) ^ (128 : Int) ≤ 2 ^ fmt.emax := zpow_le_zpow_right₀ (by norm_num) h.emax
        have h4 : (2 : Rat) ^ (126 : Int) * 4 = 2 ^ (128 : Int) := by norm_num
        have h5 : (2 : Rat) ^ fmt.emin ≤ 1 := by
          have := zpow_le_zpow_right₀ (a := (2 : Rat)) (by norm_num) h.emin0
          simpa using this
        have h6 : |q + r| * 2 ^ (-(fmt.p : Int)) ≤ |q + r| * 1 := by
          refine mul_le_mul_of_nonneg_left ?_ (abs_nonneg _)
          refine h.u_le.trans ?_
          norm_num
        have h7 : (1 : Rat) < 2 ^ (126 : Int) := by norm_num
        linarith
      · exact h1

/-- A finite float that is not too large times a literal. -/
theorem mul_close {fmt : FloatFmt} (h : FmtOk fmt) {x : Fl} {a s : Rat} (hx : x.val? = some a)
    (hs : (2 : Rat) ^ (fmt.emin + fmt.p) ≤ s) (hs' : s ≤ 2 ^ (60 : Int)) (ha : |a| ≤ 2 ^ (60 : Int)) :
    ∃ v : Rat, (Fl.mul fmt x (Fl.lit fmt s)).val? = some v ∧ (a = 0 → v = 0) ∧
      |v - a * s| ≤ |a * s| * (3 * 2 ^ (-(fmt.p : Int))) + 2 ^ fmt.emin := by
  obtain ⟨s', h1, h2⟩ := lit_close h hs hs'
  have h0 : (0 : Rat) < s := lt_of_lt_of_le (by positivity) hs
  have hu := h.u_le
  have h24 : (2 : Rat) ^ (-24 : Int) ≤ 1 / 2 := by norm_num
  have hu0 : (0 : Rat) < 2 ^ (-(fmt.p : Int)) := by positivity
  have hu2 : (2 : Rat) ^ (-(fmt.p : Int)) ≤ 1 / 2 := hu.trans h24
  have h3 : s * 2 ^ (-(fmt.p : Int)) ≤ s * (1 / 2) := mul_le_mul_of_nonneg_left hu2 h0.le
  obtain ⟨h4, h5⟩ := abs_le.mp h2
  have hs0 : 0 < s' := by linarith
  have hs2 : s' ≤ 2 * s := by linarith
  have herr := round_err_any fmt (a * s')
  have habs : |a * s'| = |a| * s' := by rw [abs_mul, abs_of_pos hs0]
  have e2 : |a * (s' - s)| ≤ |a| * (s * 2 ^ (-(fmt.p : Int))) := by
    rw [abs_mul]; exact mul_le_mul_of_nonneg_left h2 (abs_nonneg _)
  have e3 : |a * s'| * 2 ^ (-(fmt.p : Int)) ≤ |a| * (2 * s) * 2 ^ (-(fmt.p : Int)) := by
    rw [habs]
    exact mul_le_mul_of_nonneg_right (mul_le_mul_of_nonneg_left hs2 (abs_nonneg _)) hu0.le
  rw [h1]
  refine ⟨fmt.round (a * s'), ?_, fun ha0 => by rw [ha0, zero_mul, round_zero], ?_⟩
  · rcases Fl.mul_cases fmt (b := s') hx with ⟨h6, -⟩ | ⟨-, h6⟩
    · exfalso
      have h7 : |fmt.round (a * s')| ≤ |fmt.round (a * s') - a * s'| + |a * s'| := by
        have := abs_add_le (fmt.round (a * s') - a * s') (a * s')
        simpa using this
      have h8 : (2 : Rat) ^ (128 : Int) ≤ 2 ^ fmt.emax := zpow_le_zpow_right₀ (by norm_num) h.emax
      have h9 : |a * s'| ≤ 2 ^ (60 : Int) * (2 * 2 ^ (60 : Int)) := by
        rw [habs]
        exact mul_le_mul ha (by linarith) hs0.le (by positivity)
      have h10 : (2 : Rat) ^ fmt.emin ≤ 1 := by
        have := zpow_le_zpow_right₀ (a := (2 : Rat)) (by norm_num) h.emin0
        simpa using this
      have h11 : |a * s'| * 2 ^ (-(fmt.p : Int)) ≤ |a * s'| * 1 :=
        mul_le_mul_of_nonneg_left (by linarith) (abs_nonneg _)
      have h12 : (2 : Rat) ^ (60 : Int) * (2 * 2 ^ (60 : Int)) * 3 + 1 < 2 ^ (128 : Int) := by norm_num
      linarith
    · exact h6
  · have e1 : fmt.round (a * s') - a * s = (fmt.round (a * s') - a * s') + a * (s' - s) := by ring
    rw [e1]
    refine (abs_add_le _ _).trans ?_
    rw [abs_mul a s, abs_of_pos h0]
    have e4 : |a| * s * (3 * 2 ^ (-(fmt.p : Int))) =
        |a| * (2 * s) * 2 ^ (-(fmt.p : Int)) + |a| * (s * 2 ^ (-(fmt.p : Int))) := by ring
    linarith

/-- The sign of a zero does not matter for the value. -/
theorem ofRat_val_neg (fmt : FloatFmt) (n1 n2 : Bool) (q : Rat) :
    (Fl.ofRat fmt n1 q).val? = (Fl.ofRat fmt n2 q).val? := by
  unfold Fl.ofRat
  simp only
  split
  · rfl
  · split
    · cases n1 <;> cases n2 <;> rfl
    · rfl

theorem mul_comm_val (fmt : FloatFmt) (s : Rat) {x : Fl} {a : Rat} (hx : x.val? = some a) :
    (Fl.mul fmt (.fin s) x).val? = (Fl.mul fmt x (.fin s)).val? := by
  cases x with
  | nan s => simp [Fl.val?] at hx
  | inf s => simp [Fl.val?] at hx
  | negZero => exact ofRat_val_neg fmt _ _ 0
  | fin q =>
    show (Fl.ofRat fmt _ (s * q)).val? = (Fl.ofRat fmt _ (q * s)).val?
    rw [mul_comm]
    exact ofRat_val_neg fmt _ _ _

/-! ## `f64` -/

/-- The smallest positive `f64` is negligible. -/
theorem tiny64 : (2 : Rat) ^ fmt64.emin ≤ 1 / 2 ^ 200 := by
  have : (2 : Rat) ^ fmt64.emin ≤ 2 ^ (-200 : Int) := zpow_le_zpow_right₀ (by norm_num) (by decide)
  refine this.trans (le_of_eq ?_)
  norm_num

theorem u64 : (2 : Rat) ^ (-(fmt64.p : Int)) = 1 / 2 ^ 53 := by norm_num [fmt64]

/-- The sum of two approximations. -/
theorem sum64 {x y : Fl} {va vb a b m n e1 e2 : Rat} (hx : x.val? = some va) (hy : y.val? = some vb)
    (ha : |va - a| ≤ e1) (hb : |vb - b| ≤ e2) (ham : |a| ≤ m) (hbn : |b| ≤ n) (he1 : e1 ≤ m)
    (he2 : e2 ≤ n) (hmn : m + n ≤ 2 ^ 60) (hz : m + n = 0 ∨ 1 / 2 ^ 60 ≤ m + n) :
    ∃ v, (Fl.add fmt64 x y).val? = some v ∧ |v - (a + b)| ≤ e1 + e2 + (m + n) * (3 / 2 ^ 53) := by
  have h1 : |va + vb| ≤ 2 * (m + n) := by
    have e : va + vb = (va - a) + a + ((vb - b) + b) := by ring
    rw [e]
    refine (abs_add_le _ _).trans ?_
    have := abs_add_le (va - a) a
    have := abs_add_le (vb - b) b
    linarith
  obtain ⟨v, hv, hv0, hve⟩ := add_close fmt64_ok hx hy (by
    refine h1.trans ?_
    have : (2 : Rat) ^ (126 : Int) = 2 ^ 126 := by norm_num
    rw [this]
    have : (2 : Rat) * 2 ^ 60 ≤ 2 ^ 126 := by norm_num
    linarith)
  refine ⟨v, hv, ?_⟩
  have e : v - (a + b) = (v - (va + vb)) + ((va - a) + (vb - b)) := by ring
  have h2 : |v - (a + b)| ≤ |v - (va + vb)| + (e1 + e2) := by
    rw [e]
    refine (abs_add_le _ _).trans ?_
    have := abs_add_le (va - a) (vb - b)
    linarith
  rcases hz with hz | hz
  · rw [hz] at h1
    have h3 : va + vb = 0 := abs_eq_zero.mp (le_antisymm (by linarith) (abs_nonneg _))
    rw [hv0 h3, h3, sub_self, abs_zero] at h2
    rw [hv0 h3, hz]
    linarith
  · rw [u64] at hve
    have ht := tiny64
    have h4 : (1 : Rat) / 2 ^ 200 ≤ 1 / 2 ^ 60 * (1 / 2 ^ 53) := by norm_num
    have h5 : |va + vb| * (1 / 2 ^ 53) ≤ 2 * (m + n) * (1 / 2 ^ 53) :=
      mul_le_mul_of_nonneg_right h1 (by positivity)
    have h6 : 1 / 2 ^ 60 * (1 / 2 ^ 53) ≤ (m + n) * (1 / 2 ^ 53 : Rat) :=
      mul_le_mul_of_nonneg_right hz (by positivity)
    linarith

/-- A literal times an approximation. -/
theorem mul64 {x : Fl} {va a m e s : Rat} (hx : x.val? = some va) (ha : |va - a| ≤ e) (ham : |a| ≤ m)
    (he : e ≤ m) (hs : 1 / 2 ^ 100 ≤ s) (hs1 : s ≤ 2 ^ 60) (hm : m ≤ 2 ^ 58)
    (hz : m = 0 ∨ 1 / 2 ^ 200 * 2 ^ 53 ≤ m * s) :
    ∃ v, (Fl.mul fmt64 (Fl.lit fmt64 s) x).val? = some v ∧
      |v - a * s| ≤ e * s + m * s * (7 / 2 ^ 53) := by
  have hs0 : 0 < s := lt_of_lt_of_le (by positivity) hs
  have h1 : |va| ≤ 2 * m := by
    have e : va = (va - a) + a := by ring
    rw [e]
    have := abs_add_le (va - a) a
    linarith
  have hlow : (2 : Rat) ^ (fmt64.emin + fmt64.p) ≤ s := by
    refine le_trans ?_ hs
    have : (2 : Rat) ^ (fmt64.emin + fmt64.p) ≤ 2 ^ (-100 : Int) :=
      zpow_le_zpow_right₀ (by norm_num) (by decide)
    refine this.trans (le_of_eq ?_)
    norm_num
  have hhigh : s ≤ 2 ^ (60 : Int) := by
    have : (2 : Rat) ^ (60 : Int) = 2 ^ 60 := by norm_num
    rw [this]; exact hs1
  obtain ⟨v, hv, hv0, hve⟩ := mul_close fmt64_ok hx hlow hhigh (by
    refine h1.trans ?_
    have : (2 : Rat) ^ (60 : Int) = 2 * (2 * 2 ^ 58) := by norm_num
    rw [this]
    have : (0 : Rat) < 2 ^ 58 := by positivity
    linarith)
  obtain ⟨s', hs', -⟩ := lit_close fmt64_ok hlow hhigh
  refine ⟨v, ?_, ?_⟩
  · rw [← hv, hs', mul_comm_val fmt64 s' hx]
  · have e1 : v - a * s = (v - va * s) + (va - a) * s := by ring
    have h2 : |(va - a) * s| ≤ e * s := by
      rw [abs_mul, abs_of_pos hs0]; exact mul_le_mul_of_nonneg_right ha hs0.le
    have h3 : |v - a * s| ≤ |v - va * s| + e * s := by
      rw [e1]
      refine (abs_add_le _ _).trans ?_
      linarith
    rcases hz with hz | hz
    · subst hz
      have h3' : va = 0 := abs_eq_zero.mp (le_antisymm (by linarith) (abs_nonneg _))
      rw [hv0 h3', h3'] at h3
      rw [hv0 h3']
      simp only [zero_mul, sub_self, abs_zero] at h3 ⊢
      linarith
    · rw [u64] at hve
      have ht := tiny64
      have h5 : |va * s| * (3 * (1 / 2 ^ 53)) ≤ 2 * m * s * (3 * (1 / 2 ^ 53)) := by
        rw [abs_mul, abs_of_pos hs0]
        exact mul_le_mul_of_nonneg_right (mul_le_mul_of_nonneg_right h1 hs0.le) (by positivity)
      have h6 : 1 / 2 ^ 200 * 2 ^ 53 * (1 / 2 ^ 53) ≤ m * s * (1 / 2 ^ 53 : Rat) :=
        mul_le_mul_of_nonneg_right hz (by positivity)
      have h7 : (1 : Rat) / 2 ^ 200 * 2 ^ 53 * (1 / 2 ^ 53) = 1 / 2 ^ 200 := by norm_num
      linarith

end Ublox
