import Verif.Lemmas.Float
import Verif.Spec.Scale

/-! # `ScaleBack` -/

namespace Ublox
open Spec

namespace Fl

theorem lt_val {x y : Fl} {a b : Rat} (hx : x.val? = some a) (hy : y.val? = some b) :
    x.lt y = decide (a < b) := by
  cases x <;> cases y <;> simp_all [val?, lt]

theorem le_val {x y : Fl} {a b : Rat} (hx : x.val? = some a) (hy : y.val? = some b) :
    x.le y = decide (a ≤ b) := by
  cases x <;> cases y <;> simp_all [val?, le]

theorem toInt?_val {x : Fl} {lo hi n : Int} (hx : x.val? = some (n : Rat)) (h0 : lo ≤ n) (h1 : n ≤ hi) :
    x.toInt? lo hi = some n := by
  cases x with
  | nan s => simp [val?] at hx
  | inf s => simp [val?] at hx
  | negZero =>
    simp only [val?, Option.some.injEq] at hx
    have : n = 0 := by exact_mod_cast hx.symm
    subst this; rfl
  | fin q =>
    simp only [val?, Option.some.injEq] at hx
    subst hx
    simp only [toInt?]
    have h2 : ((lo : Int) : Rat) ≤ n := by exact_mod_cast h0
    have h3 : ((n : Int) : Rat) ≤ hi := by exact_mod_cast h1
    rw [if_pos ⟨by linarith, by linarith⟩]
    unfold truncRat
    split
    · rw [Rat.floor_intCast]
    · have : (-(n : Rat)) = ((-n : Int) : Rat) := by push_cast; rfl
      rw [this, Rat.floor_intCast, neg_neg]

/-- An integer that the format represents. -/
theorem ofRat_int (fmt : FloatFmt) (he : fmt.emin ≤ 0) (hx : (fmt.p : Int) ≤ fmt.emax) {n : Int}
    (hn : |n| < 2 ^ fmt.p) : (ofRat fmt false (n : Rat)).val? = some (n : Rat) := by
  unfold ofRat
  simp only [round_int fmt he hn, pow2_eq, ratAbs_eq]
  have hlt : |(n : Rat)| < 2 ^ (fmt.p : Int) := by rw [zpow_natCast]; exact_mod_cast hn
  have : (2 : Rat) ^ (fmt.p : Int) ≤ 2 ^ fmt.emax := zpow_le_zpow_right₀ (by norm_num) hx
  rw [if_neg (by linarith)]
  split
  · rename_i h; rw [h]; rfl
  · rfl

theorem ofRat_cases (fmt : FloatFmt) (neg : Bool) (q : Rat) :
    (2 ^ fmt.emax ≤ |fmt.round q| ∧ ofRat fmt neg q = .inf (decide (fmt.round q < 0))) ∨
    (|fmt.round q| < 2 ^ fmt.emax ∧ (ofRat fmt neg q).val? = some (fmt.round q)) := by
  unfold ofRat
  simp only [pow2_eq, ratAbs_eq]
  split
  · exact .inl ⟨‹_›, rfl⟩
  · refine .inr ⟨not_le.mp ‹_›, ?_⟩
    split
    · rename_i h; rw [h]; split <;> rfl
    · rfl

/-- A finite number times a positive one. -/
theorem mul_cases (fmt : FloatFmt) {x : Fl} {a b : Rat} (hx : x.val? = some a) :
    (2 ^ fmt.emax ≤ |fmt.round (a * b)| ∧
      mul fmt x (.fin b) = .inf (decide (fmt.round (a * b) < 0))) ∨
    (|fmt.round (a * b)| < 2 ^ fmt.emax ∧ (mul fmt x (.fin b)).val? = some (fmt.round (a * b))) := by
  cases x with
  | nan s => simp [val?] at hx
  | inf s => simp [val?] at hx
  | negZero =>
    simp only [val?, Option.some.injEq] at hx
    subst hx
    rw [zero_mul]
    exact ofRat_cases fmt _ 0
  | fin q =>
    simp only [val?, Option.some.injEq] at hx
    subst hx
    exact ofRat_cases fmt _ _

theorem roundInt_val {x : Fl} {a : Rat} (hx : x.val? = some a) :
    x.roundInt.val? = some ((roundHalfAway a : Int) : Rat) := by
  cases x with
  | nan s => simp [val?] at hx
  | inf s => simp [val?] at hx
  | negZero =>
    simp only [val?, Option.some.injEq] at hx
    subst hx
    have : roundHalfAway (0 : Rat) = 0 := by simpa using roundHalfAway_intCast 0
    rw [this]; rfl
  | fin q =>
    simp only [val?, Option.some.injEq] at hx
    subst hx
    simp only [roundInt]
    split
    · rename_i h; rw [h.1]; rfl
    · rfl

theorem signNeg_val {x : Fl} {a : Rat} (hx : x.val? = some a) :
    (x.signNeg = true → a ≤ 0) ∧ (x.signNeg = false → 0 ≤ a) := by
  cases x with
  | nan s => simp [val?] at hx
  | inf s => simp [val?] at hx
  | negZero => simp only [val?, Option.some.injEq] at hx; subst hx; simp [signNeg]
  | fin q =>
    simp only [val?, Option.some.injEq] at hx
    subst hx
    simp only [signNeg, decide_eq_true_eq, decide_eq_false_iff_not, not_lt]
    exact ⟨le_of_lt, id⟩

end Fl

/-- What is needed of a format: it represents the integers that occur, and its exponents are as wide
as those of `f32`. -/
structure FmtOk (fmt : FloatFmt) : Prop where
  p : 24 ≤ fmt.p
  emin : fmt.emin + fmt.p - 1 ≤ -126
  emax : 128 ≤ fmt.emax
  pe : (fmt.p : Int) ≤ fmt.emax

theorem fmt32_ok : FmtOk fmt32 := ⟨by decide, by decide, by decide, by decide⟩
theorem fmt64_ok : FmtOk fmt64 := ⟨by decide, by decide, by decide, by decide⟩

theorem FmtOk.emin0 {fmt : FloatFmt} (h : FmtOk fmt) : fmt.emin ≤ 0 := by
  have := h.p; have := h.emin; omega

/-- The unit roundoff. -/
theorem FmtOk.u_le {fmt : FloatFmt} (h : FmtOk fmt) : (2 : Rat) ^ (-(fmt.p : Int)) ≤ 2 ^ (-24 : Int) :=
  zpow_le_zpow_right₀ (by norm_num) (by have := h.p; omega)

theorem FmtOk.normal {fmt : FloatFmt} (h : FmtOk fmt) {q : Rat} (hq : (2 : Rat) ^ (-126 : Int) ≤ |q|) :
    (2 : Rat) ^ (fmt.emin + fmt.p - 1) ≤ |q| :=
  (zpow_le_zpow_right₀ (by norm_num) h.emin).trans hq

/-- A number of moderate size is rounded to a finite float with a small relative error. -/
theorem FmtOk.ofRat_normal {fmt : FloatFmt} (h : FmtOk fmt) (neg : Bool) {q : Rat}
    (h1 : (2 : Rat) ^ (fmt.emin + fmt.p - 1) ≤ |q|) (h2 : |q| ≤ 2 ^ (126 : Int)) :
    Fl.ofRat fmt neg q = .fin (fmt.round q) ∧
      |fmt.round q - q| ≤ |q| * 2 ^ (-(fmt.p : Int)) := by
  have hrel := round_rel fmt h1
  have hu := h.u_le
  have hq0 : 0 < |q| := lt_of_lt_of_le (by positivity) h1
  have hu' : (2 : Rat) ^ (-24 : Int) < 1 := by norm_num
  have hsmall : |q| * 2 ^ (-(fmt.p : Int)) < |q| := by
    calc |q| * 2 ^ (-(fmt.p : Int)) < |q| * 1 := mul_lt_mul_of_pos_left (by linarith) hq0
      _ = |q| := mul_one _
  have hne : fmt.round q ≠ 0 := by
    intro h0
    rw [h0, zero_sub, abs_neg] at hrel
    linarith
  have habs : |fmt.round q| < 2 ^ fmt.emax := by
    have h3 : |fmt.round q| ≤ |fmt.round q - q| + |q| := by
      have := abs_add_le (fmt.round q - q) q
      simpa using this
    have h4 : (2 : Rat) ^ (128 : Int) ≤ 2 ^ fmt.emax := zpow_le_zpow_right₀ (by norm_num) h.emax
    have h5 : (2 : Rat) ^ (126 : Int) * 4 = 2 ^ (128 : Int) := by norm_num
    have h6 : (0 : Rat) < 2 ^ (126 : Int) := by positivity
    linarith
  refine ⟨?_, hrel⟩
  unfold Fl.ofRat
  simp only [pow2_eq, ratAbs_eq]
  rw [if_neg (by linarith), if_neg hne]

theorem FmtOk.ofRat {fmt : FloatFmt} (h : FmtOk fmt) (neg : Bool) {q : Rat}
    (h1 : (2 : Rat) ^ (-126 : Int) ≤ |q|) (h2 : |q| ≤ 2 ^ (126 : Int)) :
    Fl.ofRat fmt neg q = .fin (fmt.round q) ∧
      |fmt.round q - q| ≤ |q| * 2 ^ (-(fmt.p : Int)) := h.ofRat_normal neg (h.normal h1) h2

namespace ScaleBack

/-- Signed conversion of a finite value. -/
theorem asSigned_val {s : ScaleBack} (hs : FmtOk s.fmt) {lo hi : Int} (hlo : |lo| < 2 ^ s.fmt.p)
    (hhi : |hi| < 2 ^ s.fmt.p) (hle : lo ≤ hi) {x : Fl} {n : Int}
    (h : (s.scaled x).val? = some (n : Rat)) : s.asSigned lo hi x = .ok (clamp lo hi n) := by
  unfold asSigned
  simp only
  rw [Fl.lt_val h (Fl.ofRat_int s.fmt hs.emin0 hs.pe hlo),
    Fl.lt_val (Fl.ofRat_int s.fmt hs.emin0 hs.pe hhi) h]
  simp only [decide_eq_true_eq, Int.cast_lt]
  unfold clamp
  by_cases h1 : n < lo
  · rw [if_pos h1]; congr 1; omega
  · rw [if_neg h1]
    by_cases h2 : hi < n
    · rw [if_pos h2]; congr 1; omega
    · rw [if_neg h2, Fl.toInt?_val h (by omega) (by omega)]
      simp only; congr 1; omega

/-- Unsigned conversion of a finite value. -/
theorem asUnsigned_val {s : ScaleBack} (hs : FmtOk s.fmt) {hi : Int}
    (hhi : |hi| < 2 ^ s.fmt.p) (hle : 0 ≤ hi) {x : Fl} {n : Int}
    (h : (s.scaled x).val? = some (n : Rat)) : s.asUnsigned hi x = .ok (clamp 0 hi n) := by
  unfold asUnsigned
  simp only
  obtain ⟨h1, h2⟩ := Fl.signNeg_val h
  unfold clamp
  cases hsn : (s.scaled x).signNeg with
  | true =>
    have := h1 hsn
    have : n ≤ 0 := by exact_mod_cast this
    simp only [Bool.not_true]
    rw [if_neg (by simp)]; congr 1; omega
  | false =>
    have := h2 hsn
    have h0 : 0 ≤ n := by exact_mod_cast this
    simp only [Bool.not_false, if_true]
    rw [Fl.le_val h (Fl.ofRat_int s.fmt hs.emin0 hs.pe hhi)]
    simp only [decide_eq_true_eq, Int.cast_le]
    by_cases h3 : n ≤ hi
    · rw [if_pos h3, Fl.toInt?_val h (by omega) (by omega)]
      simp only; congr 1; omega
    · rw [if_neg h3]; congr 1; omega

theorem asSigned_inf {s : ScaleBack} (hs : FmtOk s.fmt) {lo hi : Int} (hlo : |lo| < 2 ^ s.fmt.p)
    (hhi : |hi| < 2 ^ s.fmt.p) {x : Fl} {neg : Bool} (h : s.scaled x = .inf neg) :
    s.asSigned lo hi x = .ok (if neg then lo else hi) := by
  unfold asSigned
  simp only [h]
  have h1 := Fl.ofRat_int s.fmt hs.emin0 hs.pe hlo
  have h2 := Fl.ofRat_int s.fmt hs.emin0 hs.pe hhi
  cases neg with
  | true =>
    have : (Fl.inf true).lt (Fl.ofRat s.fmt false lo) = true := by
      revert h1; cases Fl.ofRat s.fmt false lo <;> simp [Fl.val?, Fl.lt]
    rw [if_pos this]; rfl
  | false =>
    have e1 : (Fl.inf false).lt (Fl.ofRat s.fmt false lo) = false := by
      cases Fl.ofRat s.fmt false lo <;> simp [Fl.lt]
    have e2 : (Fl.ofRat s.fmt false hi).lt (Fl.inf false) = true := by
      revert h2; cases Fl.ofRat s.fmt false hi <;> simp [Fl.val?, Fl.lt]
    rw [e1, if_neg (by simp), if_pos e2]; rfl

theorem asUnsigned_inf {s : ScaleBack} (hs : FmtOk s.fmt) {hi : Int}
    (hhi : |hi| < 2 ^ s.fmt.p) {x : Fl} {neg : Bool} (h : s.scaled x = .inf neg) :
    s.asUnsigned hi x = .ok (if neg then 0 else hi) := by
  unfold asUnsigned
  simp only [h, Fl.signNeg]
  cases neg with
  | true => rfl
  | false =>
    have h2 := Fl.ofRat_int s.fmt hs.emin0 hs.pe hhi
    have e2 : (Fl.inf false).le (Fl.ofRat s.fmt false hi) = false := by
      revert h2; cases Fl.ofRat s.fmt false hi <;> simp [Fl.val?, Fl.le]
    rw [e2]; rfl

theorem asUnsigned_nan {s : ScaleBack} {hi : Int} {x : Fl} {neg : Bool}
    (h : s.scaled x = .nan neg) : s.asUnsigned hi x = .ok (if neg then 0 else hi) := by
  unfold asUnsigned
  simp only [h, Fl.signNeg]
  cases neg <;> simp [Fl.le]

theorem asSigned_nan {s : ScaleBack} {lo hi : Int} {x : Fl} {neg : Bool}
    (h : s.scaled x = .nan neg) : s.asSigned lo hi x = .error .unwrap := by
  unfold asSigned
  simp only [h]
  have : (Fl.ofRat s.fmt false hi).lt (Fl.nan neg) = false := by
    cases Fl.ofRat s.fmt false hi <;> simp [Fl.lt]
  rw [this]
  simp [Fl.lt, Fl.toInt?]

end ScaleBack

/-- Scales that occur in builders. -/
def ScaleOk (s : Rat) : Prop := 1 / 1000000 ≤ s ∧ s ≤ 1

theorem lit_ok {fmt : FloatFmt} (h : FmtOk fmt) {s : Rat} (hs : ScaleOk s) :
    ∃ s' : Rat, Fl.lit fmt s = .fin s' ∧ |s' - s| ≤ s * 2 ^ (-(fmt.p : Int)) ∧
      1 / 2000000 ≤ s' ∧ s' ≤ 2 := by
  have h0 : (0 : Rat) < s := lt_of_lt_of_le (by norm_num) hs.1
  obtain ⟨h1, h2⟩ := h.ofRat false (q := s)
    (by rw [abs_of_pos h0]; refine le_trans ?_ hs.1; norm_num)
    (by rw [abs_of_pos h0]; refine le_trans hs.2 ?_; norm_num)
  rw [abs_of_pos h0] at h2
  have hu := h.u_le
  have h24 : (2 : Rat) ^ (-24 : Int) < 1 / 2 := by norm_num
  have h3 : s * 2 ^ (-(fmt.p : Int)) ≤ s * (1 / 2) := mul_le_mul_of_nonneg_left (hu.trans_lt h24).le h0.le
  refine ⟨_, h1, h2, ?_, ?_⟩
  · have := (abs_le.mp h2).1
    have := hs.1
    linarith
  · have := (abs_le.mp h2).2
    have := hs.2
    linarith

/-- The factor of the generated code. -/
theorem factor_ok {fmt : FloatFmt} (h : FmtOk fmt) {s : Rat} (hs : ScaleOk s) :
    ∃ s' f : Rat, Fl.lit fmt s = .fin s' ∧ (ScaleBack.ofScale fmt s).factor = .fin f ∧
      |s' - s| ≤ s * 2 ^ (-(fmt.p : Int)) ∧ 1 / 2000000 ≤ s' ∧ s' ≤ 2 ∧
      |f * s' - 1| ≤ 2 ^ (-(fmt.p : Int)) ∧ 0 < f ∧ f ≤ 4000000 := by
  obtain ⟨s', h1, h2, h3, h4⟩ := lit_ok h hs
  have h0 : (0 : Rat) < s' := lt_of_lt_of_le (by norm_num) h3
  have hinv0 : 0 < 1 / s' := by positivity
  have hinv1 : 1 / s' ≤ 2000000 := by
    rw [div_le_iff₀ h0]; linarith
  have hinv2 : 1 / 2 ≤ 1 / s' := by
    rw [le_div_iff₀ h0]; linarith
  obtain ⟨h5, h6⟩ := h.ofRat false (q := 1 / s')
    (by rw [abs_of_pos hinv0]; refine le_trans ?_ hinv2; norm_num)
    (by rw [abs_of_pos hinv0]; refine le_trans hinv1 ?_; norm_num)
  rw [abs_of_pos hinv0] at h6
  have hu := h.u_le
  have h24 : (2 : Rat) ^ (-24 : Int) < 1 / 2 := by norm_num
  have h7 : 1 / s' * 2 ^ (-(fmt.p : Int)) ≤ 1 / s' * (1 / 2) :=
    mul_le_mul_of_nonneg_left (hu.trans_lt h24).le hinv0.le
  obtain ⟨h8, h9⟩ := abs_le.mp h6
  refine ⟨s', fmt.round (1 / s'), h1, ?_, h2, h3, h4, ?_, ?_, ?_⟩
  · show Fl.div fmt (Fl.ofInt 1) (Fl.lit fmt s) = _
    rw [h1]
    simp only [Fl.div, Fl.ofInt, Fl.val?, Fl.signNeg]
    rw [if_neg h0.ne', ← h5]
    have : (decide (((1 : Int) : Rat) < 0) ^^ decide (s' < 0)) = false := by
      rw [decide_eq_false (by norm_num), decide_eq_false (by linarith)]; rfl
    rw [this]
    norm_num
  · have e : fmt.round (1 / s') * s' - 1 = (fmt.round (1 / s') - 1 / s') * s' := by
      field_simp
    rw [e, abs_mul, abs_of_pos h0]
    calc _ ≤ (1 / s' * 2 ^ (-(fmt.p : Int))) * s' := mul_le_mul_of_nonneg_right h6 h0.le
      _ = _ := by field_simp
  · linarith
  · linarith

/-- Whatever is rounded: relative error plus half a subnormal unit. -/
theorem round_err_any (fmt : FloatFmt) (q : Rat) :
    |fmt.round q - q| ≤ |q| * 2 ^ (-(fmt.p : Int)) + 2 ^ fmt.emin := by
  by_cases h : (2 : Rat) ^ (fmt.emin + fmt.p - 1) ≤ |q|
  · have := round_rel fmt h
    have : (0 : Rat) < 2 ^ fmt.emin := by positivity
    linarith
  · by_cases h0 : q = 0
    · subst h0
      have : fmt.round 0 = 0 := by unfold FloatFmt.round; simp
      rw [this]; simp; positivity
    · have hpos : 0 < |q| := abs_pos.mpr h0
      obtain ⟨h1, h2⟩ := ilog2_spec hpos
      have hlog : ilog2 |q| < fmt.emin + fmt.p - 1 :=
        (zpow_lt_zpow_iff_right₀ (by norm_num : (1 : Rat) < 2)).mp (lt_of_le_of_lt h1 (not_le.mp h))
      have hexp : fmt.ulpExp q = fmt.emin := by
        unfold FloatFmt.ulpExp
        rw [ratAbs_eq]
        omega
      have := round_err fmt q
      rw [hexp] at this
      have h3 : (0 : Rat) < 2 ^ fmt.emin := by positivity
      have h4 : (0 : Rat) ≤ |q| * 2 ^ (-(fmt.p : Int)) := by positivity
      linarith

/-- Reading a raw integer `n` and scaling back gives `n`. -/
theorem scaled_mul {fmt : FloatFmt} (h : FmtOk fmt) {s : Rat} (hs : ScaleOk s) {n : Int}
    (hn : |(n : Rat)| * (4 * 2 ^ (-(fmt.p : Int))) < 1 / 2) (hn' : |(n : Rat)| ≤ 2 ^ (32 : Int)) :
    ((ScaleBack.ofScale fmt s).scaled (Fl.mul fmt (Fl.ofInt n) (Fl.lit fmt s))).val? =
      some (n : Rat) := by
  obtain ⟨s', f, h1, h2, -, h4, h5, h6, h7, h8⟩ := factor_ok h hs
  have hs0 : (0 : Rat) < s' := lt_of_lt_of_le (by norm_num) h4
  have hu0 : (0 : Rat) < 2 ^ (-(fmt.p : Int)) := by positivity
  have hu := h.u_le
  have h24 : (2 : Rat) ^ (-24 : Int) ≤ 1 / 16 := by norm_num
  have hu16 : (2 : Rat) ^ (-(fmt.p : Int)) ≤ 1 / 16 := hu.trans h24
  have hfmt : (ScaleBack.ofScale fmt s).fmt = fmt := rfl
  unfold ScaleBack.scaled
  rw [h1, h2, hfmt]
  by_cases hn0 : n = 0
  · subst hn0
    have e1 : (Fl.mul fmt (Fl.ofInt 0) (.fin s')).val? = some 0 := by
      rcases Fl.mul_cases fmt (x := Fl.ofInt 0) (a := 0) (b := s') (by simp [Fl.ofInt, Fl.val?]) with
        ⟨k1, -⟩ | ⟨-, k2⟩
      · have : fmt.round (0 * s') = 0 := by unfold FloatFmt.round; simp
        rw [this, abs_zero] at k1
        have : (0 : Rat) < 2 ^ fmt.emax := by positivity
        linarith
      · rw [k2]; unfold FloatFmt.round; simp
    have e2 : (Fl.mul fmt (Fl.mul fmt (Fl.ofInt 0) (.fin s')) (.fin f)).val? = some 0 := by
      rcases Fl.mul_cases fmt (b := f) e1 with ⟨k1, -⟩ | ⟨-, k2⟩
      · have : fmt.round (0 * f) = 0 := by unfold FloatFmt.round; simp
        rw [this, abs_zero] at k1
        have : (0 : Rat) < 2 ^ fmt.emax := by positivity
        linarith
      · rw [k2]; unfold FloatFmt.round; simp
    rw [Fl.roundInt_val e2]
    have : Fl.roundHalfAway (0 : Rat) = 0 := by simpa using roundHalfAway_intCast 0
    rw [this]
  · have hn1 : (1 : Rat) ≤ |(n : Rat)| := by
      have : (1 : Int) ≤ |n| := Int.one_le_abs hn0
      exact_mod_cast this
    -- first product
    have habs1 : |(n : Rat) * s'| = |(n : Rat)| * s' := by rw [abs_mul, abs_of_pos hs0]
    have hlow1 : (1 : Rat) / 2000000 ≤ |(n : Rat)| * s' := by nlinarith
    have hhigh1 : |(n : Rat)| * s' ≤ 2 ^ (33 : Int) := by
      have : (2 : Rat) ^ (33 : Int) = 2 ^ (32 : Int) * 2 := by norm_num
      rw [this]
      exact mul_le_mul hn' h5 hs0.le (by positivity)
    have m1 : Fl.mul fmt (Fl.ofInt n) (.fin s') = .fin (fmt.round (n * s')) ∧
        |fmt.round (n * s') - n * s'| ≤ |(n : Rat) * s'| * 2 ^ (-(fmt.p : Int)) := by
      simp only [Fl.ofInt, Fl.mul]
      refine h.ofRat _ ?_ ?_
      · rw [habs1]; refine le_trans ?_ hlow1; norm_num
      · rw [habs1]; refine hhigh1.trans ?_; norm_num
    obtain ⟨m1, m2⟩ := m1
    rw [m1]
    generalize hx : fmt.round (n * s') = x at m2
    rw [habs1] at m2
    -- second product
    have hprod : |x * f - n| ≤ |(n : Rat)| * (3 * 2 ^ (-(fmt.p : Int)) - 2 ^ (-(fmt.p : Int)) / 2) := by
      have e : x * f - n = (x - n * s') * f + n * (f * s' - 1) := by ring
      have hfs : f * s' ≤ 1 + 2 ^ (-(fmt.p : Int)) := by have := (abs_le.mp h6).2; linarith
      have a1 : |(x - n * s') * f| ≤ |(n : Rat)| * 2 ^ (-(fmt.p : Int)) * (1 + 2 ^ (-(fmt.p : Int))) := by
        rw [abs_mul, abs_of_pos h7]
        calc |x - n * s'| * f ≤ |(n : Rat)| * s' * 2 ^ (-(fmt.p : Int)) * f :=
              mul_le_mul_of_nonneg_right m2 h7.le
          _ = |(n : Rat)| * 2 ^ (-(fmt.p : Int)) * (f * s') := by ring
          _ ≤ _ := mul_le_mul_of_nonneg_left hfs (by positivity)
      have a2 : |(n : Rat) * (f * s' - 1)| ≤ |(n : Rat)| * 2 ^ (-(fmt.p : Int)) := by
        rw [abs_mul]; exact mul_le_mul_of_nonneg_left h6 (abs_nonneg _)
      have a3 : |(n : Rat)| * 2 ^ (-(fmt.p : Int)) * (1 + 2 ^ (-(fmt.p : Int))) ≤
          |(n : Rat)| * 2 ^ (-(fmt.p : Int)) * (3 / 2) :=
        mul_le_mul_of_nonneg_left (by linarith) (by positivity)
      rw [e]
      refine (abs_add_le _ _).trans ?_
      linarith
    have hpx : |x * f| ≤ |(n : Rat)| * (1 + 1 / 4) := by
      have : |x * f| ≤ |x * f - n| + |(n : Rat)| := by
        have := abs_add_le (x * f - n) (n : Rat); simpa using this
      have h3 : |(n : Rat)| * (3 * 2 ^ (-(fmt.p : Int)) - 2 ^ (-(fmt.p : Int)) / 2) ≤
          |(n : Rat)| * (1 / 4) := mul_le_mul_of_nonneg_left (by linarith) (abs_nonneg _)
      linarith
    have hpl : |(n : Rat)| * (1 / 2) ≤ |x * f| := by
      have : |(n : Rat)| ≤ |x * f - n| + |x * f| := by
        have := abs_sub_abs_le_abs_sub (n : Rat) (x * f)
        rw [abs_sub_comm] at this; linarith
      have h3 : |(n : Rat)| * (3 * 2 ^ (-(fmt.p : Int)) - 2 ^ (-(fmt.p : Int)) / 2) ≤
          |(n : Rat)| * (1 / 4) := mul_le_mul_of_nonneg_left (by linarith) (abs_nonneg _)
      linarith
    have m3 : Fl.mul fmt (.fin x) (.fin f) = .fin (fmt.round (x * f)) ∧
        |fmt.round (x * f) - x * f| ≤ |x * f| * 2 ^ (-(fmt.p : Int)) := by
      simp only [Fl.mul]
      refine h.ofRat _ ?_ ?_
      · have : (2 : Rat) ^ (-126 : Int) ≤ 1 / 2 := by norm_num
        refine this.trans (le_trans ?_ hpl)
        linarith
      · have : (2 : Rat) ^ (32 : Int) * (1 + 1 / 4) ≤ 2 ^ (126 : Int) := by norm_num
        have h3 : |(n : Rat)| * (1 + 1 / 4) ≤ (2 : Rat) ^ (32 : Int) * (1 + 1 / 4) :=
          mul_le_mul_of_nonneg_right hn' (by norm_num)
        linarith
    obtain ⟨m3, m4⟩ := m3
    rw [m3]
    have hclose : |fmt.round (x * f) - n| < 1 / 2 := by
      have e : fmt.round (x * f) - n = (fmt.round (x * f) - x * f) + (x * f - n) := by ring
      have a1 : |x * f| * 2 ^ (-(fmt.p : Int)) ≤ |(n : Rat)| * (1 + 1 / 4) * 2 ^ (-(fmt.p : Int)) :=
        mul_le_mul_of_nonneg_right hpx hu0.le
      have a2 := abs_add_le (fmt.round (x * f) - x * f) (x * f - n)
      rw [← e] at a2
      have a3 : 0 ≤ |(n : Rat)| * 2 ^ (-(fmt.p : Int)) := by positivity
      linarith
    rw [Fl.roundInt_val (a := fmt.round (x * f)) rfl, roundHalfAway_of_close hclose]

/-- The product with the factor is close to the exact quotient. -/
theorem product_close {fmt : FloatFmt} (h : FmtOk fmt) {s : Rat} (hs : ScaleOk s) :
    ∃ f : Rat, (ScaleBack.ofScale fmt s).factor = .fin f ∧ 0 < f ∧
      ∀ t : Rat, |fmt.round (t * s * f) - t| ≤ |t| * (5 * 2 ^ (-(fmt.p : Int))) + 2 ^ fmt.emin := by
  obtain ⟨s', f, h1, h2, h3, h4, h5, h6, h7, h8⟩ := factor_ok h hs
  have hs0 : (0 : Rat) < s' := lt_of_lt_of_le (by norm_num) h4
  have hs1 : (0 : Rat) < s := lt_of_lt_of_le (by norm_num) hs.1
  have hu0 : (0 : Rat) < 2 ^ (-(fmt.p : Int)) := by positivity
  have h24 : (2 : Rat) ^ (-24 : Int) ≤ 1 / 16 := by norm_num
  have hu16 : (2 : Rat) ^ (-(fmt.p : Int)) ≤ 1 / 16 := h.u_le.trans h24
  refine ⟨f, h2, h7, fun t => ?_⟩
  have hfs : |f * s - 1| ≤ 3 * 2 ^ (-(fmt.p : Int)) ∧ |f * s| ≤ 2 := by
    have e : f * s - 1 = (f * s' - 1) + f * (s - s') := by ring
    have a0 : 0 < f * s := by positivity
    have a1 : |f * (s - s')| ≤ f * s * 2 ^ (-(fmt.p : Int)) := by
      rw [abs_mul, abs_of_pos h7, abs_sub_comm, mul_assoc]
      exact mul_le_mul_of_nonneg_left h3 h7.le
    have a2 : |f * s - 1| ≤ 2 ^ (-(fmt.p : Int)) + f * s * 2 ^ (-(fmt.p : Int)) := by
      rw [e]; exact (abs_add_le _ _).trans (by linarith)
    have a3 : f * s * 2 ^ (-(fmt.p : Int)) ≤ f * s * (1 / 16) :=
      mul_le_mul_of_nonneg_left hu16 a0.le
    have a4 : f * s ≤ 2 := by have := (abs_le.mp a2).2; linarith
    have a5 : f * s * 2 ^ (-(fmt.p : Int)) ≤ 2 * 2 ^ (-(fmt.p : Int)) :=
      mul_le_mul_of_nonneg_right a4 hu0.le
    exact ⟨by linarith, by rw [abs_of_pos a0]; exact a4⟩
  have e : t * s * f = t * (f * s) := by ring
  have b1 := round_err_any fmt (t * s * f)
  have b2 : |t * s * f| ≤ |t| * 2 := by
    rw [e, abs_mul]; exact mul_le_mul_of_nonneg_left hfs.2 (abs_nonneg _)
  have b3 : |t * s * f| * 2 ^ (-(fmt.p : Int)) ≤ |t| * 2 * 2 ^ (-(fmt.p : Int)) :=
    mul_le_mul_of_nonneg_right b2 hu0.le
  have b4 : |t * s * f - t| ≤ |t| * (3 * 2 ^ (-(fmt.p : Int))) := by
    have : t * s * f - t = t * (f * s - 1) := by ring
    rw [this, abs_mul]
    exact mul_le_mul_of_nonneg_left hfs.1 (abs_nonneg _)
  have b5 : fmt.round (t * s * f) - t = (fmt.round (t * s * f) - t * s * f) + (t * s * f - t) := by
    ring
  rw [b5]
  refine (abs_add_le _ _).trans ?_
  linarith

/-- Scaling a finite value back: the nearest integer, saturating. -/
theorem scaled_near {fmt : FloatFmt} (h : FmtOk fmt) {s : Rat} (hs : ScaleOk s) {lo hi : Int}
    {δ : Rat} (hlo : lo ≤ 0) (hhi : 0 ≤ hi) (hhi' : hi < 2 ^ 33) (hlo' : -2 ^ 33 < lo)
    (h1 : (hi : Rat) * (5 * 2 ^ (-(fmt.p : Int))) + 2 ^ fmt.emin ≤ δ)
    (h2 : -(lo : Rat) * (5 * 2 ^ (-(fmt.p : Int))) + 2 ^ fmt.emin ≤ δ) (hδ : δ < 1 / 2)
    {x : Fl} {q : Rat} (hx : x.val? = some q) :
    (∃ n : Int, ((ScaleBack.ofScale fmt s).scaled x).val? = some (n : Rat) ∧
      Near lo hi δ (q / s) (clamp lo hi n)) ∨
    (∃ neg, (ScaleBack.ofScale fmt s).scaled x = .inf neg ∧
      Near lo hi δ (q / s) (if neg then lo else hi)) := by
  obtain ⟨f, e1, hf, hclose⟩ := product_close h hs
  have hs1 : (0 : Rat) < s := lt_of_lt_of_le (by norm_num) hs.1
  have hu0 : (0 : Rat) < 2 ^ (-(fmt.p : Int)) := by positivity
  have hη0 : (0 : Rat) < 2 ^ fmt.emin := by positivity
  have h24 : (2 : Rat) ^ (-24 : Int) ≤ 1 / 100 := by norm_num
  have hu16 : (2 : Rat) ^ (-(fmt.p : Int)) ≤ 1 / 100 := h.u_le.trans h24
  have hη1 : (2 : Rat) ^ fmt.emin ≤ 1 := by
    have := zpow_le_zpow_right₀ (by norm_num : (1 : Rat) ≤ 2) h.emin0
    simpa using this
  generalize ht : q / s = t
  have hq : q = t * s := by rw [← ht]; field_simp
  have hc := hclose t
  rw [← hq] at hc
  unfold ScaleBack.scaled
  rw [e1, show (ScaleBack.ofScale fmt s).fmt = fmt from rfl]
  have hloR : (lo : Rat) ≤ 0 := by exact_mod_cast hlo
  have hhiR : (0 : Rat) ≤ hi := by exact_mod_cast hhi
  rcases Fl.mul_cases fmt (b := f) hx with ⟨k1, k2⟩ | ⟨k1, k2⟩
  · right
    have h128 : (2 : Rat) ^ (128 : Int) ≤ 2 ^ fmt.emax := zpow_le_zpow_right₀ (by norm_num) h.emax
    have hbig : (2 : Rat) ^ (33 : Int) * 4 + 2 ≤ 2 ^ (128 : Int) := by norm_num
    have htri : |fmt.round (q * f)| ≤ |fmt.round (q * f) - t| + |t| := by
      have := abs_add_le (fmt.round (q * f) - t) t; simpa using this
    have hsmall : |t| * (5 * 2 ^ (-(fmt.p : Int))) ≤ |t| * (1 / 2) :=
      mul_le_mul_of_nonneg_left (by linarith) (abs_nonneg _)
    have htbig : (2 : Rat) ^ (33 : Int) * 2 ≤ |t| := by linarith
    have hhi2 : (hi : Rat) < 2 ^ (33 : Int) := by
      have : ((hi : Int) : Rat) < ((2 ^ 33 : Int) : Rat) := by exact_mod_cast hhi'
      norm_num at this ⊢; exact this
    have hlo2 : -(2 : Rat) ^ (33 : Int) < lo := by
      have : ((-2 ^ 33 : Int) : Rat) < ((lo : Int) : Rat) := by exact_mod_cast hlo'
      norm_num at this ⊢; exact this
    have h33 : (1 : Rat) ≤ 2 ^ (33 : Int) := by norm_num
    rw [k2]
    by_cases hneg : fmt.round (q * f) < 0
    · rw [decide_eq_true hneg]
      refine ⟨true, rfl, ?_⟩
      have htneg : t < 0 := by
        by_contra hc'
        have h0 : 0 ≤ t := not_lt.mp hc'
        rw [abs_of_nonneg h0] at *
        have := (abs_le.mp hc).1
        linarith
      rw [abs_of_neg htneg] at *
      simp only [if_true]
      refine ⟨le_refl _, by omega, ?_, fun _ => rfl, ?_⟩
      · intro hx; exfalso; linarith
      · intro hx _; exfalso; linarith
    · rw [decide_eq_false hneg]
      refine ⟨false, rfl, ?_⟩
      have htpos : 0 < t := by
        by_contra hc'
        have h0 : t ≤ 0 := not_lt.mp hc'
        rw [abs_of_nonpos h0] at *
        have := (abs_le.mp hc).2
        linarith
      rw [abs_of_pos htpos] at *
      simp only [Bool.false_eq_true, if_false]
      refine ⟨by omega, le_refl _, fun _ => rfl, ?_, ?_⟩
      · intro hx; exfalso; linarith
      · intro _ hx; exfalso; linarith
  · left
    refine ⟨_, Fl.roundInt_val k2, ?_⟩
    generalize fmt.round (q * f) = y at hc
    have hr := roundHalfAway_spec y
    generalize Fl.roundHalfAway y = n at hr
    have hnt : |(n : Rat) - t| ≤ 1 / 2 + (|t| * (5 * 2 ^ (-(fmt.p : Int))) + 2 ^ fmt.emin) := by
      have e : (n : Rat) - t = (n - y) + (y - t) := by ring
      rw [e]
      exact (abs_add_le _ _).trans (by linarith)
    obtain ⟨b1, b2⟩ := abs_le.mp hnt
    have hge : (hi : Rat) ≤ t → hi ≤ n := by
      intro hx
      have ht0 : 0 ≤ t := hhiR.trans hx
      rw [abs_of_nonneg ht0] at b1
      have : ((hi - 1 : Int) : Rat) < (n : Rat) := by
        push_cast
        have h3 : (t - hi) * (5 * 2 ^ (-(fmt.p : Int))) ≤ (t - hi) * 1 :=
          mul_le_mul_of_nonneg_left (by linarith) (by linarith)
        nlinarith
      have : hi - 1 < n := by exact_mod_cast this
      omega
    have hle : t ≤ lo → n ≤ lo := by
      intro hx
      have ht0 : t ≤ 0 := hx.trans hloR
      rw [abs_of_nonpos ht0] at b2
      have : (n : Rat) < ((lo + 1 : Int) : Rat) := by
        push_cast
        have h3 : (lo - t) * (5 * 2 ^ (-(fmt.p : Int))) ≤ (lo - t) * 1 :=
          mul_le_mul_of_nonneg_left (by linarith) (by linarith)
        nlinarith
      have : n < lo + 1 := by exact_mod_cast this
      omega
    refine ⟨by unfold clamp; omega, by unfold clamp; omega, ?_, ?_, ?_⟩
    · intro hx; have := hge hx; unfold clamp; omega
    · intro hx; have := hle hx; unfold clamp; omega
    · intro hx1 hx2
      have hδ' : |t| * (5 * 2 ^ (-(fmt.p : Int))) + 2 ^ fmt.emin ≤ δ := by
        rcases le_total 0 t with h0 | h0
        · rw [abs_of_nonneg h0]
          have : t * (5 * 2 ^ (-(fmt.p : Int))) ≤ hi * (5 * 2 ^ (-(fmt.p : Int))) :=
            mul_le_mul_of_nonneg_right hx2 (by linarith)
          linarith
        · rw [abs_of_nonpos h0]
          have : -t * (5 * 2 ^ (-(fmt.p : Int))) ≤ -lo * (5 * 2 ^ (-(fmt.p : Int))) :=
            mul_le_mul_of_nonneg_right (by linarith) (by linarith)
          linarith
      have c1 : (n : Rat) - t ≤ 1 / 2 + δ := by linarith
      have c2 : -(1 / 2 + δ) ≤ (n : Rat) - t := by linarith
      have hδ0 : 0 < δ := by
        have : 0 ≤ |t| * (5 * 2 ^ (-(fmt.p : Int))) := by positivity
        linarith
      unfold clamp
      rcases lt_or_ge n lo with g1 | g1
      · have e : max lo (min hi n) = lo := by omega
        rw [e]
        have : (n : Rat) ≤ lo := by exact_mod_cast g1.le
        constructor <;> linarith
      · rcases lt_or_ge hi n with g2 | g2
        · have e : max lo (min hi n) = hi := by omega
          rw [e]
          have : (hi : Rat) ≤ n := by exact_mod_cast g2.le
          constructor <;> linarith
        · have e : max lo (min hi n) = n := by omega
          rw [e]
          constructor <;> linarith

theorem int8_toInt_ofInt {m : Int} (h0 : -128 ≤ m) (h1 : m ≤ 127) : (Int8.ofInt m).toInt = m :=
  Int8.toInt_ofInt_of_le h0 (by omega)
theorem int16_toInt_ofInt {m : Int} (h0 : -32768 ≤ m) (h1 : m ≤ 32767) :
    (Int16.ofInt m).toInt = m := Int16.toInt_ofInt_of_le h0 (by omega)
theorem int32_toInt_ofInt {m : Int} (h0 : -2147483648 ≤ m) (h1 : m ≤ 2147483647) :
    (Int32.ofInt m).toInt = m := Int32.toInt_ofInt_of_le h0 (by omega)

/-- From the integer to the raw value. -/
theorem asRaw_ok {s : ScaleBack} {ty : RawTy} {lo hi m : Int} {x : Fl}
    (hr : intRange ty = some (lo, hi))
    (h : (lo < 0 → s.asSigned lo hi x = .ok m) ∧ (lo = 0 → s.asUnsigned hi x = .ok m))
    (h0 : lo ≤ m) (h1 : m ≤ hi) :
    ∃ r, s.asRaw ty x = .ok r ∧ r.ofTy ty = true ∧ intOf r = some m := by
  obtain ⟨hs, hu⟩ := h
  cases ty <;> simp only [intRange, Option.some.injEq, Prod.mk.injEq, reduceCtorEq] at hr <;>
    obtain ⟨rfl, rfl⟩ := hr
  · refine ⟨.u8 (UInt8.ofNat m.toNat), ?_, rfl, ?_⟩
    · simp only [ScaleBack.asRaw, hu rfl]; rfl
    · simp only [intOf, Option.some.injEq, UInt8.toNat_ofNat']; omega
  · refine ⟨.i8 (Int8.ofInt m), ?_, rfl, ?_⟩
    · simp only [ScaleBack.asRaw, hs (by decide)]; rfl
    · simp only [intOf, Option.some.injEq]; exact int8_toInt_ofInt h0 h1
  · refine ⟨.u16 (UInt16.ofNat m.toNat), ?_, rfl, ?_⟩
    · simp only [ScaleBack.asRaw, hu rfl]; rfl
    · simp only [intOf, Option.some.injEq, UInt16.toNat_ofNat']; omega
  · refine ⟨.i16 (Int16.ofInt m), ?_, rfl, ?_⟩
    · simp only [ScaleBack.asRaw, hs (by decide)]; rfl
    · simp only [intOf, Option.some.injEq]; exact int16_toInt_ofInt h0 h1
  · refine ⟨.u32 (UInt32.ofNat m.toNat), ?_, rfl, ?_⟩
    · simp only [ScaleBack.asRaw, hu rfl]; rfl
    · simp only [intOf, Option.some.injEq, UInt32.toNat_ofNat']; omega
  · refine ⟨.i32 (Int32.ofInt m), ?_, rfl, ?_⟩
    · simp only [ScaleBack.asRaw, hs (by decide)]; rfl
    · simp only [intOf, Option.some.injEq]; exact int32_toInt_ofInt h0 h1

/-- A raw value is determined by its type and its integer. -/
theorem intOf_inj {ty : RawTy} {r r' : RawVal} {m : Int} (h : r.ofTy ty = true)
    (h' : r'.ofTy ty = true) (hm : intOf r = some m) (hm' : intOf r' = some m) : r = r' := by
  cases r <;> cases ty <;> simp only [RawVal.ofTy, Bool.false_eq_true] at h <;>
    cases r' <;> simp only [RawVal.ofTy, Bool.false_eq_true] at h' <;>
    simp only [intOf, Option.some.injEq, reduceCtorEq] at hm hm'
  · congr 1; exact UInt8.toNat_inj.mp (by omega)
  · congr 1; exact Int8.toInt_inj.mp (by omega)
  · congr 1; exact UInt16.toNat_inj.mp (by omega)
  · congr 1; exact Int16.toInt_inj.mp (by omega)
  · congr 1; exact UInt32.toNat_inj.mp (by omega)
  · congr 1; exact Int32.toInt_inj.mp (by omega)

/-- The integer of a raw value is in the range of its type. -/
theorem intOf_range {ty : RawTy} {r : RawVal} {lo hi : Int} (h : r.ofTy ty = true)
    (hr : intRange ty = some (lo, hi)) : ∃ m, intOf r = some m ∧ lo ≤ m ∧ m ≤ hi := by
  cases r <;> cases ty <;> simp only [RawVal.ofTy, Bool.false_eq_true] at h <;>
    simp only [intRange, Option.some.injEq, Prod.mk.injEq, reduceCtorEq] at hr <;>
    obtain ⟨rfl, rfl⟩ := hr <;> refine ⟨_, rfl, ?_⟩
  · rename_i v; have := v.toNat_lt; omega
  · rename_i v; have := v.toInt_lt; have := v.le_toInt; omega
  · rename_i v; have := v.toNat_lt; omega
  · rename_i v; have := v.toInt_lt; have := v.le_toInt; omega
  · rename_i v; have := v.toNat_lt; omega
  · rename_i v; have := v.toInt_lt; have := v.le_toInt; omega

/-- The bounds of a type that fits into the format. -/
structure RangeOk (fmt : FloatFmt) (lo hi : Int) : Prop where
  lo0 : lo ≤ 0
  hi0 : 0 ≤ hi
  hi33 : hi < 2 ^ 32
  lo33 : -2 ^ 32 < lo
  hip : hi * 64 < 2 ^ fmt.p
  lop : -lo * 64 < 2 ^ fmt.p

theorem intRange_f64 {ty : RawTy} {lo hi : Int} (h : intRange ty = some (lo, hi)) :
    RangeOk fmt64 lo hi := by
  cases ty <;> simp only [intRange, Option.some.injEq, Prod.mk.injEq, reduceCtorEq] at h <;>
    obtain ⟨rfl, rfl⟩ := h <;> constructor <;> decide

theorem intRange_f32 {ty : RawTy} {lo hi : Int} (h : intRange ty = some (lo, hi))
    (h1 : ty ≠ .u32) (h2 : ty ≠ .i32) : RangeOk fmt32 lo hi := by
  cases ty <;> simp only [intRange, Option.some.injEq, Prod.mk.injEq, reduceCtorEq] at h <;>
    first
    | exact absurd rfl h1
    | exact absurd rfl h2
    | (obtain ⟨rfl, rfl⟩ := h; constructor <;> decide)

theorem RangeOk.abs {fmt : FloatFmt} {lo hi : Int} (h : RangeOk fmt lo hi) :
    |lo| < 2 ^ fmt.p ∧ |hi| < 2 ^ fmt.p := by
  obtain ⟨a, b, c, d, e, f⟩ := h
  rw [abs_of_nonpos a, abs_of_nonneg b]
  omega

/-- Any outcome of the scaling gives a raw value. -/
theorem asRaw_val {s : ScaleBack} (h : FmtOk s.fmt) {ty : RawTy} {lo hi : Int} {x : Fl} {n : Int}
    (hr : intRange ty = some (lo, hi)) (ho : RangeOk s.fmt lo hi)
    (hx : (s.scaled x).val? = some (n : Rat)) :
    ∃ r, s.asRaw ty x = .ok r ∧ r.ofTy ty = true ∧ intOf r = some (clamp lo hi n) := by
  have := ho.lo0
  have := ho.hi0
  refine asRaw_ok hr ⟨fun _ => ?_, fun e => ?_⟩ (by unfold clamp; omega) (by unfold clamp; omega)
  · exact ScaleBack.asSigned_val h ho.abs.1 ho.abs.2 (by omega) hx
  · rw [e]; exact ScaleBack.asUnsigned_val h ho.abs.2 (by omega) hx

theorem asRaw_inf {s : ScaleBack} (h : FmtOk s.fmt) {ty : RawTy} {lo hi : Int} {x : Fl} {neg : Bool}
    (hr : intRange ty = some (lo, hi)) (ho : RangeOk s.fmt lo hi)
    (hx : s.scaled x = .inf neg) :
    ∃ r, s.asRaw ty x = .ok r ∧ r.ofTy ty = true ∧ intOf r = some (if neg then lo else hi) := by
  have := ho.lo0
  have := ho.hi0
  refine asRaw_ok hr ⟨fun _ => ?_, fun e => ?_⟩ (by split <;> omega) (by split <;> omega)
  · exact ScaleBack.asSigned_inf h ho.abs.1 ho.abs.2 hx
  · rw [e]; exact ScaleBack.asUnsigned_inf h ho.abs.2 hx

/-- Infinities stay infinite. -/
theorem scaled_inf {fmt : FloatFmt} (h : FmtOk fmt) {s : Rat} (hs : ScaleOk s) (neg : Bool) :
    (ScaleBack.ofScale fmt s).scaled (.inf neg) = .inf neg := by
  obtain ⟨f, e1, hf, -⟩ := product_close h hs
  unfold ScaleBack.scaled
  rw [e1]
  have h0 : f ≠ 0 := ne_of_gt hf
  have h1 : ¬ f < 0 := not_lt.mpr hf.le
  have h2 : (Fl.fin f).val? ≠ some 0 := by simpa [Fl.val?] using h0
  cases neg <;> simp [Fl.mul, h2, h1, Fl.roundInt, Fl.signNeg]

theorem scaled_nan {fmt : FloatFmt} {s : Rat} (neg : Bool) :
    ∃ neg', (ScaleBack.ofScale fmt s).scaled (.nan neg) = .nan neg' := by
  unfold ScaleBack.scaled
  cases (ScaleBack.ofScale fmt s).factor <;> exact ⟨_, rfl⟩

end Ublox
