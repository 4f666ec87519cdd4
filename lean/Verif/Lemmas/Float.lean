import Mathlib.Algebra.Order.Field.Power
import Mathlib.Algebra.Order.Ring.Rat
import Mathlib.Algebra.Order.Field.Rat
import Mathlib.Tactic.Linarith
import Mathlib.Tactic.FieldSimp
import Mathlib.Tactic.Positivity
import Mathlib.Tactic.Ring
import Mathlib.Tactic.NormNum
import Verif.Model.Scale

/-! # Rounding -/

namespace Ublox

theorem pow2_eq (e : Int) : pow2 e = (2 : Rat) ^ e := by
  cases e with
  | ofNat n => simp [pow2]
  | negSucc n =>
    rw [pow2, zpow_negSucc, Rat.mkRat_eq_div]
    simp

theorem ratAbs_eq (q : Rat) : ratAbs q = |q| := by
  unfold ratAbs
  split
  · rw [abs_of_neg ‹_›]
  · rw [abs_of_nonneg (by linarith)]

theorem nat_log2_bounds {n : Nat} (h : n ≠ 0) :
    (2 : Rat) ^ (n.log2 : Int) ≤ n ∧ (n : Rat) < 2 ^ ((n.log2 : Int) + 1) := by
  constructor
  · have := Nat.log2_self_le h
    rw [zpow_natCast]
    exact_mod_cast this
  · have := (Nat.log2_lt (n := n) (k := n.log2 + 1) h).mp (by omega)
    have e : ((n.log2 : Int) + 1) = ((n.log2 + 1 : Nat) : Int) := by push_cast; rfl
    rw [e, zpow_natCast]
    exact_mod_cast this

/-- `ilog2 q` is the binary exponent of `q`. -/
theorem ilog2_spec {q : Rat} (hq : 0 < q) : (2 : Rat) ^ ilog2 q ≤ q ∧ q < 2 ^ (ilog2 q + 1) := by
  have hnum : 0 < q.num := Rat.num_pos.mpr hq
  have hn0 : q.num.toNat ≠ 0 := by omega
  obtain ⟨h1, h2⟩ := nat_log2_bounds hn0
  obtain ⟨h3, h4⟩ := nat_log2_bounds q.den_nz
  have hcast : ((q.num.toNat : Nat) : Rat) = (q.num : Rat) := by
    have : ((q.num.toNat : Nat) : Int) = q.num := Int.toNat_of_nonneg hnum.le
    exact_mod_cast congrArg (fun x : Int => (x : Rat)) this
  have hq' : q = (q.num.toNat : Rat) / (q.den : Rat) := by
    rw [hcast]; exact (Rat.num_div_den q).symm
  have hdpos : (0 : Rat) < q.den := by exact_mod_cast q.den_pos
  have hnpos : (0 : Rat) < q.num.toNat := by exact_mod_cast Nat.pos_of_ne_zero hn0
  have hlo : (2 : Rat) ^ ((q.num.toNat.log2 : Int) - (q.den.log2 : Int) - 1) < q := by
    conv => rhs; rw [hq']
    rw [lt_div_iff₀ hdpos]
    calc (2 : Rat) ^ ((q.num.toNat.log2 : Int) - (q.den.log2 : Int) - 1) * q.den
        < 2 ^ ((q.num.toNat.log2 : Int) - (q.den.log2 : Int) - 1) * 2 ^ ((q.den.log2 : Int) + 1) :=
          mul_lt_mul_of_pos_left h4 (by positivity)
      _ = 2 ^ (q.num.toNat.log2 : Int) := by
          rw [← zpow_add₀ (by norm_num)]; congr 1; ring
      _ ≤ _ := h1
  have hhi : q < (2 : Rat) ^ ((q.num.toNat.log2 : Int) - (q.den.log2 : Int) + 1) := by
    conv => lhs; rw [hq']
    rw [div_lt_iff₀ hdpos]
    calc ((q.num.toNat : Nat) : Rat) < 2 ^ ((q.num.toNat.log2 : Int) + 1) := h2
      _ = 2 ^ ((q.num.toNat.log2 : Int) - (q.den.log2 : Int) + 1) * 2 ^ (q.den.log2 : Int) := by
          rw [← zpow_add₀ (by norm_num)]; congr 1; ring
      _ ≤ _ := mul_le_mul_of_nonneg_left h3 (by positivity)
  unfold ilog2
  simp only [pow2_eq]
  split
  · exact ⟨‹_›, hhi⟩
  · refine ⟨hlo.le, ?_⟩
    rw [sub_add_cancel]
    exact not_le.mp ‹_›

theorem rne_spec (q : Rat) : |(rne q : Rat) - q| ≤ 1 / 2 := by
  have h1 := Rat.floor_le q
  have h2 := Rat.lt_floor_add_one q
  push_cast at h2
  unfold rne
  simp only
  rw [abs_le]
  split
  · constructor <;> linarith
  · split
    · push_cast; constructor <;> linarith
    · split
      · constructor <;> linarith
      · push_cast; constructor <;> linarith

theorem rne_intCast (n : Int) : rne (n : Rat) = n := by
  unfold rne
  simp only [Rat.floor_intCast, sub_self]
  rw [if_pos (by norm_num)]

/-- Rounding moves a number by at most half a unit in the last place. -/
theorem round_err (fmt : FloatFmt) (q : Rat) :
    |fmt.round q - q| ≤ 2 ^ (fmt.ulpExp q) / 2 := by
  unfold FloatFmt.round
  split
  · subst ‹q = 0›
    simp only [sub_self, abs_zero]
    positivity
  · simp only [pow2_eq]
    have hu : (0 : Rat) < 2 ^ fmt.ulpExp q := by positivity
    have := rne_spec (q / 2 ^ fmt.ulpExp q)
    have e : (rne (q / 2 ^ fmt.ulpExp q) : Rat) * 2 ^ fmt.ulpExp q - q =
        ((rne (q / 2 ^ fmt.ulpExp q) : Rat) - q / 2 ^ fmt.ulpExp q) * 2 ^ fmt.ulpExp q := by
      field_simp
    rw [e, abs_mul, abs_of_pos hu]
    calc _ ≤ 1 / 2 * (2 : Rat) ^ fmt.ulpExp q := mul_le_mul_of_nonneg_right this hu.le
      _ = _ := by ring

/-- In the normal range the relative error is at most `2 ^ -p`. -/
theorem round_rel (fmt : FloatFmt) {q : Rat} (hq : (2 : Rat) ^ (fmt.emin + fmt.p - 1) ≤ |q|) :
    |fmt.round q - q| ≤ |q| * 2 ^ (-(fmt.p : Int)) := by
  have hpos : 0 < |q| := lt_of_lt_of_le (by positivity) hq
  obtain ⟨h1, h2⟩ := ilog2_spec hpos
  have hlog : fmt.emin + fmt.p - 1 < ilog2 |q| + 1 :=
    (zpow_lt_zpow_iff_right₀ (by norm_num : (1 : Rat) < 2)).mp (lt_of_le_of_lt hq h2)
  have hexp : fmt.ulpExp q = ilog2 |q| - ((fmt.p : Int) - 1) := by
    unfold FloatFmt.ulpExp
    rw [ratAbs_eq]
    omega
  refine (round_err fmt q).trans ?_
  rw [hexp]
  have e : (2 : Rat) ^ (ilog2 |q| - ((fmt.p : Int) - 1)) / 2 = 2 ^ ilog2 |q| * 2 ^ (-(fmt.p : Int)) := by
    rw [div_eq_mul_inv, ← zpow_neg_one, ← zpow_add₀ (by norm_num), ← zpow_add₀ (by norm_num)]
    congr 1; ring
  rw [e]
  exact mul_le_mul_of_nonneg_right h1 (by positivity)

/-- Integers of at most `p` bits are exact. -/
theorem round_int (fmt : FloatFmt) (he : fmt.emin ≤ 0) {n : Int}
    (hn : |n| < 2 ^ fmt.p) : fmt.round (n : Rat) = n := by
  unfold FloatFmt.round
  split
  · exact (‹(n : Rat) = 0›).symm
  · rename_i h0
    simp only [pow2_eq]
    have hpos : 0 < |(n : Rat)| := abs_pos.mpr h0
    obtain ⟨h1, h2⟩ := ilog2_spec hpos
    have hlt : |(n : Rat)| < 2 ^ (fmt.p : Int) := by
      rw [zpow_natCast]
      exact_mod_cast hn
    have hlog : ilog2 |(n : Rat)| < fmt.p :=
      (zpow_lt_zpow_iff_right₀ (by norm_num : (1 : Rat) < 2)).mp (lt_of_le_of_lt h1 hlt)
    have hexp : fmt.ulpExp n ≤ 0 := by
      unfold FloatFmt.ulpExp
      rw [ratAbs_eq]
      omega
    obtain ⟨k, hk⟩ := Int.eq_ofNat_of_zero_le (show 0 ≤ -fmt.ulpExp n by omega)
    have hk' : fmt.ulpExp n = -(k : Int) := by omega
    rw [hk', zpow_neg, div_inv_eq_mul, zpow_natCast]
    have e : (n : Rat) * 2 ^ k = ((n * 2 ^ k : Int) : Rat) := by push_cast; rfl
    rw [e, rne_intCast]
    push_cast
    field_simp

/-- A number with few binary digits is not changed by rounding. -/
theorem round_dyadic (fmt : FloatFmt) {j : Nat} (he : fmt.emin ≤ -(j : Int)) {n : Int}
    (hn : |n| < 2 ^ fmt.p) : fmt.round ((n : Rat) / 2 ^ j) = (n : Rat) / 2 ^ j := by
  unfold FloatFmt.round
  split
  · exact (‹(n : Rat) / 2 ^ j = 0›).symm
  · rename_i h0
    simp only [pow2_eq]
    have hpos : 0 < |(n : Rat) / 2 ^ j| := abs_pos.mpr h0
    obtain ⟨h1, h2⟩ := ilog2_spec hpos
    have hlt : |(n : Rat) / 2 ^ j| < 2 ^ ((fmt.p : Int) - j) := by
      rw [abs_div, abs_of_pos (by positivity : (0 : Rat) < 2 ^ j), zpow_sub₀ (by norm_num),
        zpow_natCast, zpow_natCast]
      refine div_lt_div_of_pos_right ?_ (by positivity)
      exact_mod_cast hn
    have hlog : ilog2 |(n : Rat) / 2 ^ j| < (fmt.p : Int) - j :=
      (zpow_lt_zpow_iff_right₀ (by norm_num : (1 : Rat) < 2)).mp (lt_of_le_of_lt h1 hlt)
    have hexp : fmt.ulpExp ((n : Rat) / 2 ^ j) ≤ -(j : Int) := by
      unfold FloatFmt.ulpExp
      rw [ratAbs_eq]
      omega
    generalize fmt.ulpExp ((n : Rat) / 2 ^ j) = u at hexp
    obtain ⟨k, hk⟩ := Int.eq_ofNat_of_zero_le (show 0 ≤ -(j : Int) - u by omega)
    have hk' : u = -((k + j : Nat) : Int) := by push_cast; omega
    rw [hk', zpow_neg, div_inv_eq_mul, zpow_natCast]
    have e : (n : Rat) / 2 ^ j * 2 ^ (k + j) = ((n * 2 ^ k : Int) : Rat) := by
      push_cast; rw [pow_add]; field_simp
    rw [e, rne_intCast]
    push_cast
    rw [pow_add]
    field_simp

/-- In the middle between two integers the one that is farther from zero is taken. -/
theorem roundHalfAway_half (n : Int) :
    Fl.roundHalfAway ((n : Rat) + 1 / 2) = if 0 ≤ n then n + 1 else n := by
  unfold Fl.roundHalfAway
  by_cases h : 0 ≤ n
  · have hR : (0 : Rat) ≤ n := by exact_mod_cast h
    rw [if_pos h, if_pos (by linarith)]
    have e : (n : Rat) + 1 / 2 + 1 / 2 = ((n + 1 : Int) : Rat) := by push_cast; ring
    rw [e, Rat.floor_intCast]
  · have hR : (n : Rat) ≤ -1 := by exact_mod_cast (by omega : n ≤ -1)
    rw [if_neg h, if_neg (by linarith)]
    have e : -((n : Rat) + 1 / 2) + 1 / 2 = ((-n : Int) : Rat) := by push_cast; ring
    rw [e, Rat.floor_intCast]
    omega

theorem roundHalfAway_spec (q : Rat) : |(Fl.roundHalfAway q : Rat) - q| ≤ 1 / 2 := by
  unfold Fl.roundHalfAway
  rw [abs_le]
  split
  · have h1 := Rat.floor_le (q + 1 / 2)
    have h2 := Rat.lt_floor_add_one (q + 1 / 2)
    push_cast at h2
    constructor <;> linarith
  · have h1 := Rat.floor_le (-q + 1 / 2)
    have h2 := Rat.lt_floor_add_one (-q + 1 / 2)
    push_cast at h2 ⊢
    constructor <;> linarith

theorem roundHalfAway_of_close {q : Rat} {n : Int} (h : |q - n| < 1 / 2) :
    Fl.roundHalfAway q = n := by
  have h1 := roundHalfAway_spec q
  rw [abs_lt] at h
  rw [abs_le] at h1
  have h2 : ((Fl.roundHalfAway q : Int) : Rat) < ((n + 1 : Int) : Rat) := by push_cast; linarith
  have h3 : ((n - 1 : Int) : Rat) < (Fl.roundHalfAway q : Rat) := by push_cast; linarith
  have h2 : Fl.roundHalfAway q < n + 1 := by exact_mod_cast h2
  have h3 : n - 1 < Fl.roundHalfAway q := by exact_mod_cast h3
  omega

theorem roundHalfAway_intCast (n : Int) : Fl.roundHalfAway (n : Rat) = n :=
  roundHalfAway_of_close (by simp)

end Ublox
