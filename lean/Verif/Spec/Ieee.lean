import Mathlib.Algebra.Order.Ring.Rat
import Mathlib.Algebra.Order.Field.Rat
import Mathlib.Algebra.Order.Group.Unbundled.Int

/-!
# IEEE 754: correctly rounded numbers

The standard's definition of rounding to nearest, ties to even, over the set of numbers that a binary
format has; independent of `Model/Float.lean`.
-/

namespace Ublox.Spec

/-- A binary format: digits of the significand, exponent of the last digit of the smallest numbers,
and of the power of two that is just too large. -/
structure Binary where
  digits : Nat
  least : Int
  limit : Int

/-- `binary32` of IEEE 754, Rust's `f32` -/
def binary32 : Binary := ⟨24, -149, 128⟩
/-- `binary64` of IEEE 754, Rust's `f64` -/
def binary64 : Binary := ⟨53, -1074, 1024⟩

/-- `r = m * 2 ^ e` in the form in which the format stores it: all digits are used, or the exponent is
the least one. -/
def Binary.Stored (b : Binary) (r : Rat) (m e : Int) : Prop :=
  r = m * (2 : Rat) ^ e ∧ |m| < 2 ^ b.digits ∧ b.least ≤ e ∧ (2 ^ (b.digits - 1) ≤ |m| ∨ e = b.least)

/-- `r` is a number of the format, apart from the upper limit. -/
def Binary.Has (b : Binary) (r : Rat) : Prop := ∃ m e, b.Stored r m e

/-- `r` is what `q` is rounded to: nearest to `q` among the numbers of the format, and if another one
is as near, the one whose significand is even. -/
def Binary.Rounds (b : Binary) (q r : Rat) : Prop :=
  b.Has r ∧ ∀ s, b.Has s → |r - q| ≤ |s - q| ∧
    (s ≠ r → |r - q| = |s - q| → ∃ m e, b.Stored r m e ∧ Even m)

/-- The product of `q` and the constant written as `s` in the source: the constant is rounded, then the
product. -/
def Binary.Times (b : Binary) (q s x : Rat) : Prop := ∃ c, b.Rounds s c ∧ b.Rounds (q * c) x

/-- Rounding to an integer, halves away from zero. -/
def HalfAway (y : Rat) (m : Int) : Prop := |y - m| ≤ 1 / 2 ∧ (|y - m| = 1 / 2 → |y| < |(m : Rat)|)

/-- Rounding to an integer towards zero. -/
def Towards0 (y : Rat) (m : Int) : Prop := |(m : Rat)| ≤ |y| ∧ |y - m| < 1

/-- The integer of the range `lo ≤ k ≤ hi` nearest to `m` -/
def Clamped (lo hi m k : Int) : Prop := (m < lo ∧ k = lo) ∨ (hi < m ∧ k = hi) ∨ (lo ≤ m ∧ m ≤ hi ∧ k = m)

end Ublox.Spec
