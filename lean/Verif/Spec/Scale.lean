import Verif.Model.Raw
import Verif.Model.Float

/-!
# Specification of scaled fields

A scaled field is an integer on the wire; its physical value is the integer times the scale.
-/

namespace Ublox.Spec

/-- The smallest and largest integer of a raw type. -/
def intRange : RawTy → Option (Int × Int)
  | .u8 => some (0, 255)
  | .i8 => some (-128, 127)
  | .u16 => some (0, 65535)
  | .i16 => some (-32768, 32767)
  | .u32 => some (0, 4294967295)
  | .i32 => some (-2147483648, 2147483647)
  | _ => none

/-- The integer of a raw value. -/
def intOf : RawVal → Option Int
  | .u8 v => some v.toNat
  | .i8 v => some v.toInt
  | .u16 v => some v.toNat
  | .i16 v => some v.toInt
  | .u32 v => some v.toNat
  | .i32 v => some v.toInt
  | _ => none

/-- The nearest number in an interval. -/
def clamp (lo hi n : Int) : Int := max lo (min hi n)

/-- `m` is the integer of the range nearest to `t`, up to an error of `δ` in the comparison. -/
def Near (lo hi : Int) (δ t : Rat) (m : Int) : Prop :=
  lo ≤ m ∧ m ≤ hi ∧ ((hi : Rat) ≤ t → m = hi) ∧ (t ≤ lo → m = lo) ∧
  ((lo : Rat) ≤ t → t ≤ hi → t - (1 / 2 + δ) ≤ m ∧ m ≤ t + (1 / 2 + δ))

end Ublox.Spec
