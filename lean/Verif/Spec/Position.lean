import Verif.Model.Float
import Verif.Spec.Wire
import Mathlib.Algebra.Order.Group.Abs
import Mathlib.Algebra.Order.Ring.Rat

/-!
# Specification of positions and velocities

Physical quantities as exact rational numbers, and what it means that a float is such a number up to
rounding.
-/

namespace Ublox.Spec

/-- The float is finite and is `q` up to a fraction `2 ^ -bits` of the magnitude `m`. -/
def Approx (bits : Nat) (x : Fl) (q m : Rat) : Prop :=
  ∃ v : Rat, x.val? = some v ∧ |v - q| ≤ m / 2 ^ bits

/-- The float is `q` up to a relative error of `2 ^ -51`. -/
def ApproxRel (x : Fl) (q : Rat) : Prop := Approx 51 x q |q|

/-- The float is the sum of the two numbers up to a fraction `2 ^ -50` of their magnitudes. -/
def ApproxSum (x : Fl) (a b : Rat) : Prop := Approx 50 x (a + b) (|a| + |b|)

/-- The signed 32-bit number at an offset, and so on. -/
def i32At (p : Bytes) (off : Nat) : Rat := (signedOf 32 (leNat ((p.drop off).take 4)) : Int)
def u32At (p : Bytes) (off : Nat) : Rat := (leNat ((p.drop off).take 4) : Nat)
def i8At (p : Bytes) (off : Nat) : Rat := (signedOf 8 (leNat ((p.drop off).take 1)) : Int)

end Ublox.Spec
