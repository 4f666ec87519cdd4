import Verif.Model.Time
import Verif.Spec.Wire

/-!
# Specification of calendar dates and instants

Of the model only the fields of `DateTime` are used, through the functions that a caller has: year,
month, day, hour, minute, second, nanosecond.
-/

namespace Ublox.Spec

/-- Every fourth year is a leap year, except for the centuries that 400 does not divide. -/
def LeapYear (y : Int) : Prop := 4 ∣ y ∧ (100 ∣ y → 400 ∣ y)

instance (y : Int) : Decidable (LeapYear y) := by unfold LeapYear; infer_instance

/-- Lengths of the months. -/
def monthLengths (y : Int) : List Nat :=
  [31, if LeapYear y then 29 else 28, 31, 30, 31, 30, 31, 31, 30, 31, 30, 31]

/-- A date that exists. -/
def RealDate (y : Int) (m d : Nat) : Prop :=
  1 ≤ m ∧ ∃ len, (monthLengths y)[m - 1]? = some len ∧ 1 ≤ d ∧ d ≤ len

/-- Number of the days before 1 January of the year, counted from year 0: 365 for each year and one
more for each leap year. -/
def daysBeforeYear (y : Int) : Int := 365 * y + (y + 3) / 4 - (y + 99) / 100 + (y + 399) / 400

/-- Number of a day. -/
def dayNumber (y : Int) (m d : Nat) : Int :=
  daysBeforeYear y + ((monthLengths y).take (m - 1)).sum + d

/-- The nanosecond of an instant, given by date, time of day and nanoseconds. -/
def instant (y : Int) (m d h mi s : Nat) (ns : Int) : Int :=
  (((dayNumber y m d * 24 + h) * 60 + mi) * 60 + s) * 1000000000 + ns

/-- The instant of a date and time. -/
def instantOf (t : DateTime) : Int :=
  instant t.year t.month t.day t.hour t.minute t.second t.nanosecond

/-- A date and time without leap second. -/
def RealDateTime (t : DateTime) : Prop :=
  RealDate t.year t.month t.day ∧ t.hour < 24 ∧ t.minute < 60 ∧ t.second < 60 ∧
    t.nanosecond < 1000000000

end Ublox.Spec
