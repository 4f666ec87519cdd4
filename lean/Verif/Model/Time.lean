import Verif.Model.Ack

/-!
# Calendar dates and times

The crate uses the types of `chrono` (0.4), which is not part of `/repo`.  The functions of `chrono`
that are called are modelled by what their documentation says: dates are in the proleptic Gregorian
calendar, a time of day is a number of seconds and a number of nanoseconds.  (`chrono` itself stores a
date as year and day of the year.)
-/

namespace Ublox

/-- `chrono::NaiveDate` -/
structure NaiveDate where
  year : Int
  month : Nat
  day : Nat
  deriving DecidableEq, Repr

namespace NaiveDate

/-- The smallest and the largest year of a `NaiveDate` (`chrono`, `MIN_YEAR` and `MAX_YEAR`; the
values of the current releases, older ones allow one more year at either end). -/
def minYear : Int := -262143
@[inherit_doc minYear] def maxYear : Int := 262142

/-- Leap years of the Gregorian calendar. -/
def leap (y : Int) : Bool := y % 4 == 0 && (y % 100 != 0 || y % 400 == 0)

/-- Number of days of a month, 0 if there is no such month. -/
def daysIn (y : Int) (m : Nat) : Nat :=
  if m = 2 then (if leap y then 29 else 28)
  else if m = 4 ∨ m = 6 ∨ m = 9 ∨ m = 11 then 30
  else if 1 ≤ m ∧ m ≤ 12 then 31
  else 0

/-- `chrono::NaiveDate::from_ymd_opt` -/
def fromYmdOpt (y : Int) (m d : Nat) : Option NaiveDate :=
  if minYear ≤ y ∧ y ≤ maxYear ∧ 1 ≤ d ∧ d ≤ daysIn y m then some ⟨y, m, d⟩ else none

/-- The next day (`chrono::NaiveDate::succ_opt`). -/
def succOpt (t : NaiveDate) : Option NaiveDate :=
  if t.day < daysIn t.year t.month then some ⟨t.year, t.month, t.day + 1⟩
  else if t.month < 12 then some ⟨t.year, t.month + 1, 1⟩
  else fromYmdOpt (t.year + 1) 1 1

/-- The day before (`chrono::NaiveDate::pred_opt`). -/
def predOpt (t : NaiveDate) : Option NaiveDate :=
  if 1 < t.day then some ⟨t.year, t.month, t.day - 1⟩
  else if 1 < t.month then some ⟨t.year, t.month - 1, daysIn t.year (t.month - 1)⟩
  else fromYmdOpt (t.year - 1) 12 31

end NaiveDate

/-- `chrono::NaiveTime`: seconds since midnight and nanoseconds (from 10^9 on for a leap second). -/
structure NaiveTime where
  secs : Nat
  frac : Nat
  deriving DecidableEq, Repr

/-- `chrono::NaiveTime::from_hms_opt` -/
def NaiveTime.fromHmsOpt (h m s : Nat) : Option NaiveTime :=
  if h < 24 ∧ m < 60 ∧ s < 60 then some ⟨h * 3600 + m * 60 + s, 0⟩ else none

/-- `chrono::NaiveDateTime`, and `chrono::DateTime<Utc>`, which is the same with the offset zero. -/
structure DateTime where
  date : NaiveDate
  time : NaiveTime
  deriving DecidableEq, Repr

namespace DateTime

/-- `chrono::Datelike::year` -/
def year (t : DateTime) : Int := t.date.year
/-- `chrono::Datelike::month` -/
def month (t : DateTime) : Nat := t.date.month
/-- `chrono::Datelike::month0`: the month counted from 0 -/
def month0 (t : DateTime) : Nat := t.date.month - 1
/-- `chrono::Datelike::day` -/
def day (t : DateTime) : Nat := t.date.day
/-- `chrono::Timelike::hour` -/
def hour (t : DateTime) : Nat := t.time.secs / 3600
/-- `chrono::Timelike::minute` -/
def minute (t : DateTime) : Nat := t.time.secs / 60 % 60
/-- `chrono::Timelike::second` -/
def second (t : DateTime) : Nat := t.time.secs % 60
/-- `chrono::Timelike::nanosecond` -/
def nanosecond (t : DateTime) : Nat := t.time.frac

/-- `chrono::Datelike::year_ce`: whether the year is positive, and the year of the era -/
def yearCe (t : DateTime) : Bool × Nat :=
  if 1 ≤ t.year then (true, t.year.toNat) else (false, (1 - t.year).toNat)

/-- `+ chrono::Duration::nanoseconds(n)` of `NaiveDateTime`, for less than a day and a time without
leap second: panics if the result is not representable. -/
def addNanoseconds (t : DateTime) (n : Int) : R DateTime :=
  let total : Int := (t.time.secs : Int) * 1000000000 + t.time.frac + n
  let withDate (d : Option NaiveDate) (total : Int) : R DateTime :=
    match d with
    | some d => .ok ⟨d, ⟨(total / 1000000000).toNat, (total % 1000000000).toNat⟩⟩
    | none => .error .unwrap
  if total < 0 then withDate t.date.predOpt (total + 86400000000000)
  else if total < 86400000000000 then withDate (some t.date) total
  else withDate t.date.succOpt (total - 86400000000000)

end DateTime

/-- `ublox/src/error.rs:75-80` -/
inductive DateTimeError where
  | invalidDate
  | invalidTime
  | invalidNanoseconds
  deriving DecidableEq, Repr

/-- An accessor call whose result is a `u16`. -/
def PackDesc.getU16 (d : PackDesc) (name : String) (payload : Bytes) : R UInt16 := do
  match ← d.get name payload with
  | .raw (.u16 x) => return x
  | _ => .error .illTyped

/-- An accessor call whose result is an `i32`. -/
def PackDesc.getI32 (d : PackDesc) (name : String) (payload : Bytes) : R Int32 := do
  match ← d.get name payload with
  | .raw (.i32 x) => return x
  | _ => .error .illTyped

/-- `i32::wrapping_abs` -/
def wrappingAbs (x : Int32) : Int32 := if x.toInt < 0 then Int32.ofInt (-x.toInt) else x

/-- `ublox/src/ubx_packets/types.rs:102-127`, `TryFrom<&NavPvtRef>` for `DateTime<Utc>` -/
def dateTimeFromNavPvt (payload : Bytes) : R (Except DateTimeError DateTime) := do
  let year ← Gen.navPvt_.getU16 "year" payload
  let month ← Gen.navPvt_.getU8 "month" payload
  let day ← Gen.navPvt_.getU8 "day" payload
  match NaiveDate.fromYmdOpt year.toNat month.toNat day.toNat with
  | none => return .error .invalidDate
  | some date =>
    let hour ← Gen.navPvt_.getU8 "hour" payload
    let min ← Gen.navPvt_.getU8 "min" payload
    let sec ← Gen.navPvt_.getU8 "sec" payload
    match NaiveTime.fromHmsOpt hour.toNat min.toNat sec.toNat with
    | none => return .error .invalidTime
    | some time =>
      let ns ← Gen.navPvt_.getI32 "nanosecond" payload
      if 1000000000 ≤ (wrappingAbs ns).toUInt32.toNat then return .error .invalidNanoseconds
      else
        let ns ← Gen.navPvt_.getI32 "nanosecond" payload
        let dt ← DateTime.addNanoseconds ⟨date, time⟩ ns.toInt
        return .ok dt

end Ublox
