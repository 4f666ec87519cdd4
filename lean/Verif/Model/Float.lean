import Verif.Model.Basic

/-!
# IEEE 754 binary floating point, as far as the crate uses it

The crate uses `f32` and `f64` through the Rust operators `*`, `+`, `/`, comparison, conversions
from and to integers and `round`.  A float is modelled by its exact value (a rational), an infinity
or a NaN; every operation is the exact rational operation followed by one rounding to nearest, ties
to even.  None of this is code of `/repo`: it is the meaning of the primitive operations that
`ublox_derive/src/output.rs:126-134` (scaled getters), `ublox/src/ubx_packets/packets.rs:2393-2467`
(`ScaleBack`) and `ublox/src/ubx_packets/types.rs:44-100` (positions) call.
-/

namespace Ublox

/-- A floating point format: `p` bits of precision, `emin` the exponent of the smallest subnormal,
`emax` the exponent of the first power of two that is not representable any more. -/
structure FloatFmt where
  p : Nat
  emin : Int
  emax : Int
  deriving DecidableEq, Repr

/-- `f32` (IEEE 754 binary32) -/
def fmt32 : FloatFmt := ⟨24, -149, 128⟩
/-- `f64` (IEEE 754 binary64) -/
def fmt64 : FloatFmt := ⟨53, -1074, 1024⟩

/-- `2 ^ e` -/
def pow2 : Int → Rat
  | .ofNat n => ((2 ^ n : Nat) : Rat)
  | .negSucc n => mkRat 1 (2 ^ (n + 1))

/-- For `q > 0` the integer `e` with `2 ^ e ≤ q < 2 ^ (e + 1)`. -/
def ilog2 (q : Rat) : Int :=
  let e : Int := (q.num.toNat.log2 : Int) - (q.den.log2 : Int)
  if pow2 e ≤ q then e else e - 1

/-- Nearest integer, ties to even. -/
def rne (q : Rat) : Int :=
  let f := q.floor
  if q - f < 1 / 2 then f
  else if 1 / 2 < q - f then f + 1
  else if f % 2 = 0 then f else f + 1

/-- Absolute value. -/
def ratAbs (q : Rat) : Rat := if q < 0 then -q else q

/-- Exponent of the unit in the last place of the floats near `q`. -/
def FloatFmt.ulpExp (fmt : FloatFmt) (q : Rat) : Int :=
  max (ilog2 (ratAbs q) - ((fmt.p : Int) - 1)) fmt.emin

/-- Round to the nearest float of unbounded range (ties to even). -/
def FloatFmt.round (fmt : FloatFmt) (q : Rat) : Rat :=
  if q = 0 then 0
  else
    let u := pow2 (fmt.ulpExp q)
    (rne (q / u) : Rat) * u

/-- A floating point value.  `fin 0` is `+0.0`. -/
inductive Fl where
  | nan (neg : Bool)
  | inf (neg : Bool)
  | negZero
  | fin (q : Rat)
  deriving DecidableEq, Repr

namespace Fl

/-- The float nearest to `q`; `neg` is the sign of a zero result. -/
def ofRat (fmt : FloatFmt) (neg : Bool) (q : Rat) : Fl :=
  let r := fmt.round q
  if pow2 fmt.emax ≤ ratAbs r then .inf (decide (r < 0))
  else if r = 0 then (if neg then .negZero else .fin 0)
  else .fin r

/-- `is_sign_negative` -/
def signNeg : Fl → Bool
  | nan s => s
  | inf s => s
  | negZero => true
  | fin q => decide (q < 0)

/-- The value of a finite float. -/
def val? : Fl → Option Rat
  | nan _ => none
  | inf _ => none
  | negZero => some 0
  | fin q => some q

/-- `x * y`.  (Rust leaves the sign of a NaN result open; here it is the one of the operand.
Theorems about NaN are stated for both signs.) -/
def mul (fmt : FloatFmt) (x y : Fl) : Fl :=
  match x, y with
  | nan s, _ => nan s
  | _, nan s => nan s
  | inf s, y => if y.val? = some 0 then nan false else inf (s ^^ y.signNeg)
  | x, inf s => if x.val? = some 0 then nan false else inf (x.signNeg ^^ s)
  | negZero, y => ofRat fmt (true ^^ y.signNeg) 0
  | x, negZero => ofRat fmt (x.signNeg ^^ true) 0
  | fin a, fin b => ofRat fmt (decide (a < 0) ^^ decide (b < 0)) (a * b)

/-- `x + y` -/
def add (fmt : FloatFmt) (x y : Fl) : Fl :=
  match x, y with
  | nan s, _ => nan s
  | _, nan s => nan s
  | inf s, inf t => if s = t then inf s else nan false
  | inf s, _ => inf s
  | _, inf s => inf s
  | negZero, negZero => negZero
  | negZero, y => y
  | x, negZero => x
  | fin a, fin b => ofRat fmt false (a + b)

/-- `x / y` -/
def div (fmt : FloatFmt) (x y : Fl) : Fl :=
  match x, y with
  | nan s, _ => nan s
  | _, nan s => nan s
  | inf _, inf _ => nan false
  | inf s, y => inf (s ^^ y.signNeg)
  | x, inf s => if x.signNeg ^^ s then negZero else fin 0
  | x, y =>
    match x.val?, y.val? with
    | some a, some b =>
      if b = 0 then (if a = 0 then nan false else inf (x.signNeg ^^ y.signNeg))
      else ofRat fmt (x.signNeg ^^ y.signNeg) (a / b)
    | _, _ => nan false

/-- `x < y` -/
def lt (x y : Fl) : Bool :=
  match x, y with
  | nan _, _ => false
  | _, nan _ => false
  | inf true, inf true => false
  | inf true, _ => true
  | inf false, _ => false
  | _, inf s => !s
  | x, y =>
    match x.val?, y.val? with
    | some a, some b => decide (a < b)
    | _, _ => false

/-- `x <= y` -/
def le (x y : Fl) : Bool :=
  match x, y with
  | nan _, _ => false
  | _, nan _ => false
  | inf true, _ => true
  | inf false, inf false => true
  | inf false, _ => false
  | _, inf s => !s
  | x, y =>
    match x.val?, y.val? with
    | some a, some b => decide (a ≤ b)
    | _, _ => false

/-- Nearest integer, ties away from zero. -/
def roundHalfAway (q : Rat) : Int :=
  if 0 ≤ q then (q + 1 / 2).floor else -((-q + 1 / 2).floor)

/-- `x.round()` of `f32`/`f64` (through `num_traits::FloatCore`): nearest integer, ties away from
zero; the result keeps the sign.  The result is exact: floats with a fractional part are smaller
than `2 ^ p`. -/
def roundInt (x : Fl) : Fl :=
  match x with
  | fin q =>
    let n := roundHalfAway q
    if n = 0 ∧ q < 0 then negZero else fin n
  | x => x

/-- Truncation toward zero. -/
def truncRat (q : Rat) : Int := if 0 ≤ q then q.floor else -((-q).floor)

/-- `num_traits::ToPrimitive::to_<int>` for an integer type with range `lo ..= hi` that is narrower
than the float: `Some` of the truncated value if the float lies strictly between `lo - 1` and
`hi + 1`. -/
def toInt? (lo hi : Int) : Fl → Option Int
  | nan _ => none
  | inf _ => none
  | negZero => some 0
  | fin q => if (lo : Rat) - 1 < q ∧ q < (hi : Rat) + 1 then some (truncRat q) else none

/-- `x as <int>`: truncation with saturation, NaN to 0. -/
def asInt (lo hi : Int) : Fl → Int
  | nan _ => 0
  | inf true => lo
  | inf false => hi
  | negZero => 0
  | fin q => max lo (min hi (truncRat q))

/-- `f64::from(n)`, `f32::from(n)`: conversion of an integer that the format represents exactly
(`i32`, `u32` and narrower in `f64`; `i16`, `u16` and narrower in `f32`). -/
def ofInt (n : Int) : Fl := .fin n

/-- A float literal of the source: the nearest float to the decimal value. -/
def lit (fmt : FloatFmt) (q : Rat) : Fl := ofRat fmt false q

end Fl
end Ublox
