import Verif.Model.Float

/-!
# The model of floating point against the floating point unit

These are tests of the model, not proofs: the operations of `Verif.Model.Float` are run on pseudo-random
operands, on special values and on operands near the limits, and compared with the result of the
machine's own IEEE 754 arithmetic (the types `Float` and `Float32` of Lean, evaluated when the file is
compiled).
-/

namespace Ublox.Validation

/-- The value of a bit pattern with `m` bits of mantissa, exponent bias `bias` and `e` bits of
exponent. -/
def decodeBits (m e bias : Nat) (bits : Nat) : Fl :=
  let neg := bits / 2 ^ (m + e) % 2 == 1
  let expo := bits / 2 ^ m % 2 ^ e
  let man := bits % 2 ^ m
  if expo == 2 ^ e - 1 then (if man == 0 then .inf neg else .nan neg)
  else if expo == 0 && man == 0 then (if neg then .negZero else .fin 0)
  else
    let q : Rat :=
      if expo == 0 then man * pow2 (1 - (bias : Int) - m)
      else (2 ^ m + man : Nat) * pow2 ((expo : Int) - bias - m)
    .fin (if neg then -q else q)

/-- The value of an `f64`. -/
def of64 (x : Float) : Fl := decodeBits 52 11 1023 x.toBits.toNat
/-- The value of an `f32`. -/
def of32 (x : Float32) : Fl := decodeBits 23 8 127 x.toBits.toNat

/-- The same value, where the sign of a NaN does not count. -/
def same : Fl → Fl → Bool
  | .nan _, .nan _ => true
  | x, y => x == y

/-- A linear congruential generator. -/
def next (s : UInt64) : UInt64 := s * 6364136223846793005 + 1442695040888963407

/-- A bit pattern from a random number: any, near one, a small integer and a half, subnormal. -/
def shape64 (s t : UInt64) : Float :=
  match (s >>> 60).toNat % 5 with
  | 0 => Float.ofBits t
  | 1 => Float.ofBits ((t &&& 0x800FFFFFFFFFFFFF) ||| (((1003 : UInt64) + (s >>> (33 : UInt64)) % 40) <<< (52 : UInt64)))
  | 2 => (if t >>> 63 == 0 then (1 : Float) else -1) * Float.ofNat ((t >>> 20) % 70000).toNat / 2
  | 3 => Float.ofBits (t &&& 0x800FFFFFFFFFFFFF)
  | _ => Float.ofBits ((t &&& 0x800000000000FFFF) ||| (((1020 : UInt64) + (s >>> (33 : UInt64)) % 6) <<< (52 : UInt64)))

/-- The same for `f32`. -/
def shape32 (s t : UInt64) : Float32 :=
  let t := (t >>> 32).toUInt32
  let s := (s >>> 32).toUInt32
  match (s >>> 28).toNat % 5 with
  | 0 => Float32.ofBits t
  | 1 => Float32.ofBits ((t &&& 0x807FFFFF) ||| (((117 : UInt32) + s % 20) <<< (23 : UInt32)))
  | 2 => (if t >>> 31 == 0 then (1 : Float32) else -1) * Float32.ofNat ((t >>> 5) % 70000).toNat / 2
  | 3 => Float32.ofBits (t &&& 0x807FFFFF)
  | _ => Float32.ofBits ((t &&& 0x800000FF) ||| (((125 : UInt32) + s % 5) <<< (23 : UInt32)))

/-- The special values. -/
def special64 : List Float :=
  [0, -0.0, 1, -1, 0.5, -0.5, 1.5, 2.5, -2.5, 1 / 0, -1 / 0, 0 / 0, Float.ofBits 1,
   Float.ofBits 0x7FEFFFFFFFFFFFFF, Float.ofBits 0x0010000000000000, 2147483647, 2147483647.5,
   2147483648, -2147483648, -2147483648.5, -2147483649, 4294967295, 4294967295.5, 4294967296,
   127.5, 128, -128.5, -129, 255.5, 256, 1e-7, 1e-5, 0.01, 1e7, 9007199254740992, 9007199254740993]

/-- Pairs of operands: the special values with each other, and `n` random pairs. -/
def pairs64 (n : Nat) : List (Float × Float) := Id.run do
  let mut out := special64.flatMap fun x => special64.map fun y => (x, y)
  let mut s : UInt64 := 1
  for _ in List.range n do
    let a := next s; let b := next a; let c := next b; let d := next c
    s := d
    out := (shape64 a b, shape64 c d) :: out
  return out

/-- Pairs of `f32` operands. -/
def pairs32 (n : Nat) : List (Float32 × Float32) := Id.run do
  let sp := special64.map Float.toFloat32
  let mut out := sp.flatMap fun x => sp.map fun y => (x, y)
  let mut s : UInt64 := 2
  for _ in List.range n do
    let a := next s; let b := next a; let c := next b; let d := next c
    s := d
    out := (shape32 a b, shape32 c d) :: out
  return out

/-- All operations on one pair of `f64`. -/
def agree64 (p : Float × Float) : Bool :=
  let (x, y) := p
  let (a, b) := (of64 x, of64 y)
  same (Fl.mul fmt64 a b) (of64 (x * y)) && same (Fl.add fmt64 a b) (of64 (x + y)) &&
  same (Fl.div fmt64 a b) (of64 (x / y)) && Fl.lt a b == decide (x < y) &&
  Fl.le a b == decide (x ≤ y) && same a.roundInt (of64 x.round) &&
  Fl.asInt (-128) 127 a == x.toInt8.toInt && Fl.asInt (-32768) 32767 a == x.toInt16.toInt &&
  Fl.asInt (-2147483648) 2147483647 a == x.toInt32.toInt &&
  Fl.asInt 0 255 a == x.toUInt8.toNat && Fl.asInt 0 65535 a == x.toUInt16.toNat &&
  Fl.asInt 0 4294967295 a == x.toUInt32.toNat &&
  (a.signNeg == (x.toBits >>> 63 == 1) || x.isNaN)

/-- All operations on one pair of `f32`. -/
def agree32 (p : Float32 × Float32) : Bool :=
  let (x, y) := p
  let (a, b) := (of32 x, of32 y)
  same (Fl.mul fmt32 a b) (of32 (x * y)) && same (Fl.add fmt32 a b) (of32 (x + y)) &&
  same (Fl.div fmt32 a b) (of32 (x / y)) && Fl.lt a b == decide (x < y) &&
  Fl.le a b == decide (x ≤ y) && same a.roundInt (of32 x.round) &&
  Fl.asInt (-128) 127 a == x.toInt8.toInt && Fl.asInt 0 255 a == x.toUInt8.toNat &&
  (a.signNeg == (x.toBits >>> 31 == 1) || x.isNaN)

#guard (pairs64 2000).all agree64
#guard (pairs32 2000).all agree32

-- rounding of an `f64` to `f32`, and of integers that are not representable
#guard (pairs64 2000).all fun (x, _) =>
  match of64 x with
  | .fin q => q == 0 || same (Fl.ofRat fmt32 (decide (q < 0)) q) (of32 x.toFloat32)
  | _ => true
#guard (List.range 2000).all fun i =>
  let n := (next (next (UInt64.ofNat i))).toNat
  same (Fl.lit fmt64 (n : Rat)) (of64 (Float.ofNat n)) &&
  same (Fl.lit fmt32 (n : Rat)) (of32 (Float32.ofNat n))

-- the scales of the packet declarations as literals
#guard [(1e-7, 1, 7), (1e-5, 1, 5), (1e-4, 1, 4), (1e-3, 1, 3), (1e-2, 1, 2), (0.1, 1, 1),
    (0.001953125, 1953125, 9), (1e-9, 1, 9)].all fun ((x : Float), (n : Nat), (k : Nat)) =>
  same (Fl.lit fmt64 (n / (10 : Rat) ^ k)) (of64 x)

end Ublox.Validation
