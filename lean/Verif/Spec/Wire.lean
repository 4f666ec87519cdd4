import Verif.Model.Raw

/-!
# Specification of the wire format of raw values

Little-endian numbers and two's complement, written with natural numbers and integers only.
-/

namespace Ublox.Spec

/-- The number that a little-endian byte string denotes. -/
def leNat : Bytes → Nat
  | [] => 0
  | b :: bs => b.toNat + 256 * leNat bs

/-- The little-endian byte string of length `n` that denotes `x` modulo `256 ^ n`. -/
def natLe : Nat → Nat → Bytes
  | 0, _ => []
  | n + 1, x => UInt8.ofNat (x % 256) :: natLe n (x / 256)

/-- Two's complement: the signed number with `bits` bits whose pattern is `x`. -/
def signedOf (bits x : Nat) : Int := if x < 2 ^ (bits - 1) then x else (x : Int) - 2 ^ bits

/-- The byte string is the wire form of the raw value: little-endian, two's complement for signed
numbers, the bit pattern for floats, the bytes themselves for byte arrays. -/
def Denotes : RawVal → Bytes → Prop
  | .u8 v, bs => bs.length = 1 ∧ v.toNat = leNat bs
  | .i8 v, bs => bs.length = 1 ∧ v.toInt = signedOf 8 (leNat bs)
  | .u16 v, bs => bs.length = 2 ∧ v.toNat = leNat bs
  | .i16 v, bs => bs.length = 2 ∧ v.toInt = signedOf 16 (leNat bs)
  | .u32 v, bs => bs.length = 4 ∧ v.toNat = leNat bs
  | .i32 v, bs => bs.length = 4 ∧ v.toInt = signedOf 32 (leNat bs)
  | .f32 bits, bs => bs.length = 4 ∧ bits.toNat = leNat bs
  | .f64 bits, bs => bs.length = 8 ∧ bits.toNat = leNat bs
  | .bytes b, bs => bs = b

end Ublox.Spec
