import Verif.Model.Basic

/-!
# Raw field types of packets and their byte representation
-/

namespace Ublox

/-- The types that occur as the raw type of a packet field
(`ublox_derive/src/input.rs:563-608`, `field_size_bytes`, and the field declarations of
`ublox/src/ubx_packets/packets.rs`).  `tail` stands for `[u8; 0]` and for reference types, which
have no static size (`NonZeroUsize::new(0)` is `None`, `input.rs:586-594`). -/
inductive RawTy where
  | u8 | i8 | u16 | i16 | u32 | i32 | f32 | f64
  | bytes (n : Nat)
  | tail
  deriving DecidableEq, Repr

/-- `ublox_derive/src/input.rs:563-608`, `field_size_bytes`: the size of a raw type, `none` if it
has no static size. -/
def RawTy.size : RawTy → Option Nat
  | .u8 => some 1
  | .i8 => some 1
  | .u16 => some 2
  | .i16 => some 2
  | .u32 => some 4
  | .i32 => some 4
  | .f32 => some 4
  | .f64 => some 8
  | .bytes n => if n = 0 then none else some n
  | .tail => none

/-- A value of a raw type.  Floats are kept as their bit pattern. -/
inductive RawVal where
  | u8 (v : UInt8)
  | i8 (v : Int8)
  | u16 (v : UInt16)
  | i16 (v : Int16)
  | u32 (v : UInt32)
  | i32 (v : Int32)
  | f32 (bits : UInt32)
  | f64 (bits : UInt64)
  | bytes (bs : Bytes)
  deriving DecidableEq, Repr

/-- The value is of the given raw type. -/
def RawVal.ofTy : RawVal → RawTy → Bool
  | .u8 _, .u8 => true
  | .i8 _, .i8 => true
  | .u16 _, .u16 => true
  | .i16 _, .i16 => true
  | .u32 _, .u32 => true
  | .i32 _, .i32 => true
  | .f32 _, .f32 => true
  | .f64 _, .f64 => true
  | .bytes bs, .bytes n => bs.length == n && n != 0
  | _, _ => false

/-- `u16::from_le_bytes` of the Rust standard library. -/
def u16FromLe (b0 b1 : UInt8) : UInt16 := b0.toUInt16 ||| (b1.toUInt16 <<< 8)

/-- `u32::from_le_bytes` of the Rust standard library. -/
def u32FromLe (b0 b1 b2 b3 : UInt8) : UInt32 :=
  b0.toUInt32 ||| (b1.toUInt32 <<< 8) ||| (b2.toUInt32 <<< 16) ||| (b3.toUInt32 <<< 24)

/-- `u64::from_le_bytes` of the Rust standard library. -/
def u64FromLe (b0 b1 b2 b3 b4 b5 b6 b7 : UInt8) : UInt64 :=
  b0.toUInt64 ||| (b1.toUInt64 <<< 8) ||| (b2.toUInt64 <<< 16) ||| (b3.toUInt64 <<< 24) |||
  (b4.toUInt64 <<< 32) ||| (b5.toUInt64 <<< 40) ||| (b6.toUInt64 <<< 48) ||| (b7.toUInt64 <<< 56)

/-- `u16::to_le_bytes` of the Rust standard library. -/
def u16ToLe (v : UInt16) : Bytes := [v.toUInt8, (v >>> 8).toUInt8]

/-- `u32::to_le_bytes` of the Rust standard library. -/
def u32ToLe (v : UInt32) : Bytes :=
  [v.toUInt8, (v >>> 8).toUInt8, (v >>> 16).toUInt8, (v >>> 24).toUInt8]

/-- `u64::to_le_bytes` of the Rust standard library. -/
def u64ToLe (v : UInt64) : Bytes :=
  [v.toUInt8, (v >>> 8).toUInt8, (v >>> 16).toUInt8, (v >>> 24).toUInt8,
   (v >>> 32).toUInt8, (v >>> 40).toUInt8, (v >>> 48).toUInt8, (v >>> 56).toUInt8]

/-- `<ty>::from_le_bytes([..])` as used by the generated code (`ublox_derive/src/output.rs:847`),
for an array of bytes that has the size of the type.  `illTyped` stands for code that the Rust
compiler rejects. -/
def RawTy.fromLeBytes : RawTy → Bytes → R RawVal
  | .u8, [b] => .ok (.u8 b)
  | .i8, [b] => .ok (.i8 b.toInt8)
  | .u16, [a, b] => .ok (.u16 (u16FromLe a b))
  | .i16, [a, b] => .ok (.i16 (u16FromLe a b).toInt16)
  | .u32, [a, b, c, d] => .ok (.u32 (u32FromLe a b c d))
  | .i32, [a, b, c, d] => .ok (.i32 (u32FromLe a b c d).toInt32)
  | .f32, [a, b, c, d] => .ok (.f32 (u32FromLe a b c d))
  | .f64, [a, b, c, d, e, f, g, h] => .ok (.f64 (u64FromLe a b c d e f g h))
  | _, _ => .error .illTyped

/-- `value.to_le_bytes()` respectively `&value` for byte arrays, as used by the generated builders
(`ublox_derive/src/output.rs:343-355`). -/
def RawVal.toLeBytes : RawVal → Bytes
  | .u8 v => [v]
  | .i8 v => [v.toUInt8]
  | .u16 v => u16ToLe v
  | .i16 v => u16ToLe v.toUInt16
  | .u32 v => u32ToLe v
  | .i32 v => u32ToLe v.toUInt32
  | .f32 v => u32ToLe v
  | .f64 v => u64ToLe v
  | .bytes bs => bs

end Ublox
