import Verif.Model.Float
import Verif.Model.Raw

/-!
# `ScaleBack`: from a scaled float back to the raw integer
-/

namespace Ublox

/-- The float format of the type parameter of `ScaleBack` and the scale factor
(`packets.rs:2391-2393`). -/
structure ScaleBack where
  fmt : FloatFmt
  factor : Fl

namespace ScaleBack

/-- `ublox_derive/src/types.rs:105`: the factor of the generated code, `1. / scale`, for the scale
written in the packet declaration. -/
def ofScale (fmt : FloatFmt) (scale : Rat) : ScaleBack :=
  ⟨fmt, Fl.div fmt (Fl.ofInt 1) (Fl.lit fmt scale)⟩

/-- `(x * self.0).round()`, the first line of every conversion (`packets.rs:2397`, `2408`, `2419`,
`2430`, `2443`, `2456`) -/
def scaled (s : ScaleBack) (x : Fl) : Fl := (Fl.mul s.fmt x s.factor).roundInt

/-- `packets.rs:2396-2427`, `as_i8`, `as_i16`, `as_i32` (the same code for `lo ..= hi` the range of
the type) -/
def asSigned (s : ScaleBack) (lo hi : Int) (x : Fl) : R Int :=
  let x := s.scaled x
  if x.lt (Fl.ofRat s.fmt false lo) then .ok lo
  else if (Fl.ofRat s.fmt false hi).lt x then .ok hi
  else match x.toInt? lo hi with
    | some n => .ok n
    | none => .error .unwrap

/-- `packets.rs:2429-2466`, `as_u32`, `as_u16`, `as_u8` -/
def asUnsigned (s : ScaleBack) (hi : Int) (x : Fl) : R Int :=
  let x := s.scaled x
  if !x.signNeg then
    if x.le (Fl.ofRat s.fmt false hi) then
      match x.toInt? 0 hi with
      | some n => .ok n
      | none => .error .unwrap
    else .ok hi
  else .ok 0

/-- The conversion method chosen by `ublox_derive/src/types.rs:121-130` from the raw type of the
field; other raw types have no method. -/
def asRaw (s : ScaleBack) (ty : RawTy) (x : Fl) : R RawVal :=
  match ty with
  | .i8 => do return .i8 (Int8.ofInt (← s.asSigned (-128) 127 x))
  | .i16 => do return .i16 (Int16.ofInt (← s.asSigned (-32768) 32767 x))
  | .i32 => do return .i32 (Int32.ofInt (← s.asSigned (-2147483648) 2147483647 x))
  | .u8 => do return .u8 (UInt8.ofNat (← s.asUnsigned 255 x).toNat)
  | .u16 => do return .u16 (UInt16.ofNat (← s.asUnsigned 65535 x).toNat)
  | .u32 => do return .u32 (UInt32.ofNat (← s.asUnsigned 4294967295 x).toNat)
  | _ => .error .illTyped

end ScaleBack
end Ublox
