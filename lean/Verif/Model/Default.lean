import Verif.Model.GenPackets

/-!
# The default values of builders

A packet declared with `flags = "default_for_builder"` has a builder with `#[derive(Default)]`
(`ublox_derive/src/output.rs:382-389`): every field gets the default of its type.
-/

namespace Ublox

/-- `Default` of the raw field types: 0 for numbers and an array of zeros for `[u8; n]`.  A slice
`&[u8]` is empty.  (The types have no code in the crate: this is Rust's standard library.) -/
def RawTy.default : RawTy → RawVal
  | .u8 => .u8 0
  | .i8 => .i8 0
  | .u16 => .u16 0
  | .i16 => .i16 0
  | .u32 => .u32 0
  | .i32 => .i32 0
  | .f32 => .f32 0
  | .f64 => .f64 0
  | .bytes n => .bytes (List.replicate n 0)
  | .tail => .bytes []

/-- The variant marked `#[default]` of the enums that derive `Default`: `packets.rs:852-853`
(`OdoProfile`), `1072-1073` (`CfgItfmAntennaSettings`), `1416-1417` (`CfgTp5TimePulseMode`),
`1466-1467` (`CfgTmode2TimeXferModes`), `1867-1868` (`I2cPortId`), `2103-2104` (`SpiPortId`),
`2350-2351` (`CfgNav5DynModel`), `2367-2368` (`CfgNav5FixMode`), `2379-2380`
(`CfgNav5UtcStandard`). -/
def EnumDesc.default (e : EnumDesc) : Option Variant :=
  match e.name with
  | "OdoProfile" => some ("Running", 0)
  | "CfgItfmAntennaSettings" => some ("Unknown", 0)
  | "CfgTp5TimePulseMode" => some ("TimePulse", 0)
  | "CfgTmode2TimeXferModes" => some ("Disabled", 0)
  | "I2cPortId" => some ("I2c", 0)
  | "SpiPortId" => some ("Spi", 4)
  | "CfgNav5DynModel" => some ("AirborneWith4gAcceleration", 8)
  | "CfgNav5FixMode" => some ("Auto2D3D", 3)
  | "CfgNav5UtcStandard" => some ("Automatic", 0)
  | _ => none

/-- `Default` of a flag type: the derived one, no bit set, for `OdoCogFilterFlags`
(`packets.rs:832`), `CfgInfMask` (`1120`), `CfgTmode2Flags` (`1477`), `CfgTmode3RcvrMode` (`1635`),
`CfgTp5Flags` (`1647`), `CfgTmode3Flags` (`1698`), `InProtoMask` (`2068`), `OutProtoMask` (`2086`),
`CfgNav5Params` (`2311`), `CfgNavX5Params1` (`2547`) and `CfgNavX5Params2` (`2570`), and the written
one for `CfgLayer` (`1829-1833`).  The other flag types are not fields of a builder with
`Default`. -/
def FlagsDesc.default (d : FlagsDesc) : Nat :=
  if d.name = "CfgLayer" then 0x1 ||| 0x2 ||| 0x4 else 0

/-- `Default` of a builder field: of its raw type, or of the type it is mapped to.  `none` stands
for a type without `Default`, with which the builder would not compile. -/
def FieldDesc.default (f : FieldDesc) : Option Val :=
  match f.map with
  | none => some (.raw f.ty.default)
  | some .f32 => some (.f32 (.fin 0))
  | some .f64 => some (.f64 (.fin 0))
  | some (.enum e) => e.default.map .enum
  | some (.flags d) => some (.flags d.default)
  | some _ => none

/-- `ublox_derive/src/output.rs:382-389`: `Default::default()` of the builder, if there is one. -/
def PackDesc.default (d : PackDesc) : Option Builder :=
  if d.hasBuilder && d.defaultForBuilder then d.fields.mapM FieldDesc.default else none

end Ublox
