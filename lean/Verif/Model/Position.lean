import Verif.Model.Time

/-!
# Positions, velocities and the setters of AID-INI
-/

namespace Ublox

/-- `ublox/src/ubx_packets/types.rs:9-18` -/
structure Position where
  lon : Fl
  lat : Fl
  alt : Fl
  deriving DecidableEq, Repr

/-- `ublox/src/ubx_packets/types.rs:23-32` -/
structure PositionECEF where
  x : Fl
  y : Fl
  z : Fl
  deriving DecidableEq, Repr

/-- `ublox/src/ubx_packets/types.rs:36-42` -/
structure Velocity where
  speed : Fl
  heading : Fl
  deriving DecidableEq, Repr

/-- An accessor call whose result is an `f64`. -/
def PackDesc.getF64 (d : PackDesc) (name : String) (payload : Bytes) : R Fl := do
  match ← d.get name payload with
  | .f64 x => return x
  | _ => .error .illTyped

/-- `types.rs:44-52`, `From<&NavPosLlhRef> for Position` -/
def positionFromNavPosLlh (payload : Bytes) : R Position := do
  let lon ← Gen.navPosLlh_.getF64 "lon_degrees" payload
  let lat ← Gen.navPosLlh_.getF64 "lat_degrees" payload
  let alt ← Gen.navPosLlh_.getF64 "height_msl" payload
  return ⟨lon, lat, alt⟩

/-- `types.rs:54-62`, `From<&NavHpPosLlhRef> for Position` -/
def positionFromNavHpPosLlh (payload : Bytes) : R Position := do
  let lon := Fl.add fmt64 (← Gen.navHpPosLlh_.getF64 "lon_degrees" payload)
    (← Gen.navHpPosLlh_.getF64 "lon_hp_degrees" payload)
  let lat := Fl.add fmt64 (← Gen.navHpPosLlh_.getF64 "lat_degrees" payload)
    (← Gen.navHpPosLlh_.getF64 "lat_hp_degrees" payload)
  let alt := Fl.add fmt64 (← Gen.navHpPosLlh_.getF64 "height_msl" payload)
    (← Gen.navHpPosLlh_.getF64 "height_hp_msl" payload)
  return ⟨lon, lat, alt⟩

/-- `10e-2 * (cm + 0.1 * mm)`, one coordinate of `types.rs:64-72` -/
def ecefCoordinate (cm mm : Fl) : Fl :=
  Fl.mul fmt64 (Fl.lit fmt64 (mkRat 1 10))
    (Fl.add fmt64 cm (Fl.mul fmt64 (Fl.lit fmt64 (mkRat 1 10)) mm))

/-- `types.rs:64-72`, `From<&NavHpPosEcefRef> for PositionECEF` -/
def positionFromNavHpPosEcef (payload : Bytes) : R PositionECEF := do
  let x := ecefCoordinate (← Gen.navHpPosEcef_.getF64 "ecef_x_cm" payload)
    (← Gen.navHpPosEcef_.getF64 "ecef_x_hp_mm" payload)
  let y := ecefCoordinate (← Gen.navHpPosEcef_.getF64 "ecef_y_cm" payload)
    (← Gen.navHpPosEcef_.getF64 "ecef_y_hp_mm" payload)
  let z := ecefCoordinate (← Gen.navHpPosEcef_.getF64 "ecef_z_cm" payload)
    (← Gen.navHpPosEcef_.getF64 "ecef_z_hp_mm" payload)
  return ⟨x, y, z⟩

/-- `types.rs:74-81`, `From<&NavVelNedRef> for Velocity` -/
def velocityFromNavVelNed (payload : Bytes) : R Velocity := do
  let speed ← Gen.navVelNed_.getF64 "ground_speed" payload
  let heading ← Gen.navVelNed_.getF64 "heading_degrees" payload
  return ⟨speed, heading⟩

/-- `types.rs:83-91`, `From<&NavPvtRef> for Position` -/
def positionFromNavPvt (payload : Bytes) : R Position := do
  let lon ← Gen.navPvt_.getF64 "lon_degrees" payload
  let lat ← Gen.navPvt_.getF64 "lat_degrees" payload
  let alt ← Gen.navPvt_.getF64 "height_msl" payload
  return ⟨lon, lat, alt⟩

/-- `types.rs:93-100`, `From<&NavPvtRef> for Velocity` -/
def velocityFromNavPvt (payload : Bytes) : R Velocity := do
  let speed ← Gen.navPvt_.getF64 "ground_speed" payload
  let heading ← Gen.navPvt_.getF64 "heading_degrees" payload
  return ⟨speed, heading⟩

/-! ## AID-INI -/

/-- `packets.rs:1231-1245`, the fields of `AidIniBuilder` -/
structure AidIniBuilder where
  ecefXOrLat : Int32
  ecefYOrLon : Int32
  ecefZOrAlt : Int32
  posAccuracy : UInt32
  timeCfg : UInt16
  weekOrYm : UInt16
  towOrHms : UInt32
  towNs : Int32
  tmAccuracyMs : UInt32
  tmAccuracyNs : UInt32
  clkDriftOrFreq : Int32
  clkDriftOrFreqAccuracy : UInt32
  flags : UInt32
  deriving DecidableEq, Repr

namespace AidIniBuilder

/-- The same as a list of values, in the order of the fields. -/
def toBuilder (b : AidIniBuilder) : Builder :=
  [.raw (.i32 b.ecefXOrLat), .raw (.i32 b.ecefYOrLon), .raw (.i32 b.ecefZOrAlt),
    .raw (.u32 b.posAccuracy), .raw (.u16 b.timeCfg), .raw (.u16 b.weekOrYm),
    .raw (.u32 b.towOrHms), .raw (.i32 b.towNs), .raw (.u32 b.tmAccuracyMs),
    .raw (.u32 b.tmAccuracyNs), .raw (.i32 b.clkDriftOrFreq),
    .raw (.u32 b.clkDriftOrFreqAccuracy), .raw (.u32 b.flags)]

/-- `x as i32` for an `f64` -/
def asI32 (x : Fl) : Int32 := Int32.ofInt (x.asInt (-2147483648) 2147483647)

/-- `packets.rs:1248-1254`, `set_position` -/
def setPosition (b : AidIniBuilder) (pos : Position) : AidIniBuilder :=
  { b with
    ecefXOrLat := asI32 (Fl.mul fmt64 pos.lat (Fl.lit fmt64 10000000))
    ecefYOrLon := asI32 (Fl.mul fmt64 pos.lon (Fl.lit fmt64 10000000))
    ecefZOrAlt := asI32 (Fl.mul fmt64 pos.alt (Fl.lit fmt64 100))
    flags := b.flags ||| (((1 : UInt32) <<< 0) ||| ((1 : UInt32) <<< 5)) }

/-- `u32::MAX` -/
def u32Max : Nat := 4294967295

/-- `a * b` on `u32` -/
def umul (M a b : Nat) : R Nat := if a * b ≤ M then .ok (a * b) else .error .overflow

/-- `packets.rs:1256-1268`, `set_time`.  (With overflow checks; without them a year before 2000
wraps around instead of panicking.) -/
def setTime (b : AidIniBuilder) (tm : DateTime) : R AidIniBuilder := do
  let yr ← match tm.yearCe with
    | (true, yr) => usub yr 2000
    | (false, _) => .error .explicit
  let ym ← uadd u32Max (← umul u32Max yr 100) tm.month0
  let hms ← uadd u32Max (← uadd u32Max (← umul u32Max tm.hour 10000)
    (← umul u32Max tm.minute 100)) tm.second
  return { b with
    weekOrYm := UInt16.ofNat ym
    towOrHms := UInt32.ofNat hms
    towNs := Int32.ofNat tm.nanosecond
    flags := b.flags ||| (((1 : UInt32) <<< 1) ||| ((1 : UInt32) <<< 10)) }

end AidIniBuilder
end Ublox
