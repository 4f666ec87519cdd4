import Verif.Model.Raw

/-!
# Enums, bit flags and hand-written field types
-/

namespace Ublox

/-! ## Enums extended by `#[ubx_extend]` -/

/-- `ublox_derive/src/types.rs:186-190`, `UbxTypeFromFn` -/
inductive FromFn where
  | from | fromUnchecked
  deriving DecidableEq, Repr

/-- `ublox_derive/src/types.rs:197-201`, `UbxEnumRestHandling` -/
inductive Rest where
  | reserved | errorProne
  deriving DecidableEq, Repr

/-- `ublox_derive/src/types.rs:176-184`, `UbxExtendEnum`, without the attributes; the representation
type is `u8` (checked at `ublox_derive/src/output.rs:499-502`). -/
structure EnumDesc where
  name : String
  fromFn : Option FromFn
  rest : Option Rest
  intoRaw : Bool
  variants : List (String × UInt8)
  deriving DecidableEq, Repr

/-- A value of an enum: variant name and discriminant. -/
abbrev Variant := String × UInt8

/-- `ublox_derive/src/output.rs:504-514`: the variants of the generated enum, i.e. the declared
ones and, with `rest_reserved`, a variant `Reserved{i}` for every other byte. -/
def EnumDesc.allVariants (e : EnumDesc) : List Variant :=
  if e.rest = some .reserved then
    e.variants ++
      ((List.range 256).filter fun i => !(e.variants.map (·.2)).contains (UInt8.ofNat i)).map
        fun i => ("Reserved" ++ toString i, UInt8.ofNat i)
  else e.variants

/-- The generated `match x { .. }` (`ublox_derive/src/output.rs:522-532`, `555-559`): the first
branch whose literal is `x`. -/
def EnumDesc.lookup (e : EnumDesc) (x : UInt8) : Option Variant :=
  e.allVariants.find? fun v => v.2 == x

/-- `ublox_derive/src/output.rs:517-536`, generated `from`.  A `match` without wildcard that does
not cover all bytes does not compile; here it is `illTyped`. -/
def EnumDesc.from (e : EnumDesc) (x : UInt8) : R Variant :=
  match e.lookup x with
  | some v => .ok v
  | none => .error .illTyped

/-- `ublox_derive/src/output.rs:555-560`, generated `from_unchecked`. -/
def EnumDesc.fromUnchecked (e : EnumDesc) (x : UInt8) : R Variant :=
  match e.lookup x with
  | some v => .ok v
  | none => .error .explicit

/-- `ublox_derive/src/output.rs:561-566`, generated `is_valid`. -/
def EnumDesc.isValid (e : EnumDesc) (x : UInt8) : Bool :=
  (e.allVariants.map (·.2)).contains x

/-- `ublox_derive/src/output.rs:575-581`, generated `into_raw`: `self as u8`. -/
def EnumDesc.intoRawVal (v : Variant) : UInt8 := v.2

/-! ## Bit flags extended by `#[ubx_extend_bitflags]` -/

/-- `ublox_derive/src/types.rs:203-219`, `BitFlagsMacro`, without visibility and attributes. -/
structure FlagsDesc where
  name : String
  nbits : Nat
  consts : List (String × Nat)
  from_ : Bool
  intoRaw : Bool
  deriving DecidableEq, Repr

/-- `ublox_derive/src/output.rs:622-651`: the constants of the generated `bitflags!`: for every bit
the declared constant with that value, or a constant `RESERVED{bit}`. -/
def FlagsDesc.items (d : FlagsDesc) : List (String × Nat) :=
  (List.range d.nbits).map fun bit =>
    match d.consts.find? fun c => c.2 == 1 <<< bit with
    | some c => (c.1, 1 <<< bit)
    | none => ("RESERVED" ++ toString bit, 1 <<< bit)

/-- `ublox_derive/src/output.rs:653-660`: the macro accepts the declaration iff every declared
constant was met, i.e. is a single bit of the type (the two sets are compared by their sizes). -/
def FlagsDesc.accepted (d : FlagsDesc) : Bool :=
  ((List.range d.nbits).filter fun bit => d.consts.any fun c => c.2 == 1 <<< bit).length
    == d.consts.length

/-- `Self::all().bits()` of the `bitflags` crate: the union of all constants. -/
def FlagsDesc.all (d : FlagsDesc) : Nat := (d.items.map (·.2)).foldl (· ||| ·) 0

/-- `ublox_derive/src/output.rs:668-674`, generated `from`: `from_bits_truncate(x)`, which keeps
the bits of `all`. -/
def FlagsDesc.fromBitsTruncate (d : FlagsDesc) (x : Nat) : Nat := x &&& d.all

/-- `contains` of the `bitflags` crate for the flag value `c`. -/
def flagsContains (bits c : Nat) : Bool := bits &&& c == c

/-! ## Wrappers with interpretation methods -/

/-- `ublox/src/ubx_packets/packets.rs:536-545` -/
inductive MapMatchingStatus where
  | none | valid | used | dr
  deriving DecidableEq, Repr

/-- `packets.rs:507-509`, `FixStatusInfo::has_pr_prr_correction` -/
def FixStatusInfo.hasPrPrrCorrection (x : UInt8) : Bool := (x &&& 1) == 1

/-- `packets.rs:510-519`, `FixStatusInfo::map_matching` -/
def FixStatusInfo.mapMatching (x : UInt8) : R MapMatchingStatus :=
  let bits := (x >>> 6) &&& 3
  if bits = 0 then .ok .none
  else if bits = 1 then .ok .valid
  else if bits = 2 then .ok .used
  else if bits = 3 then .ok .dr
  else .error .explicit

/-- `packets.rs:692-699` -/
inductive NavSatQualityIndicator where
  | noSignal | searching | signalAcquired | signalDetected | codeLock | carrierLock
  deriving DecidableEq, Repr

/-- `packets.rs:703-707` -/
inductive NavSatSvHealth where
  | healthy | unhealthy | unknown (x : UInt8)
  deriving DecidableEq, Repr

/-- `packets.rs:711-718` -/
inductive NavSatOrbitSource where
  | noInfoAvailable | ephemeris | almanac | assistNowOffline | assistNowAutonomous
  | other (x : UInt8)
  deriving DecidableEq, Repr

namespace NavSatSvFlags

/-- `packets.rs:566-579`, `quality_ind` -/
def qualityInd (x : UInt32) : R NavSatQualityIndicator :=
  let bits := x &&& 0x7
  if bits = 0 then .ok .noSignal
  else if bits = 1 then .ok .searching
  else if bits = 2 then .ok .signalAcquired
  else if bits = 3 then .ok .signalDetected
  else if bits = 4 then .ok .codeLock
  else if 5 ≤ bits ∧ bits ≤ 7 then .ok .carrierLock
  else .error .explicit

/-- `packets.rs:581-583`, `sv_used` -/
def svUsed (x : UInt32) : Bool := (x >>> 3) &&& 0x1 != 0

/-- `packets.rs:585-592`, `health` -/
def health (x : UInt32) : NavSatSvHealth :=
  let bits := (x >>> 4) &&& 0x3
  if bits = 1 then .healthy
  else if bits = 2 then .unhealthy
  else .unknown bits.toUInt8

/-- `packets.rs:594-596`, `differential_correction_available` -/
def differentialCorrectionAvailable (x : UInt32) : Bool := (x >>> 6) &&& 0x1 != 0

/-- `packets.rs:598-600`, `smoothed` -/
def smoothed (x : UInt32) : Bool := (x >>> 7) &&& 0x1 != 0

/-- `packets.rs:602-612`, `orbit_source` -/
def orbitSource (x : UInt32) : NavSatOrbitSource :=
  let bits := (x >>> 8) &&& 0x7
  if bits = 0 then .noInfoAvailable
  else if bits = 1 then .ephemeris
  else if bits = 2 then .almanac
  else if bits = 3 then .assistNowOffline
  else if bits = 4 then .assistNowAutonomous
  else .other bits.toUInt8

/-- `packets.rs:614-616`, `ephemeris_available` -/
def ephemerisAvailable (x : UInt32) : Bool := (x >>> 11) &&& 0x1 != 0
/-- `packets.rs:618-620`, `almanac_available` -/
def almanacAvailable (x : UInt32) : Bool := (x >>> 12) &&& 0x1 != 0
/-- `packets.rs:622-624`, `an_offline_available` -/
def anOfflineAvailable (x : UInt32) : Bool := (x >>> 13) &&& 0x1 != 0
/-- `packets.rs:626-628`, `an_auto_available` -/
def anAutoAvailable (x : UInt32) : Bool := (x >>> 14) &&& 0x1 != 0
/-- `packets.rs:630-632`, `sbas_corr` -/
def sbasCorr (x : UInt32) : Bool := (x >>> 16) &&& 0x1 != 0
/-- `packets.rs:634-636`, `rtcm_corr` -/
def rtcmCorr (x : UInt32) : Bool := (x >>> 17) &&& 0x1 != 0
/-- `packets.rs:638-640`, `slas_corr` -/
def slasCorr (x : UInt32) : Bool := (x >>> 18) &&& 0x1 != 0
/-- `packets.rs:642-644`, `spartn_corr` -/
def spartnCorr (x : UInt32) : Bool := (x >>> 19) &&& 0x1 != 0
/-- `packets.rs:646-648`, `pr_corr` -/
def prCorr (x : UInt32) : Bool := (x >>> 20) &&& 0x1 != 0
/-- `packets.rs:650-652`, `cr_corr` -/
def crCorr (x : UInt32) : Bool := (x >>> 21) &&& 0x1 != 0
/-- `packets.rs:654-656`, `do_corr` -/
def doCorr (x : UInt32) : Bool := (x >>> 22) &&& 0x1 != 0

end NavSatSvFlags

/-- `packets.rs:2774-2777` -/
inductive TimTpTimeBase where
  | gnss | utc
  deriving DecidableEq, Repr

namespace TimTpFlags

/-- `packets.rs:2740-2746`, `time_base` -/
def timeBase (x : UInt8) : TimTpTimeBase := if x &&& 0b1 = 0 then .gnss else .utc
/-- `packets.rs:2749-2751`, `utc_available` -/
def utcAvailable (x : UInt8) : Bool := x &&& 0b10 != 0
/-- `packets.rs:2756-2765`, `raim_active` -/
def raimActive (x : UInt8) : Option Bool :=
  let bits := (x >>> 2) &&& 0b11
  if bits = 0b01 then some false else if bits = 0b10 then some true else none
/-- `packets.rs:2768-2770`, `q_err_valid` -/
def qErrValid (x : UInt8) : Bool := x &&& 0b10000 == 0

end TimTpFlags

/-- `packets.rs:2813-2819` -/
inductive TimTpRefInfoTimeRefGnss where
  | gps | glo | bds | gal | navIc
  deriving DecidableEq, Repr

/-- `packets.rs:2822-2831` -/
inductive TimTpRefInfoUtcStandard where
  | crl | nist | usno | bipm | eu | su | ntsc | npli
  deriving DecidableEq, Repr

namespace TimTpRefInfo

/-- `packets.rs:2785-2794`, `time_ref_gnss` -/
def timeRefGnss (x : UInt8) : Option TimTpRefInfoTimeRefGnss :=
  let bits := x &&& 0b1111
  if bits = 0 then some .gps
  else if bits = 1 then some .glo
  else if bits = 2 then some .bds
  else if bits = 3 then some .gal
  else if bits = 4 then some .navIc
  else none

/-- `packets.rs:2797-2809`, `utc_standard` -/
def utcStandard (x : UInt8) : Option TimTpRefInfoUtcStandard :=
  let bits := x >>> 4
  if bits = 1 then some .crl
  else if bits = 2 then some .nist
  else if bits = 3 then some .usno
  else if bits = 4 then some .bipm
  else if bits = 5 then some .eu
  else if bits = 6 then some .su
  else if bits = 7 then some .ntsc
  else if bits = 8 then some .npli
  else none

end TimTpRefInfo

/-- `packets.rs:2908-2911` -/
inductive TimTm2Mode where
  | single | running
  deriving DecidableEq, Repr
/-- `packets.rs:2913-2916` -/
inductive TimTm2Run where
  | armed | stopped
  deriving DecidableEq, Repr
/-- `packets.rs:2918-2922` -/
inductive TimTm2TimeBase where
  | receiver | gnss | utc
  deriving DecidableEq, Repr

namespace TimTm2Flags

/-- `packets.rs:2865-2871`, `mode` -/
def mode (x : UInt8) : TimTm2Mode := if x &&& 0b1 = 0 then .single else .running
/-- `packets.rs:2873-2879`, `run` -/
def run (x : UInt8) : TimTm2Run := if x &&& 0b10 = 0 then .armed else .stopped
/-- `packets.rs:2881-2883`, `new_falling_edge` -/
def newFallingEdge (x : UInt8) : Bool := x &&& 0b100 != 0
/-- `packets.rs:2885-2887`, `new_rising_edge` -/
def newRisingEdge (x : UInt8) : Bool := x &&& 0b10000000 != 0
/-- `packets.rs:2889-2896`, `time_base`: the masked bits are compared without being shifted. -/
def timeBase (x : UInt8) : R TimTm2TimeBase :=
  let bits := x &&& 0b11000
  if bits = 0 then .ok .receiver
  else if bits = 1 then .ok .gnss
  else if bits = 2 then .ok .utc
  else .error .explicit
/-- `packets.rs:2899-2901`, `utc_available` -/
def utcAvailable (x : UInt8) : Bool := x &&& 0b100000 != 0
/-- `packets.rs:2903-2905`, `time_valid` -/
def timeValid (x : UInt8) : Bool := x &&& 0b1000000 != 0

end TimTm2Flags

/-! ## `UartMode` -/

/-- `packets.rs:1939-1942` -/
inductive DataBits where
  | seven | eight
  deriving DecidableEq, Repr
/-- `packets.rs:1970-1974` -/
inductive Parity where
  | even | odd | none
  deriving DecidableEq, Repr
/-- `packets.rs:2003-2008` -/
inductive StopBits where
  | one | oneHalf | two | half
  deriving DecidableEq, Repr

/-- `packets.rs:1903-1907` -/
structure UartMode where
  dataBits : DataBits
  parity : Parity
  stopBits : StopBits
  deriving DecidableEq, Repr

/-- `packets.rs:1948-1953` with `POSITION = 6` (`1945`) -/
def DataBits.intoRaw (d : DataBits) : UInt32 :=
  let bits : UInt32 := match d with | .seven => 0b10 | .eight => 0b11
  bits <<< 6

/-- `packets.rs:1956-1966` -/
def DataBits.from (mode : UInt32) : R DataBits :=
  let bits := (mode >>> 6) &&& 0b11
  if bits = 0b00 then .error .explicit
  else if bits = 0b01 then .error .explicit
  else if bits = 0b10 then .ok .seven
  else if bits = 0b11 then .ok .eight
  else .error .explicit

/-- `packets.rs:1980-1986` with `POSITION = 9` (`1977`) -/
def Parity.intoRaw (p : Parity) : UInt32 :=
  let bits : UInt32 := match p with | .even => 0b000 | .odd => 0b001 | .none => 0b100
  bits <<< 9

/-- `packets.rs:1989-1999` -/
def Parity.from (mode : UInt32) : R Parity :=
  let bits := (mode >>> 9) &&& 0b111
  if bits = 0b000 then .ok .even
  else if bits = 0b001 then .ok .odd
  else if bits = 0b100 ∨ bits = 0b101 then .ok .none
  else if bits = 0b010 ∨ bits = 0b011 ∨ bits = 0b110 ∨ bits = 0b111 then .error .explicit
  else .error .explicit

/-- `packets.rs:2014-2021` with `POSITION = 12` (`2011`) -/
def StopBits.intoRaw (s : StopBits) : UInt32 :=
  let bits : UInt32 := match s with | .one => 0b00 | .oneHalf => 0b01 | .two => 0b10 | .half => 0b11
  bits <<< 12

/-- `packets.rs:2024-2034` -/
def StopBits.from (mode : UInt32) : R StopBits :=
  let bits := (mode >>> 12) &&& 0b11
  if bits = 0b00 then .ok .one
  else if bits = 0b01 then .ok .oneHalf
  else if bits = 0b10 then .ok .two
  else if bits = 0b11 then .ok .half
  else .error .explicit

/-- `packets.rs:1918-1920` -/
def UartMode.intoRaw (m : UartMode) : UInt32 :=
  m.dataBits.intoRaw ||| m.parity.intoRaw ||| m.stopBits.intoRaw

/-- `packets.rs:1923-1935` -/
def UartMode.from (mode : UInt32) : R UartMode := do
  let dataBits ← DataBits.from mode
  let parity ← Parity.from mode
  let stopBits ← StopBits.from mode
  return ⟨dataBits, parity, stopBits⟩

/-! ## `CfgItfmConfig`, `CfgItfmConfig2` -/

/-- `packets.rs:872-885`; the three newtypes around `u32` are represented by their content -/
structure CfgItfmConfig where
  enable : Bool
  bbThreshold : UInt32
  cwThreshold : UInt32
  algorithmBits : UInt32
  deriving DecidableEq, Repr

/-- `bool as u32` -/
def boolU32 (b : Bool) : UInt32 := if b then 1 else 0

/-- `packets.rs:924-931`: mask `(1 << 4) - 1`, position 0 -/
def CfgItfmBbThreshold.intoRaw (x : UInt32) : UInt32 := (x &&& (((1 : UInt32) <<< 4) - 1)) <<< 0
/-- `packets.rs:949-956`: mask `(1 << 5) - 1`, position 4 -/
def CfgItfmCwThreshold.intoRaw (x : UInt32) : UInt32 := (x &&& (((1 : UInt32) <<< 5) - 1)) <<< 4
/-- `packets.rs:974-981`: mask `(1 << 22) - 1`, position 9 -/
def CfgItfmAlgoBits.intoRaw (x : UInt32) : UInt32 := (x &&& (((1 : UInt32) <<< 22) - 1)) <<< 9
/-- `packets.rs:983-987` -/
def CfgItfmAlgoBits.default : UInt32 := 0x16B156

namespace CfgItfmConfig

/-- `packets.rs:888-895`, `new` -/
def new (enable : Bool) (bbThreshold cwThreshold : UInt32) : CfgItfmConfig :=
  ⟨enable, bbThreshold, cwThreshold, CfgItfmAlgoBits.default⟩

/-- `packets.rs:897-902`, `into_raw` -/
def intoRaw (c : CfgItfmConfig) : UInt32 :=
  boolU32 c.enable <<< 31
    ||| CfgItfmCwThreshold.intoRaw c.cwThreshold
    ||| CfgItfmBbThreshold.intoRaw c.bbThreshold
    ||| CfgItfmAlgoBits.intoRaw c.algorithmBits

/-- `packets.rs:905-918`, `From<u32>`: each part is created from the whole word
(`packets.rs:939-943`, `964-968`, `989-993`). -/
def from_ (cfg : UInt32) : CfgItfmConfig :=
  ⟨decide ((cfg &&& 0x80000000) > 0), cfg, cfg, cfg⟩

/-- `packets.rs:872`, derived `Default`, with the defaults of the parts (`933-937`, `958-962`,
`983-987`) -/
def default : CfgItfmConfig := ⟨false, 3, 15, CfgItfmAlgoBits.default⟩

end CfgItfmConfig

/-- `packets.rs:1070-1078` -/
inductive CfgItfmAntennaSettings where
  | unknown | active | passive
  deriving DecidableEq, Repr

/-- generated `into_raw` for `packets.rs:1066` (`self as u8`) -/
def CfgItfmAntennaSettings.intoRaw : CfgItfmAntennaSettings → UInt8
  | .unknown => 0 | .active => 1 | .passive => 2

/-- `packets.rs:1080-1089`, `From<u32>` -/
def CfgItfmAntennaSettings.from_ (cfg : UInt32) : CfgItfmAntennaSettings :=
  let cfg := (cfg &&& 0x3000) >>> 12
  if cfg = 1 then .active else if cfg = 2 then .passive else .unknown

/-- `packets.rs:997-1006` -/
structure CfgItfmConfig2 where
  general : UInt32
  antenna : CfgItfmAntennaSettings
  scanAuxBands : Bool
  deriving DecidableEq, Repr

/-- `packets.rs:1041-1048`: mask `(1 << 12) - 1`, position 0 -/
def CfgItfmGeneralBits.intoRaw (x : UInt32) : UInt32 := (x &&& (((1 : UInt32) <<< 12) - 1)) <<< 0
/-- `packets.rs:1050-1054` -/
def CfgItfmGeneralBits.default : UInt32 := 0x31E

namespace CfgItfmConfig2

/-- `packets.rs:1009-1015`, `new` -/
def new (antenna : CfgItfmAntennaSettings) (scanAuxBands : Bool) : CfgItfmConfig2 :=
  ⟨CfgItfmGeneralBits.default, antenna, scanAuxBands⟩

/-- `packets.rs:1017-1021`, `into_raw` -/
def intoRaw (c : CfgItfmConfig2) : UInt32 :=
  (boolU32 c.scanAuxBands <<< 14)
    ||| CfgItfmGeneralBits.intoRaw c.general
    ||| c.antenna.intoRaw.toUInt32

/-- `packets.rs:1024-1035`, `From<u32>` -/
def from_ (cfg : UInt32) : CfgItfmConfig2 :=
  ⟨cfg, CfgItfmAntennaSettings.from_ cfg, decide ((cfg &&& 0x4000) > 0)⟩

end CfgItfmConfig2

/-! ## Plain enums of builders -/

/-- `packets.rs:1748-1757`, `ResetMode` (`repr(u8)`) -/
inductive ResetMode where
  | hardwareResetImmediately | controlledSoftwareReset | controlledSoftwareResetGpsOnly
  | hardwareResetAfterShutdown | controlledGpsStop | controlledGpsStart
  deriving DecidableEq, Repr

/-- `packets.rs:1759-1763`, `into_raw`: `self as u8` -/
def ResetMode.intoRaw : ResetMode → UInt8
  | .hardwareResetImmediately => 0
  | .controlledSoftwareReset => 0x1
  | .controlledSoftwareResetGpsOnly => 0x02
  | .hardwareResetAfterShutdown => 0x04
  | .controlledGpsStop => 0x08
  | .controlledGpsStart => 0x09

/-- `packets.rs:2174-2182`, `AlignmentToReferenceTime` (`repr(u16)`) -/
inductive AlignmentToReferenceTime where
  | utc | gps | glo | bds | gal
  deriving DecidableEq, Repr

/-- `packets.rs:2184-2188`, `into_raw`: `self as u16` -/
def AlignmentToReferenceTime.intoRaw : AlignmentToReferenceTime → UInt16
  | .utc => 0 | .gps => 1 | .glo => 2 | .bds => 3 | .gal => 4

/-! ## Strings -/

/-- `core::str::from_utf8(bytes).is_ok()` of the Rust standard library: the well-formed byte
sequences of the Unicode standard (table 3-7), one code point at a time. -/
def utf8Valid : Bytes → Bool
  | [] => true
  | b0 :: rest =>
    if b0 < 0x80 then utf8Valid rest
    else if 0xC2 ≤ b0 ∧ b0 ≤ 0xDF then
      match rest with
      | b1 :: rest => cont 0x80 0xBF b1 && utf8Valid rest
      | _ => false
    else if 0xE0 ≤ b0 ∧ b0 ≤ 0xEF then
      match rest with
      | b1 :: b2 :: rest =>
        cont (if b0 = 0xE0 then 0xA0 else 0x80) (if b0 = 0xED then 0x9F else 0xBF) b1
          && cont 0x80 0xBF b2 && utf8Valid rest
      | _ => false
    else if 0xF0 ≤ b0 ∧ b0 ≤ 0xF4 then
      match rest with
      | b1 :: b2 :: b3 :: rest =>
        cont (if b0 = 0xF0 then 0x90 else 0x80) (if b0 = 0xF4 then 0x8F else 0xBF) b1
          && cont 0x80 0xBF b2 && cont 0x80 0xBF b3 && utf8Valid rest
      | _ => false
    else false
where
  /-- continuation byte in a range -/
  cont (lo hi b : UInt8) : Bool := decide (lo ≤ b ∧ b ≤ hi)

/-- `packets.rs:1211-1216`, `inf::convert_to_str`; a `&str` is represented by its bytes. -/
def Inf.convertToStr (bytes : Bytes) : Option Bytes := if utf8Valid bytes then some bytes else none

/-- `packets.rs:1218-1221`, `inf::is_valid` -/
def Inf.isValid (_bytes : Bytes) : Bool := true

/-- `packets.rs:3099-3106`, `mon_ver::convert_to_str_unchecked` -/
def MonVer.convertToStrUnchecked (bytes : Bytes) : R Bytes := do
  let nullPos ← match bytes.findIdx? (· == 0) with
    | some pos => pure pos
    | none => .error .unwrap
  let s ← sliceRange bytes 0 nullPos
  if utf8Valid s then return s else .error .unwrap

/-- `packets.rs:3108-3116`, `mon_ver::is_cstr_valid` -/
def MonVer.isCstrValid (bytes : Bytes) : R Bool := do
  match bytes.findIdx? (· == 0) with
  | none => return false
  | some nullPos => return utf8Valid (← sliceRange bytes 0 nullPos)

end Ublox
