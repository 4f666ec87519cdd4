import Verif.Model.Exec

/-!
# Values of the crate as values of the language

How the values that the model uses are written in the language of `Verif.Model.Exec`: a structure or variant
under its name in `/repo`, with its fields in the order of the declaration.
-/

namespace Ublox.Spec

open Exec

/-- `T(v)`, a structure without names of fields -/
def wrapV (ty : Code.Name) (v : W) : W := .adt [ty] [v]
/-- `T::x` -/
def varV (ty x : Code.Name) : W := .adt [ty, x] []

/-- A function that does not change its receiver returns a value. -/
def returns {α : Type} (r : R α) (self : W) (enc : α → W) : Code.O (W × W) :=
  Code.lift r fun a => .ok (enc a, self)

/-- `MapMatchingStatus` -/
def mapMatchingV : MapMatchingStatus → W
  | .none => varV i!"MapMatchingStatus" i!"None"
  | .valid => varV i!"MapMatchingStatus" i!"Valid"
  | .used => varV i!"MapMatchingStatus" i!"Used"
  | .dr => varV i!"MapMatchingStatus" i!"Dr"

/-- `NavSatQualityIndicator` -/
def qualityV : NavSatQualityIndicator → W
  | .noSignal => varV i!"NavSatQualityIndicator" i!"NoSignal"
  | .searching => varV i!"NavSatQualityIndicator" i!"Searching"
  | .signalAcquired => varV i!"NavSatQualityIndicator" i!"SignalAcquired"
  | .signalDetected => varV i!"NavSatQualityIndicator" i!"SignalDetected"
  | .codeLock => varV i!"NavSatQualityIndicator" i!"CodeLock"
  | .carrierLock => varV i!"NavSatQualityIndicator" i!"CarrierLock"

/-- `NavSatSvHealth` -/
def healthV : NavSatSvHealth → W
  | .healthy => varV i!"NavSatSvHealth" i!"Healthy"
  | .unhealthy => varV i!"NavSatSvHealth" i!"Unhealthy"
  | .unknown x => .adt [i!"NavSatSvHealth", i!"Unknown"] [.u8 x]

/-- `NavSatOrbitSource` -/
def orbitV : NavSatOrbitSource → W
  | .noInfoAvailable => varV i!"NavSatOrbitSource" i!"NoInfoAvailable"
  | .ephemeris => varV i!"NavSatOrbitSource" i!"Ephemeris"
  | .almanac => varV i!"NavSatOrbitSource" i!"Almanac"
  | .assistNowOffline => varV i!"NavSatOrbitSource" i!"AssistNowOffline"
  | .assistNowAutonomous => varV i!"NavSatOrbitSource" i!"AssistNowAutonomous"
  | .other x => .adt [i!"NavSatOrbitSource", i!"Other"] [.u8 x]

/-- `TimTpTimeBase` -/
def tpTimeBaseV : TimTpTimeBase → W
  | .gnss => varV i!"TimTpTimeBase" i!"Gnss"
  | .utc => varV i!"TimTpTimeBase" i!"Utc"

/-- `TimTpRefInfoTimeRefGnss` -/
def refGnssV : TimTpRefInfoTimeRefGnss → W
  | .gps => varV i!"TimTpRefInfoTimeRefGnss" i!"Gps"
  | .glo => varV i!"TimTpRefInfoTimeRefGnss" i!"Glo"
  | .bds => varV i!"TimTpRefInfoTimeRefGnss" i!"Bds"
  | .gal => varV i!"TimTpRefInfoTimeRefGnss" i!"Gal"
  | .navIc => varV i!"TimTpRefInfoTimeRefGnss" i!"NavIc"

/-- `TimTpRefInfoUtcStandard` -/
def utcStandardV : TimTpRefInfoUtcStandard → W
  | .crl => varV i!"TimTpRefInfoUtcStandard" i!"Crl"
  | .nist => varV i!"TimTpRefInfoUtcStandard" i!"Nist"
  | .usno => varV i!"TimTpRefInfoUtcStandard" i!"Usno"
  | .bipm => varV i!"TimTpRefInfoUtcStandard" i!"Bipm"
  | .eu => varV i!"TimTpRefInfoUtcStandard" i!"Eu"
  | .su => varV i!"TimTpRefInfoUtcStandard" i!"Su"
  | .ntsc => varV i!"TimTpRefInfoUtcStandard" i!"Ntsc"
  | .npli => varV i!"TimTpRefInfoUtcStandard" i!"Npli"

/-- `TimTm2Mode` -/
def tm2ModeV : TimTm2Mode → W
  | .single => varV i!"TimTm2Mode" i!"Single"
  | .running => varV i!"TimTm2Mode" i!"Running"

/-- `TimTm2Run` -/
def tm2RunV : TimTm2Run → W
  | .armed => varV i!"TimTm2Run" i!"Armed"
  | .stopped => varV i!"TimTm2Run" i!"Stopped"

/-- `TimTm2TimeBase` -/
def tm2TimeBaseV : TimTm2TimeBase → W
  | .receiver => varV i!"TimTm2TimeBase" i!"Receiver"
  | .gnss => varV i!"TimTm2TimeBase" i!"Gnss"
  | .utc => varV i!"TimTm2TimeBase" i!"Utc"

/-- `DataBits` -/
def dataBitsV : DataBits → W
  | .seven => varV i!"DataBits" i!"Seven"
  | .eight => varV i!"DataBits" i!"Eight"

/-- `Parity` -/
def parityV : Parity → W
  | .even => varV i!"Parity" i!"Even"
  | .odd => varV i!"Parity" i!"Odd"
  | .none => varV i!"Parity" i!"None"

/-- `StopBits` -/
def stopBitsV : StopBits → W
  | .one => varV i!"StopBits" i!"One"
  | .oneHalf => varV i!"StopBits" i!"OneHalf"
  | .two => varV i!"StopBits" i!"Two"
  | .half => varV i!"StopBits" i!"Half"

/-- `UartMode` -/
def uartModeV (m : UartMode) : W :=
  .struct i!"UartMode" [(i!"data_bits", dataBitsV m.dataBits), (i!"parity", parityV m.parity),
    (i!"stop_bits", stopBitsV m.stopBits)]

/-- `CfgItfmConfig` -/
def itfmConfigV (x : CfgItfmConfig) : W :=
  .struct i!"CfgItfmConfig" [(i!"enable", .bool x.enable),
    (i!"bb_threshold", wrapV i!"CfgItfmBbThreshold" (.u32 x.bbThreshold)),
    (i!"cw_threshold", wrapV i!"CfgItfmCwThreshold" (.u32 x.cwThreshold)),
    (i!"algorithm_bits", wrapV i!"CfgItfmAlgoBits" (.u32 x.algorithmBits))]

/-- `CfgItfmAntennaSettings` -/
def antennaV : CfgItfmAntennaSettings → W
  | .unknown => varV i!"CfgItfmAntennaSettings" i!"Unknown"
  | .active => varV i!"CfgItfmAntennaSettings" i!"Active"
  | .passive => varV i!"CfgItfmAntennaSettings" i!"Passive"

/-- `CfgItfmConfig2` -/
def itfmConfig2V (x : CfgItfmConfig2) : W :=
  .struct i!"CfgItfmConfig2" [(i!"general", wrapV i!"CfgItfmGeneralBits" (.u32 x.general)),
    (i!"antenna", antennaV x.antenna), (i!"scan_aux_bands", .bool x.scanAuxBands)]

/-- `ResetMode` -/
def resetModeV : ResetMode → W
  | .hardwareResetImmediately => varV i!"ResetMode" i!"HardwareResetImmediately"
  | .controlledSoftwareReset => varV i!"ResetMode" i!"ControlledSoftwareReset"
  | .controlledSoftwareResetGpsOnly => varV i!"ResetMode" i!"ControlledSoftwareResetGpsOnly"
  | .hardwareResetAfterShutdown => varV i!"ResetMode" i!"HardwareResetAfterShutdown"
  | .controlledGpsStop => varV i!"ResetMode" i!"ControlledGpsStop"
  | .controlledGpsStart => varV i!"ResetMode" i!"ControlledGpsStart"

/-- `AlignmentToReferenceTime` -/
def alignmentV : AlignmentToReferenceTime → W
  | .utc => varV i!"AlignmentToReferenceTime" i!"Utc"
  | .gps => varV i!"AlignmentToReferenceTime" i!"Gps"
  | .glo => varV i!"AlignmentToReferenceTime" i!"Glo"
  | .bds => varV i!"AlignmentToReferenceTime" i!"Bds"
  | .gal => varV i!"AlignmentToReferenceTime" i!"Gal"

/-- `StorageSize` -/
def storageSizeV : StorageSize → W
  | .oneBit => varV i!"StorageSize" i!"OneBit"
  | .oneByte => varV i!"StorageSize" i!"OneByte"
  | .twoBytes => varV i!"StorageSize" i!"TwoBytes"
  | .fourBytes => varV i!"StorageSize" i!"FourBytes"
  | .eightBytes => varV i!"StorageSize" i!"EightBytes"

/-- `UbxChecksumCalc` -/
def calcV (x : ChecksumCalc) : W := .struct i!"UbxChecksumCalc" [(i!"ck_a", .u8 x.ckA), (i!"ck_b", .u8 x.ckB)]

/-- `Position` -/
def positionV (x : Position) : W :=
  .struct i!"Position" [(i!"lon", .fl fmt64 x.lon), (i!"lat", .fl fmt64 x.lat), (i!"alt", .fl fmt64 x.alt)]

/-- `PositionECEF` -/
def ecefV (p : PositionECEF) : W :=
  .struct i!"PositionECEF" [(i!"x", .fl fmt64 p.x), (i!"y", .fl fmt64 p.y), (i!"z", .fl fmt64 p.z)]

/-- `Velocity` -/
def velocityV (x : Velocity) : W :=
  .struct i!"Velocity" [(i!"speed", .fl fmt64 x.speed), (i!"heading", .fl fmt64 x.heading)]

/-- `DateTimeError` -/
def dateTimeErrorV : DateTimeError → W
  | .invalidDate => varV i!"DateTimeError" i!"InvalidDate"
  | .invalidTime => varV i!"DateTimeError" i!"InvalidTime"
  | .invalidNanoseconds => varV i!"DateTimeError" i!"InvalidNanoseconds"

/-- `Result<DateTime<Utc>, DateTimeError>` -/
def dateTimeResultV : Except DateTimeError DateTime → W
  | .ok t => okV (.dateTime t)
  | .error e => errV (dateTimeErrorV e)

/-- `AidIniBuilder` -/
def aidIniV (b : AidIniBuilder) : W :=
  .struct i!"AidIniBuilder" [(i!"ecef_x_or_lat", .i32 b.ecefXOrLat), (i!"ecef_y_or_lon", .i32 b.ecefYOrLon),
    (i!"ecef_z_or_alt", .i32 b.ecefZOrAlt), (i!"pos_accuracy", .u32 b.posAccuracy), (i!"time_cfg", .u16 b.timeCfg),
    (i!"week_or_ym", .u16 b.weekOrYm), (i!"tow_or_hms", .u32 b.towOrHms), (i!"tow_ns", .i32 b.towNs),
    (i!"tm_accuracy_ms", .u32 b.tmAccuracyMs), (i!"tm_accuracy_ns", .u32 b.tmAccuracyNs),
    (i!"clk_drift_or_freq", .i32 b.clkDriftOrFreq),
    (i!"clk_drift_or_freq_accuracy", .u32 b.clkDriftOrFreqAccuracy), (i!"flags", .u32 b.flags)]

/-- The types of the iterators -/
def iterName : IterKind → Code.Name
  | .navSat => i!"NavSatIter"
  | .monVerExt => i!"MonVerExtensionIter"
  | .esfMeas => i!"EsfMeasDataIter"
  | .esfRaw => i!"EsfRawDataIter"
  | .dwrd => i!"DwrdIter"
  | .rxmRawx => i!"RxmRawxInfoIter"

/-- Size of a block of an iterator around `ChunksExact` -/
def exactSize : IterKind → Nat
  | .esfRaw => 8
  | .rxmRawx => 32
  | _ => 4

/-- The state of an iterator -/
def blockIterV (k : IterKind) : IterState → W
  | .offset data off => .struct (iterName k) [(i!"data", .bytes data), (i!"offset", .usize off)]
  | .chunks rest => wrapV (iterName k) (.chunks (exactSize k) rest)

/-- An item -/
def itemV : IterItem → W
  | .sv data => wrapV i!"NavSatSvInfoRef" (.bytes data)
  | .str s => .str s
  | .esfMeas ty x => .struct i!"EsfMeasData" [(i!"data_type", .u8 ty), (i!"data_field", .u32 x)]
  | .esfRaw ty x t =>
    .struct i!"EsfRawData" [(i!"data_type", .u8 ty), (i!"data_field", .u32 x), (i!"sensor_time_tag", .u32 t)]
  | .rawx data => wrapV i!"RxmRawxInfoRef" (.bytes data)
  | .word w => .u32 w

/-- `CfgValIter` -/
def cfgIterV (it : CfgValIter) : W :=
  .struct i!"CfgValIter" [(i!"data", .bytes it.data), (i!"offset", .usize it.offset)]

/-- `Result<(), MemWriterError<..>>`, if it is not an error -/
def okUnitV : W := okV .unit

end Ublox.Spec
