import Verif.Model.Types

/-! Generated by `tools/gen.py` from the text of `/repo`; do not edit. -/

namespace Ublox.Gen

/-- `ublox/src/ubx_packets/packets.rs:470-481` -/
def gpsFix_ : EnumDesc :=
  { name := "GpsFix", fromFn := some .from, rest := some .reserved, intoRaw := false,
    variants := [("NoFix", 0),
      ("DeadReckoningOnly", 1),
      ("Fix2D", 2),
      ("Fix3D", 3),
      ("GPSPlusDeadReckoning", 4),
      ("TimeOnlyFix", 5)] }

/-- `ublox/src/ubx_packets/packets.rs:549-558` -/
def navStatusFlags2_ : EnumDesc :=
  { name := "NavStatusFlags2", fromFn := some .from, rest := some .reserved, intoRaw := false,
    variants := [("Acquisition", 0),
      ("Tracking", 1),
      ("PowerOptimizedTracking", 2),
      ("Inactive", 3)] }

/-- `ublox/src/ubx_packets/packets.rs:847-858` -/
def odoProfile_ : EnumDesc :=
  { name := "OdoProfile", fromFn := some .fromUnchecked, rest := some .errorProne, intoRaw := true,
    variants := [("Running", 0),
      ("Cycling", 1),
      ("Swimming", 2),
      ("Car", 3),
      ("Custom", 4)] }

/-- `ublox/src/ubx_packets/packets.rs:1065-1078` -/
def cfgItfmAntennaSettings_ : EnumDesc :=
  { name := "CfgItfmAntennaSettings", fromFn := some .fromUnchecked, rest := some .errorProne, intoRaw := true,
    variants := [("Unknown", 0),
      ("Active", 1),
      ("Passive", 2)] }

/-- `ublox/src/ubx_packets/packets.rs:1411-1419` -/
def cfgTp5TimePulseMode_ : EnumDesc :=
  { name := "CfgTp5TimePulseMode", fromFn := some .fromUnchecked, rest := some .errorProne, intoRaw := true,
    variants := [("TimePulse", 0),
      ("TimePulse2", 1)] }

/-- `ublox/src/ubx_packets/packets.rs:1461-1472` -/
def cfgTmode2TimeXferModes_ : EnumDesc :=
  { name := "CfgTmode2TimeXferModes", fromFn := some .fromUnchecked, rest := some .errorProne, intoRaw := true,
    variants := [("Disabled", 0),
      ("SurveyIn", 1),
      ("FixedMode", 2)] }

/-- `ublox/src/ubx_packets/packets.rs:1862-1869` -/
def i2cPortId_ : EnumDesc :=
  { name := "I2cPortId", fromFn := some .fromUnchecked, rest := some .errorProne, intoRaw := true,
    variants := [("I2c", 0)] }

/-- `ublox/src/ubx_packets/packets.rs:1891-1899` -/
def uartPortId_ : EnumDesc :=
  { name := "UartPortId", fromFn := some .fromUnchecked, rest := some .errorProne, intoRaw := true,
    variants := [("Uart1", 1),
      ("Uart2", 2),
      ("Usb", 3)] }

/-- `ublox/src/ubx_packets/packets.rs:2098-2105` -/
def spiPortId_ : EnumDesc :=
  { name := "SpiPortId", fromFn := some .fromUnchecked, rest := some .errorProne, intoRaw := true,
    variants := [("Spi", 4)] }

/-- `ublox/src/ubx_packets/packets.rs:2338-2356` -/
def cfgNav5DynModel_ : EnumDesc :=
  { name := "CfgNav5DynModel", fromFn := some .fromUnchecked, rest := some .errorProne, intoRaw := true,
    variants := [("Portable", 0),
      ("Stationary", 2),
      ("Pedestrian", 3),
      ("Automotive", 4),
      ("Sea", 5),
      ("AirborneWithLess1gAcceleration", 6),
      ("AirborneWithLess2gAcceleration", 7),
      ("AirborneWith4gAcceleration", 8),
      ("WristWornWatch", 9),
      ("Bike", 10)] }

/-- `ublox/src/ubx_packets/packets.rs:2360-2369` -/
def cfgNav5FixMode_ : EnumDesc :=
  { name := "CfgNav5FixMode", fromFn := some .fromUnchecked, rest := some .errorProne, intoRaw := true,
    variants := [("Only2D", 1),
      ("Only3D", 2),
      ("Auto2D3D", 3)] }

/-- `ublox/src/ubx_packets/packets.rs:2373-2389` -/
def cfgNav5UtcStandard_ : EnumDesc :=
  { name := "CfgNav5UtcStandard", fromFn := some .fromUnchecked, rest := some .errorProne, intoRaw := true,
    variants := [("Automatic", 0),
      ("Usno", 3),
      ("UtcSu", 6),
      ("UtcChina", 7)] }

/-- `ublox/src/ubx_packets/packets.rs:2601-2613` -/
def msgAckInfoCode_ : EnumDesc :=
  { name := "MsgAckInfoCode", fromFn := some .from, rest := some .reserved, intoRaw := false,
    variants := [("Accepted", 0),
      ("RejectedNoTime", 1),
      ("RejectedBadVersion", 2),
      ("RejectedBadSize", 3),
      ("RejectedDBStoreFailed", 4),
      ("RejectedNotReady", 5),
      ("RejectedUnknownType", 6)] }

/-- `ublox/src/ubx_packets/packets.rs:2989-2999` -/
def antennaStatus_ : EnumDesc :=
  { name := "AntennaStatus", fromFn := some .from, rest := some .reserved, intoRaw := false,
    variants := [("Init", 0),
      ("DontKnow", 1),
      ("Ok", 2),
      ("Short", 3),
      ("Open", 4)] }

/-- `ublox/src/ubx_packets/packets.rs:3040-3048` -/
def antennaPower_ : EnumDesc :=
  { name := "AntennaPower", fromFn := some .from, rest := some .reserved, intoRaw := false,
    variants := [("Off", 0),
      ("On", 1),
      ("DontKnow", 2)] }

/-- `ublox/src/ubx_packets/packets.rs:170-178` -/
def navHpPosEcefFlags_ : FlagsDesc :=
  { name := "NavHpPosEcefFlags", nbits := 8, from_ := true, intoRaw := true,
    consts := [("INVALID_ECEF", 0x1)] }

/-- `ublox/src/ubx_packets/packets.rs:308-323` -/
def navPvtFlags_ : FlagsDesc :=
  { name := "NavPvtFlags", nbits := 8, from_ := true, intoRaw := false,
    consts := [("GPS_FIX_OK", 0x1),
      ("DIFF_SOLN", 0x2),
      ("HEAD_VEH_VALID", 0x20),
      ("CARR_SOLN_FLOAT", 0x40),
      ("CARR_SOLN_FIXED", 0x80)] }

/-- `ublox/src/ubx_packets/packets.rs:325-342` -/
def navPvtFlags2_ : FlagsDesc :=
  { name := "NavPvtFlags2", nbits := 8, from_ := true, intoRaw := false,
    consts := [("CONFIRMED_AVAI", 0x20),
      ("CONFIRMED_DATE", 0x40),
      ("CONFIRMED_TIME", 0x80)] }

/-- `ublox/src/ubx_packets/packets.rs:483-498` -/
def navStatusFlags_ : FlagsDesc :=
  { name := "NavStatusFlags", nbits := 8, from_ := true, intoRaw := false,
    consts := [("GPS_FIX_OK", 0x1),
      ("DIFF_SOLN", 0x2),
      ("WKN_SET", 0x4),
      ("TOW_SET", 0x8)] }

/-- `ublox/src/ubx_packets/packets.rs:829-843` -/
def odoCogFilterFlags_ : FlagsDesc :=
  { name := "OdoCogFilterFlags", nbits := 8, from_ := true, intoRaw := true,
    consts := [("USE_ODO", 0x1),
      ("USE_COG", 0x2),
      ("OUT_LP_VEL", 0x4),
      ("OUT_LP_COG", 0x8)] }

/-- `ublox/src/ubx_packets/packets.rs:1116-1128` -/
def cfgInfMask_ : FlagsDesc :=
  { name := "CfgInfMask", nbits := 8, from_ := true, intoRaw := true,
    consts := [("ERROR", 0x1),
      ("WARNING", 0x2),
      ("NOTICE", 0x4),
      ("TEST", 0x8),
      ("DEBUG", 0x10)] }

/-- `ublox/src/ubx_packets/packets.rs:1346-1362` -/
def antFlags_ : FlagsDesc :=
  { name := "AntFlags", nbits := 16, from_ := true, intoRaw := true,
    consts := [("SVCS", 0x1),
      ("SCD", 0x2),
      ("OCD", 0x4),
      ("PDWN_ON_SCD", 0x8),
      ("RECOVERY", 0x10)] }

/-- `ublox/src/ubx_packets/packets.rs:1474-1485` -/
def cfgTmode2Flags_ : FlagsDesc :=
  { name := "CfgTmode2Flags", nbits := 16, from_ := true, intoRaw := true,
    consts := [("LLA", 0x1),
      ("ALT_INVALID", 0x2)] }

/-- `ublox/src/ubx_packets/packets.rs:1562-1574` -/
def navTimeLsFlags_ : FlagsDesc :=
  { name := "NavTimeLsFlags", nbits := 8, from_ := true, intoRaw := false,
    consts := [("VALID_CURR_LS", 0x1),
      ("VALID_TIME_TO_LS_EVENT", 0x2)] }

/-- `ublox/src/ubx_packets/packets.rs:1632-1642` -/
def cfgTmode3RcvrMode_ : FlagsDesc :=
  { name := "CfgTmode3RcvrMode", nbits := 8, from_ := true, intoRaw := true,
    consts := [("DISABLED", 0x1),
      ("SURVEY_IN", 0x2),
      ("FIXED_MODE", 0x4)] }

/-- `ublox/src/ubx_packets/packets.rs:1644-1693` -/
def cfgTp5Flags_ : FlagsDesc :=
  { name := "CfgTp5Flags", nbits := 32, from_ := true, intoRaw := true,
    consts := [("ACTIVE", 0x1),
      ("LOCK_GNSS_FREQ", 0x2),
      ("LOCKED_OTHER_SET", 0x4),
      ("IS_FREQ", 0x8),
      ("IS_LENGTH", 0x10),
      ("ALIGN_TO_TOW", 0x20),
      ("POLARITY", 0x40),
      ("UTC_TIME_GRID", 0x80),
      ("GPS_TIME_GRID", 0x100),
      ("GLO_TIME_GRID", 0x200),
      ("BDS_TIME_GRID", 0x400),
      ("GAL_TIME_GRID", 0x800),
      ("SYNC_MODE_0", 0x1000),
      ("SYNC_MODE_1", 0x2000)] }

/-- `ublox/src/ubx_packets/packets.rs:1695-1704` -/
def cfgTmode3Flags_ : FlagsDesc :=
  { name := "CfgTmode3Flags", nbits := 8, from_ := true, intoRaw := true,
    consts := [("LLA", 0x1)] }

/-- `ublox/src/ubx_packets/packets.rs:1706-1725` -/
def navBbrMask_ : FlagsDesc :=
  { name := "NavBbrMask", nbits := 16, from_ := false, intoRaw := true,
    consts := [("EPHEMERIS", 0x1),
      ("ALMANACH", 0x2),
      ("HEALTH", 0x4),
      ("KLOBUCHARD", 0x8),
      ("POSITION", 0x10),
      ("CLOCK_DRIFT", 0x20),
      ("OSCILATOR_PARAMETER", 0x40),
      ("UTC_CORRECTION_PARAMETERS", 0x80),
      ("RTC", 0x100),
      ("SFDR_PARAMETERS", 0x800),
      ("SFDR_VEHICLE_MONITORING_PARAMETERS", 0x1000),
      ("TCT_PARAMETERS", 0x2000),
      ("AUTONOMOUS_ORBIT_PARAMETERS", 0x8000)] }

/-- `ublox/src/ubx_packets/packets.rs:1818-1827` -/
def cfgLayer_ : FlagsDesc :=
  { name := "CfgLayer", nbits := 8, from_ := true, intoRaw := true,
    consts := [("RAM", 0x1),
      ("BBR", 0x2),
      ("FLASH", 0x4)] }

/-- `ublox/src/ubx_packets/packets.rs:2061-2077` -/
def inProtoMask_ : FlagsDesc :=
  { name := "InProtoMask", nbits := 16, from_ := true, intoRaw := true,
    consts := [("UBLOX", 0x1),
      ("NMEA", 0x2),
      ("RTCM", 0x4),
      ("RTCM3", 0x20)] }

/-- `ublox/src/ubx_packets/packets.rs:2079-2094` -/
def outProtoMask_ : FlagsDesc :=
  { name := "OutProtoMask", nbits := 16, from_ := true, intoRaw := true,
    consts := [("UBLOX", 0x1),
      ("NMEA", 0x2),
      ("RTCM3", 0x20)] }

/-- `ublox/src/ubx_packets/packets.rs:2141-2154` -/
def navTimeUtcFlags_ : FlagsDesc :=
  { name := "NavTimeUtcFlags", nbits := 8, from_ := true, intoRaw := false,
    consts := [("VALID_TOW", 0x1),
      ("VALID_WKN", 0x2),
      ("VALID_UTC", 0x4)] }

/-- `ublox/src/ubx_packets/packets.rs:2307-2334` -/
def cfgNav5Params_ : FlagsDesc :=
  { name := "CfgNav5Params", nbits := 16, from_ := true, intoRaw := true,
    consts := [("DYN", 0x1),
      ("MIN_EL", 0x2),
      ("POS_FIX_MODE", 0x4),
      ("DR_LIM", 0x8),
      ("POS_MASK_APPLY", 0x10),
      ("TIME_MASK", 0x20),
      ("STATIC_HOLD_MASK", 0x40),
      ("DGPS_MASK", 0x80),
      ("CNO_THRESHOLD", 0x100),
      ("UTC", 0x400)] }

/-- `ublox/src/ubx_packets/packets.rs:2543-2564` -/
def cfgNavX5Params1_ : FlagsDesc :=
  { name := "CfgNavX5Params1", nbits := 16, from_ := true, intoRaw := true,
    consts := [("MIN_MAX", 0x4),
      ("MIN_CNO", 0x8),
      ("INITIAL_3D_FIX", 0x40),
      ("WKN_ROLL", 0x200),
      ("AID_ACK", 0x400),
      ("USE_PPP", 0x2000),
      ("AOP_CFG", 0x4000)] }

/-- `ublox/src/ubx_packets/packets.rs:2566-2577` -/
def cfgNavX5Params2_ : FlagsDesc :=
  { name := "CfgNavX5Params2", nbits := 32, from_ := true, intoRaw := true,
    consts := [("USE_ADR", 0x40),
      ("USE_SIG_ATTEN_COMP", 0x80)] }

/-- `ublox/src/ubx_packets/packets.rs:2951-2962` -/
def recStatFlags_ : FlagsDesc :=
  { name := "RecStatFlags", nbits := 8, from_ := true, intoRaw := true,
    consts := [("LEAP_SEC", 0x1),
      ("CLK_RESET", 0x2)] }

/-- `ublox/src/ubx_packets/packets.rs:3023-3038` -/
def monGnssConstellMask_ : FlagsDesc :=
  { name := "MonGnssConstellMask", nbits := 8, from_ := true, intoRaw := true,
    consts := [("GPS", 0x1),
      ("GLO", 0x2),
      ("BDC", 0x4),
      ("GAL", 0x8)] }

/-- `ublox/src/ubx_packets/packets.rs:3279-3292` -/
def esfInsBitFlags_ : FlagsDesc :=
  { name := "EsfInsBitFlags", nbits := 32, from_ := true, intoRaw := false,
    consts := [("VERSION", 0x1),
      ("X_ANG_RATE_VALID", 0x100),
      ("Y_ANG_RATE_VALID", 0x200),
      ("Z_ANG_RATE_VALID", 0x400),
      ("X_ACCEL_VALID", 0x800),
      ("Y_ACCEL_VALID", 0x1000),
      ("Z_ACCEL_VALID", 0x2000)] }

/-- `ublox/src/ubx_packets/packets.rs:3341-3354` -/
def hnrInsBitFlags_ : FlagsDesc :=
  { name := "HnrInsBitFlags", nbits := 32, from_ := true, intoRaw := false,
    consts := [("VERSION", 0x1),
      ("X_ANG_RATE_VALID", 0x100),
      ("Y_ANG_RATE_VALID", 0x200),
      ("Z_ANG_RATE_VALID", 0x400),
      ("X_ACCEL_VALID", 0x800),
      ("Y_ACCEL_VALID", 0x1000),
      ("Z_ACCEL_VALID", 0x2000)] }

/-- `ublox/src/ubx_packets/packets.rs:3443-3458` -/
def hnrPvtFlags_ : FlagsDesc :=
  { name := "HnrPvtFlags", nbits := 8, from_ := true, intoRaw := false,
    consts := [("GPS_FIX_OK", 0x1),
      ("DIFF_SOLN", 0x2),
      ("WKN_SET", 0x4),
      ("TOW_SET", 0x8),
      ("HEAD_VEH_VALID", 0x10)] }

/-- `ublox/src/ubx_packets/packets.rs:3460-3469` -/
def hnrPvtValidFlags_ : FlagsDesc :=
  { name := "HnrPvtValidFlags", nbits := 8, from_ := true, intoRaw := false,
    consts := [("VALID_DATE", 0x1),
      ("VALID_TIME", 0x2),
      ("FULLY_RESOLVED", 0x4)] }

/-- `ublox/src/ubx_packets/packets.rs:3605-3615` -/
def stdevFlags_ : FlagsDesc :=
  { name := "StdevFlags", nbits := 8, from_ := true, intoRaw := false,
    consts := [("STD_1", 0x1),
      ("STD_2", 0x2),
      ("STD_3", 0x4),
      ("STD_4", 0x8)] }

/-- `ublox/src/ubx_packets/packets.rs:3617-3627` -/
def trkStatFlags_ : FlagsDesc :=
  { name := "TrkStatFlags", nbits := 8, from_ := true, intoRaw := false,
    consts := [("PR_VALID", 0x1),
      ("CP_VALID", 0x2),
      ("HALF_CYCLE", 0x4),
      ("SUB_HALF_CYCLE", 0x8)] }

/-- All enums declared with `#[ubx_extend]` in `ublox/src/ubx_packets/packets.rs`. -/
def allEnums : List EnumDesc :=
  [gpsFix_,
    navStatusFlags2_,
    odoProfile_,
    cfgItfmAntennaSettings_,
    cfgTp5TimePulseMode_,
    cfgTmode2TimeXferModes_,
    i2cPortId_,
    uartPortId_,
    spiPortId_,
    cfgNav5DynModel_,
    cfgNav5FixMode_,
    cfgNav5UtcStandard_,
    msgAckInfoCode_,
    antennaStatus_,
    antennaPower_]

/-- All types declared with `#[ubx_extend_bitflags]` in `ublox/src/ubx_packets/packets.rs`. -/
def allFlags : List FlagsDesc :=
  [navHpPosEcefFlags_,
    navPvtFlags_,
    navPvtFlags2_,
    navStatusFlags_,
    odoCogFilterFlags_,
    cfgInfMask_,
    antFlags_,
    cfgTmode2Flags_,
    navTimeLsFlags_,
    cfgTmode3RcvrMode_,
    cfgTp5Flags_,
    cfgTmode3Flags_,
    navBbrMask_,
    cfgLayer_,
    inProtoMask_,
    outProtoMask_,
    navTimeUtcFlags_,
    cfgNav5Params_,
    cfgNavX5Params1_,
    cfgNavX5Params2_,
    recStatFlags_,
    monGnssConstellMask_,
    esfInsBitFlags_,
    hnrInsBitFlags_,
    hnrPvtFlags_,
    hnrPvtValidFlags_,
    stdevFlags_,
    trkStatFlags_]

end Ublox.Gen
