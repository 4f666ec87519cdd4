import Verif.Spec.Bits

/-!
# Codes of the interface description

What the named values of enumerations and the named flags stand for, as the u-blox interface
description defines the bit fields.  Like the tables of `Spec/Protocol.lean` they are written down
from that document, not from the code; the names are those of the crate.
-/

namespace Ublox.Spec.Codes

/-- What a named flag says about the number of the field. -/
inductive Meaning where
  /-- bit `k` is set -/
  | bit (k : Nat)
  /-- the `n` bits from `lo` on have the value `v`; `defined` are the values with a meaning -/
  | value (lo n v : Nat) (defined : List Nat)
  deriving DecidableEq, Repr

/-- The number says so. -/
def Meaning.holds (x : Nat) : Meaning → Bool
  | .bit k => Spec.bit x k
  | .value lo n v _ => field x lo n == v

/-- The number has a meaning. -/
def Meaning.defines (x : Nat) : Meaning → Bool
  | .bit _ => true
  | .value lo n _ l => l.contains (field x lo n)

/-- Named bits from bit 0 on. -/
def bitsFrom (k : Nat) : List String → List (String × Meaning)
  | [] => []
  | s :: l => (s, .bit k) :: bitsFrom (k + 1) l

/-- The flags of all types. -/
def flagCodes : List (String × List (String × Meaning)) :=
  [("NavHpPosEcefFlags", [("INVALID_ECEF", .bit 0)]),
   -- NAV-PVT flags: carrSoln is bits 7..6: 0 none, 1 float, 2 fixed
   ("NavPvtFlags", [("GPS_FIX_OK", .bit 0), ("DIFF_SOLN", .bit 1), ("HEAD_VEH_VALID", .bit 5),
     ("CARR_SOLN_FLOAT", .value 6 2 1 [0, 1, 2]), ("CARR_SOLN_FIXED", .value 6 2 2 [0, 1, 2])]),
   ("NavPvtFlags2", bitsFrom 5 ["CONFIRMED_AVAI", "CONFIRMED_DATE", "CONFIRMED_TIME"]),
   ("NavStatusFlags", bitsFrom 0 ["GPS_FIX_OK", "DIFF_SOLN", "WKN_SET", "TOW_SET"]),
   ("OdoCogFilterFlags", bitsFrom 0 ["USE_ODO", "USE_COG", "OUT_LP_VEL", "OUT_LP_COG"]),
   ("CfgInfMask", bitsFrom 0 ["ERROR", "WARNING", "NOTICE", "TEST", "DEBUG"]),
   ("AntFlags", bitsFrom 0 ["SVCS", "SCD", "OCD", "PDWN_ON_SCD", "RECOVERY"]),
   ("CfgTmode2Flags", bitsFrom 0 ["LLA", "ALT_INVALID"]),
   ("NavTimeLsFlags", bitsFrom 0 ["VALID_CURR_LS", "VALID_TIME_TO_LS_EVENT"]),
   -- CFG-TMODE3 flags: rcvrMode is bits 7..0
   ("CfgTmode3RcvrMode", [("DISABLED", .value 0 8 0 [0, 1, 2]), ("SURVEY_IN", .value 0 8 1 [0, 1, 2]),
     ("FIXED_MODE", .value 0 8 2 [0, 1, 2])]),
   -- CFG-TP5 flags: gridUtcGnss is bits 10..7, syncMode bits 13..11
   ("CfgTp5Flags", bitsFrom 0 ["ACTIVE", "LOCK_GNSS_FREQ", "LOCKED_OTHER_SET", "IS_FREQ",
       "IS_LENGTH", "ALIGN_TO_TOW", "POLARITY"] ++
     [("UTC_TIME_GRID", .value 7 4 0 [0, 1, 2, 3, 4]), ("GPS_TIME_GRID", .value 7 4 1 [0, 1, 2, 3, 4]),
      ("GLO_TIME_GRID", .value 7 4 2 [0, 1, 2, 3, 4]), ("BDS_TIME_GRID", .value 7 4 3 [0, 1, 2, 3, 4]),
      ("GAL_TIME_GRID", .value 7 4 4 [0, 1, 2, 3, 4]), ("SYNC_MODE_0", .value 11 3 0 [0, 1]),
      ("SYNC_MODE_1", .value 11 3 1 [0, 1])]),
   ("CfgTmode3Flags", [("LLA", .bit 0)]),
   ("NavBbrMask", bitsFrom 0 ["EPHEMERIS", "ALMANACH", "HEALTH", "KLOBUCHARD", "POSITION",
       "CLOCK_DRIFT", "OSCILATOR_PARAMETER", "UTC_CORRECTION_PARAMETERS", "RTC"] ++
     bitsFrom 11 ["SFDR_PARAMETERS", "SFDR_VEHICLE_MONITORING_PARAMETERS", "TCT_PARAMETERS"] ++
     [("AUTONOMOUS_ORBIT_PARAMETERS", .bit 15)]),
   ("CfgLayer", bitsFrom 0 ["RAM", "BBR", "FLASH"]),
   ("InProtoMask", bitsFrom 0 ["UBLOX", "NMEA", "RTCM"] ++ [("RTCM3", .bit 5)]),
   ("OutProtoMask", bitsFrom 0 ["UBLOX", "NMEA"] ++ [("RTCM3", .bit 5)]),
   ("NavTimeUtcFlags", bitsFrom 0 ["VALID_TOW", "VALID_WKN", "VALID_UTC"]),
   ("CfgNav5Params", bitsFrom 0 ["DYN", "MIN_EL", "POS_FIX_MODE", "DR_LIM", "POS_MASK_APPLY",
       "TIME_MASK", "STATIC_HOLD_MASK", "DGPS_MASK", "CNO_THRESHOLD"] ++ [("UTC", .bit 10)]),
   ("CfgNavX5Params1", [("MIN_MAX", .bit 2), ("MIN_CNO", .bit 3), ("INITIAL_3D_FIX", .bit 6),
     ("WKN_ROLL", .bit 9), ("AID_ACK", .bit 10), ("USE_PPP", .bit 13), ("AOP_CFG", .bit 14)]),
   ("CfgNavX5Params2", [("USE_ADR", .bit 6), ("USE_SIG_ATTEN_COMP", .bit 7)]),
   ("RecStatFlags", bitsFrom 0 ["LEAP_SEC", "CLK_RESET"]),
   ("MonGnssConstellMask", bitsFrom 0 ["GPS", "GLO", "BDC", "GAL"]),
   -- ESF-INS and HNR-INS bitfield0: the version of the message is bits 7..0 and is 1
   ("EsfInsBitFlags", ("VERSION", .value 0 8 1 [1]) ::
     bitsFrom 8 ["X_ANG_RATE_VALID", "Y_ANG_RATE_VALID", "Z_ANG_RATE_VALID", "X_ACCEL_VALID",
       "Y_ACCEL_VALID", "Z_ACCEL_VALID"]),
   ("HnrInsBitFlags", ("VERSION", .value 0 8 1 [1]) ::
     bitsFrom 8 ["X_ANG_RATE_VALID", "Y_ANG_RATE_VALID", "Z_ANG_RATE_VALID", "X_ACCEL_VALID",
       "Y_ACCEL_VALID", "Z_ACCEL_VALID"]),
   ("HnrPvtFlags", bitsFrom 0 ["GPS_FIX_OK", "DIFF_SOLN", "WKN_SET", "TOW_SET", "HEAD_VEH_VALID"]),
   ("HnrPvtValidFlags", bitsFrom 0 ["VALID_DATE", "VALID_TIME", "FULLY_RESOLVED"]),
   -- RXM-RAWX prStdev, cpStdev, doStdev: the four bits 3..0 of an exponent
   ("StdevFlags", bitsFrom 0 ["STD_1", "STD_2", "STD_3", "STD_4"]),
   ("TrkStatFlags", bitsFrom 0 ["PR_VALID", "CP_VALID", "HALF_CYCLE", "SUB_HALF_CYCLE"])]

/-- An enumeration: the bit field of the byte, the bits that the description defines at all (the
others are reserved), and the names of the values. -/
structure Enumeration where
  type : String
  lo : Nat := 0
  bits : Nat := 8
  used : Nat := 255
  codes : List (String × Nat)
  deriving Repr

/-- The enumerations. -/
def enumCodes : List Enumeration :=
  [{ type := "GpsFix", codes := [("NoFix", 0), ("DeadReckoningOnly", 1), ("Fix2D", 2), ("Fix3D", 3),
      ("GPSPlusDeadReckoning", 4), ("TimeOnlyFix", 5)] },
   -- NAV-STATUS flags2: psmState is bits 1..0, spoofDetState bits 4..3
   { type := "NavStatusFlags2", bits := 2, used := 0x1b,
     codes := [("Acquisition", 0), ("Tracking", 1), ("PowerOptimizedTracking", 2), ("Inactive", 3)] },
   -- CFG-ODO odoCfg: profile is bits 2..0
   { type := "OdoProfile", bits := 3, used := 7,
     codes := [("Running", 0), ("Cycling", 1), ("Swimming", 2), ("Car", 3), ("Custom", 4)] },
   -- CFG-ITFM config2: antSetting is bits 13..12
   { type := "CfgItfmAntennaSettings", bits := 2, used := 3,
     codes := [("Unknown", 0), ("Passive", 1), ("Active", 2)] },
   { type := "CfgTp5TimePulseMode", codes := [("TimePulse", 0), ("TimePulse2", 1)] },
   { type := "CfgTmode2TimeXferModes", codes := [("Disabled", 0), ("SurveyIn", 1), ("FixedMode", 2)] },
   { type := "I2cPortId", codes := [("I2c", 0)] },
   { type := "UartPortId", codes := [("Uart1", 1), ("Uart2", 2), ("Usb", 3)] },
   { type := "SpiPortId", codes := [("Spi", 4)] },
   { type := "CfgNav5DynModel", codes := [("Portable", 0), ("Stationary", 2), ("Pedestrian", 3),
      ("Automotive", 4), ("Sea", 5), ("AirborneWithLess1gAcceleration", 6),
      ("AirborneWithLess2gAcceleration", 7), ("AirborneWith4gAcceleration", 8),
      ("WristWornWatch", 9), ("Bike", 10)] },
   { type := "CfgNav5FixMode", codes := [("Only2D", 1), ("Only3D", 2), ("Auto2D3D", 3)] },
   { type := "CfgNav5UtcStandard",
     codes := [("Automatic", 0), ("Usno", 3), ("UtcSu", 6), ("UtcChina", 7)] },
   { type := "MsgAckInfoCode", codes := [("Accepted", 0), ("RejectedNoTime", 1),
      ("RejectedBadVersion", 2), ("RejectedBadSize", 3), ("RejectedDBStoreFailed", 4),
      ("RejectedNotReady", 5), ("RejectedUnknownType", 6)] },
   { type := "AntennaStatus",
     codes := [("Init", 0), ("DontKnow", 1), ("Ok", 2), ("Short", 3), ("Open", 4)] },
   { type := "AntennaPower", codes := [("Off", 0), ("On", 1), ("DontKnow", 2)] }]

end Ublox.Spec.Codes
