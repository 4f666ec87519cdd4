import Verif.Spec.Cfg

/-!
# The configuration items of the interface description

The configuration interface of the u-blox F9 receivers ("CFG-*" items): for each item its name, its
group and item number, and its type, as the interface description lists them.  Written from the
description, not from the code: keys are computed here from group, number and storage size, the
output rates of the messages from one number per message and the fixed order of the ports.
-/

namespace Ublox.Spec

/-- The value types of the interface description that occur below. -/
inductive ItemTy where
  /-- one bit: false or true -/
  | L
  | U1 | U2 | U4 | I2
  /-- bit fields of one and of eight bytes -/
  | X1 | X8
  /-- one byte, one of the listed constants -/
  | E1 (constants : List (String × Nat))
  deriving DecidableEq, Repr

/-- The code of the storage size in bits 30..28 of a key: one bit, one, two, four, eight bytes. -/
def ItemTy.sizeCode : ItemTy → Nat
  | .L => 1
  | .U1 | .X1 | .E1 _ => 2
  | .U2 | .I2 => 3
  | .U4 => 4
  | .X8 => 5

/-- An item of the description.  `name` are the parts of its name after "CFG", in the description
separated by `-` and `_`: `["MSGOUT", "UBX_NAV_PVT", "I2C"]` for CFG-MSGOUT-UBX_NAV_PVT_I2C. -/
structure Item where
  name : List String
  group : Nat
  number : Nat
  ty : ItemTy
  deriving DecidableEq, Repr

/-- The 32-bit key of an item: storage size in bits 30..28, group in bits 23..16, number of the item
within the group in bits 11..0. -/
def Item.key (d : Item) : Nat := d.ty.sizeCode * 2 ^ 28 + d.group * 2 ^ 16 + d.number

/-- The items of one group. -/
def grp (group : String) (id : Nat) (items : List (List String × Nat × ItemTy)) : List Item :=
  items.map fun (n, k, t) => ⟨group :: n, id, k, t⟩

/-- CFG-UARTn-STOPBITS -/
def stopbits : ItemTy := .E1 [("HALF", 0), ("ONE", 1), ("ONEHALF", 2), ("TWO", 3)]

/-- CFG-UARTn-DATABITS -/
def databits : ItemTy := .E1 [("EIGHT", 0), ("SEVEN", 1)]

/-- CFG-UARTn-PARITY -/
def parity : ItemTy := .E1 [("NONE", 0), ("ODD", 1), ("EVEN", 2)]

/-- CFG-RATE-TIMEREF, CFG-TP-TIMEGRID_TP1 -/
def timeref : ItemTy := .E1 [("UTC", 0), ("GPS", 1), ("GLO", 2), ("BDS", 3), ("GAL", 4)]

/-- CFG-TP-PULSE_DEF -/
def pulseDef : ItemTy := .E1 [("PERIOD", 0), ("FREQ", 1)]

/-- CFG-TP-PULSE_LENGTH_DEF -/
def pulseLengthDef : ItemTy := .E1 [("RATIO", 0), ("LENGTH", 1)]

/-- The ports of the CFG-MSGOUT items with the number added for each. -/
def outputPorts : List (String × Nat) :=
  [("I2C", 0), ("SPI", 4), ("UART1", 1), ("UART2", 2), ("USB", 3)]

/-- The messages of the CFG-MSGOUT items with the number of the item for the first port. -/
def messageOutputs : List (String × Nat) := [
  ("NMEA_ID_DTM", 0xa6), ("NMEA_ID_GBS", 0xdd), ("NMEA_ID_GGA", 0xba), ("NMEA_ID_GLL", 0xc9),
  ("NMEA_ID_GNS", 0xb5), ("NMEA_ID_GRS", 0xce), ("NMEA_ID_GSA", 0xbf), ("NMEA_ID_GST", 0xd3),
  ("NMEA_ID_GSV", 0xc4), ("NMEA_ID_RMC", 0xab), ("NMEA_ID_VLW", 0xe7), ("NMEA_ID_VTG", 0xb0),
  ("NMEA_ID_ZDA", 0xd8), ("PUBX_ID_POLYP", 0xec), ("PUBX_ID_POLYS", 0xf1),
  ("PUBX_ID_POLYT", 0xf6), ("RTCM_3X_TYPE1005", 0x2bd), ("RTCM_3X_TYPE1074", 0x35e),
  ("RTCM_3X_TYPE1077", 0x2cc), ("RTCM_3X_TYPE1084", 0x363), ("RTCM_3X_TYPE1087", 0x2d1),
  ("RTCM_3X_TYPE1094", 0x368), ("RTCM_3X_TYPE1097", 0x318), ("RTCM_3X_TYPE1124", 0x36d),
  ("RTCM_3X_TYPE1127", 0x2d6), ("RTCM_3X_TYPE1230", 0x303), ("UBX_LOG_INFO", 0x259),
  ("UBX_MON_COMMS", 0x34f), ("UBX_MON_HW2", 0x1b9), ("UBX_MON_HW3", 0x354),
  ("UBX_MON_HW", 0x1b4), ("UBX_MON_IO", 0x1a5), ("UBX_MON_MSGPP", 0x196), ("UBX_MON_RF", 0x359),
  ("UBX_MON_RXBUF", 0x1a0), ("UBX_MON_RXR", 0x187), ("UBX_MON_TXBUF", 0x19b),
  ("UBX_NAV_CLOCK", 0x65), ("UBX_NAV_DOP", 0x38), ("UBX_NAV_EOE", 0x15f),
  ("UBX_NAV_GEOFENCE", 0xa1), ("UBX_NAV_HPPOSECEF", 0x2e), ("UBX_NAV_HPPOSLLH", 0x33),
  ("UBX_NAV_ODO", 0x7e), ("UBX_NAV_ORB", 0x10), ("UBX_NAV_POSECEF", 0x24),
  ("UBX_NAV_POSLLH", 0x29), ("UBX_NAV_PVT", 0x6), ("UBX_NAV_RELPOSNED", 0x8d),
  ("UBX_NAV_SAT", 0x15), ("UBX_NAV_SIG", 0x345), ("UBX_NAV_STATUS", 0x1a),
  ("UBX_NAV_SVIN", 0x88), ("UBX_NAV_TIMEBDS", 0x51), ("UBX_NAV_TIMEGAL", 0x56),
  ("UBX_NAV_TIMEGLO", 0x4c), ("UBX_NAV_TIMEGPS", 0x47), ("UBX_NAV_TIMELS", 0x60),
  ("UBX_NAV_TIMEUTC", 0x5b), ("UBX_NAV_VELECEF", 0x3d), ("UBX_NAV_VELNED", 0x42),
  ("UBX_RXM_MEASX", 0x204), ("UBX_RXM_RAWX", 0x2a4), ("UBX_RXM_RLM", 0x25e),
  ("UBX_RXM_RTCM", 0x268), ("UBX_RXM_SFRBX", 0x231), ("UBX_TIM_TM2", 0x178),
  ("UBX_TIM_TP", 0x17d), ("UBX_TIM_VRFY", 0x92)]

/-- The items of the interface description. -/
def descItems : List Item :=
  grp "UART1" 0x52 [(["BAUDRATE"], 0x1, .U4), (["STOPBITS"], 0x2, stopbits),
      (["DATABITS"], 0x3, databits), (["PARITY"], 0x4, parity), (["ENABLED"], 0x5, .L)] ++
  grp "UART1INPROT" 0x73 [(["UBX"], 0x1, .L), (["NMEA"], 0x2, .L), (["RTCM3X"], 0x4, .L)] ++
  grp "UART1OUTPROT" 0x74 [(["UBX"], 0x1, .L), (["NMEA"], 0x2, .L), (["RTCM3X"], 0x4, .L)] ++
  grp "UART2" 0x53 [(["BAUDRATE"], 0x1, .U4), (["STOPBITS"], 0x2, stopbits),
      (["DATABITS"], 0x3, databits), (["PARITY"], 0x4, parity), (["ENABLED"], 0x5, .L),
      (["REMAP"], 0x6, .L)] ++
  grp "UART2INPROT" 0x75 [(["UBX"], 0x1, .L), (["NMEA"], 0x2, .L), (["RTCM3X"], 0x4, .L)] ++
  grp "UART2OUTPROT" 0x76 [(["UBX"], 0x1, .L), (["NMEA"], 0x2, .L), (["RTCM3X"], 0x4, .L)] ++
  grp "USB" 0x65 [(["ENABLED"], 0x1, .L), (["SELFPOW"], 0x2, .L), (["VENDOR_ID"], 0xa, .U2),
      (["PRODUCT_ID"], 0xb, .U2), (["POWER"], 0xc, .U2), (["VENDOR_STR0"], 0xd, .X8),
      (["VENDOR_STR1"], 0xe, .X8), (["VENDOR_STR2"], 0xf, .X8), (["VENDOR_STR3"], 0x10, .X8),
      (["PRODUCT_STR0"], 0x11, .X8), (["PRODUCT_STR1"], 0x12, .X8),
      (["PRODUCT_STR2"], 0x13, .X8), (["PRODUCT_STR3"], 0x14, .X8),
      (["SERIAL_NO_STR0"], 0x15, .X8), (["SERIAL_NO_STR1"], 0x16, .X8),
      (["SERIAL_NO_STR2"], 0x17, .X8), (["SERIAL_NO_STR3"], 0x18, .X8)] ++
  grp "USBINPROT" 0x77 [(["UBX"], 0x1, .L), (["NMEA"], 0x2, .L), (["RTCM3X"], 0x4, .L)] ++
  grp "USBOUTPROT" 0x78 [(["UBX"], 0x1, .L), (["NMEA"], 0x2, .L), (["RTCM3X"], 0x4, .L)] ++
  grp "INFMSG" 0x92 [(["UBX_I2C"], 0x1, .X1), (["UBX_UART1"], 0x2, .X1),
      (["UBX_UART2"], 0x3, .X1), (["UBX_USB"], 0x4, .X1), (["UBX_SPI"], 0x5, .X1),
      (["NMEA_I2C"], 0x6, .X1), (["NMEA_UART1"], 0x7, .X1), (["NMEA_UART2"], 0x8, .X1),
      (["NMEA_USB"], 0x9, .X1), (["NMEA_SPI"], 0xa, .X1)] ++
  grp "RATE" 0x21 [(["MEAS"], 0x1, .U2), (["NAV"], 0x2, .U2), (["TIMEREF"], 0x3, timeref)] ++
  grp "MSGOUT" 0x91 (messageOutputs.flatMap fun (m, base) => outputPorts.map fun (p, k) =>
    ([m, p], base + k, .U1)) ++
  grp "SIGNAL" 0x31 [(["GPS_ENA"], 0x1f, .L), (["GPS_L1CA_ENA"], 0x1, .L),
      (["GPS_L2C_ENA"], 0x3, .L), (["GAL_ENA"], 0x21, .L), (["GAL_E1_ENA"], 0x7, .L),
      (["GAL_E5B_ENA"], 0xa, .L), (["BDS_ENA"], 0x22, .L), (["BDS_B1_ENA"], 0xd, .L),
      (["BDS_B2_ENA"], 0xe, .L), (["QZSS_ENA"], 0x24, .L), (["QZSS_L1CA_ENA"], 0x12, .L),
      (["QZSS_L2C_ENA"], 0x15, .L), (["GLO_ENA"], 0x25, .L), (["GLO_L1_ENA"], 0x18, .L),
      (["GLO_L2_ENA"], 0x1a, .L)] ++
  grp "TP" 0x05 [(["PULSE_DEF"], 0x23, pulseDef), (["PULSE_LENGTH_DEF"], 0x30, pulseLengthDef),
      (["ANT_CABLEDELAY"], 0x1, .I2), (["PERIOD_TP1"], 0x2, .U4),
      (["PERIOD_LOCK_TP1"], 0x3, .U4), (["FREQ_TP1"], 0x24, .U4), (["FREQ_LOCK_TP1"], 0x25, .U4),
      (["LEN_TP1"], 0x4, .U4), (["LEN_LOCK_TP1"], 0x5, .U4), (["TP1_ENA"], 0x7, .L),
      (["SYNC_GNSS_TP1"], 0x8, .L), (["USE_LOCKED_TP1"], 0x9, .L),
      (["ALIGN_TO_TOW_TP1"], 0xa, .L), (["POL_TP1"], 0xb, .L),
      (["TIMEGRID_TP1"], 0xc, timeref)]

/-- The letters and digits of a name, in lower case. -/
def letters (s : String) : List Char := (s.toList.filter Char.isAlphanum).map Char.toLower

/-- `a` is a spelling of the name with the parts `ps`: it has the same letters and digits, without
regard to case and separators. -/
def Spells (a : String) (ps : List String) : Prop := letters a = ps.flatMap letters

instance (a : String) (ps : List String) : Decidable (Spells a ps) :=
  inferInstanceAs (Decidable (_ = _))

/-- The name of the constant of an enumeration that the variant of the crate stands for. -/
def constantName : CfgValue → Option String
  | .dataBits .eight => some "EIGHT"
  | .dataBits .seven => some "SEVEN"
  | .parity .none => some "NONE"
  | .parity .odd => some "ODD"
  | .parity .even => some "EVEN"
  | .stopBits .half => some "HALF"
  | .stopBits .one => some "ONE"
  | .stopBits .oneHalf => some "ONEHALF"
  | .stopBits .two => some "TWO"
  | .alignment .utc => some "UTC"
  | .alignment .gps => some "GPS"
  | .alignment .glo => some "GLO"
  | .alignment .bds => some "BDS"
  | .alignment .gal => some "GAL"
  | .tpPulse .period => some "PERIOD"
  | .tpPulse .freq => some "FREQ"
  | .tpPulseLength .ratio => some "RATIO"
  | .tpPulseLength .length => some "LENGTH"
  | _ => none

/-- The bytes of a value of an item of type `t`; `none` if the value is not of that type. -/
def itemBytes : ItemTy → CfgValue → Option Bytes
  | .L, .bool b => some [if b then 1 else 0]
  | .U1, .u8 v => some [v]
  | .U2, .u16 v => some (natLe 2 v.toNat)
  | .I2, .i16 v => some (natLe 2 (v.toInt % 2 ^ 16).toNat)
  | .U4, .u32 v => some (natLe 4 v.toNat)
  | .X8, .u64 v => some (natLe 8 v.toNat)
  | .X1, .cfgInfMask bits => some [bits]
  | .E1 cs, v => do
    let n ← constantName v
    let code ← cs.lookup n
    return [UInt8.ofNat code]
  | _, _ => none

end Ublox.Spec
