import Verif.Spec.Protocol
import Verif.Spec.Codes
import Verif.Spec.Packet

/-!
# Messages as a receiver sends them

What the interface description requires of a message beyond the layout of its fields: the values of
the enumerations without reserved codes, the texts, and the parts of variable size.
-/

namespace Ublox.Spec.Protocol

/-- Bytes whose values the description restricts to the codes of an enumeration: packet, offset, type
of the enumeration. -/
def closedFields : List (String × Nat × String) :=
  [("CfgOdo", 5, "OdoProfile"), ("CfgTp5", 0, "CfgTp5TimePulseMode"),
   ("CfgTmode2", 0, "CfgTmode2TimeXferModes"), ("CfgPrtI2c", 0, "I2cPortId"),
   ("CfgPrtUart", 0, "UartPortId"), ("CfgPrtSpi", 0, "SpiPortId"),
   ("CfgNav5", 2, "CfgNav5DynModel"), ("CfgNav5", 3, "CfgNav5FixMode"),
   ("CfgNav5", 30, "CfgNav5UtcStandard")]

/-- The byte is a code of the enumeration. -/
def HasCode (type : String) (b : UInt8) : Prop :=
  ∃ t ∈ Codes.enumCodes, t.type = type ∧ ∃ c ∈ t.codes, b.toNat = c.2

/-- The payload is one that the description allows for the message. -/
structure Conforms (m : Message) (payload : Bytes) : Prop where
  /-- the length -/
  len : m.len.Ok payload.length
  /-- the enumerations -/
  codes : ∀ x ∈ closedFields, x.1 = m.packet → ∃ b, payload[x.2.1]? = some b ∧ HasCode x.2.2 b
  /-- MON-VER: zero-terminated texts in 30, 10 and then repeatedly 30 bytes -/
  texts : m.packet = "MonVer" → (∃ s, CStr (payload.take 30) s) ∧
    (∃ s, CStr ((payload.drop 30).take 10) s) ∧
    ∀ i, 40 + 30 * i < payload.length → ∃ s, CStr ((payload.drop (40 + 30 * i)).take 30) s
  /-- ESF-MEAS: `numMeas` (bits 15..11 of the flags) words, and one more if `calibTtagValid` (bit 3) -/
  words : m.packet = "EsfMeas" → payload.length =
    8 + 4 * (field (leNat ((payload.drop 4).take 2)) 11 5 +
      if bit (leNat ((payload.drop 4).take 2)) 3 then 1 else 0)

/-- The entries of the tables that are no messages of their own among those which the crate receives:
commands that it only sends, the two configuration messages that its parser does not know (C46), the
second declaration of MGA-GPS-EPH, and the blocks within NAV-SAT and RXM-RAWX. -/
def notReceived : List String :=
  ["NavResetOdo", "CfgMsgSinglePort", "CfgMsgAllPorts", "CfgInf", "CfgRst", "CfgRate", "CfgNavX5",
   "CfgValSet", "AidIni", "MgaGpsEPH", "NavSatSvInfo", "RxmRawxInfo"]

end Ublox.Spec.Protocol
