import Verif.Spec.Device
import Verif.Model.Cli
import Verif.Spec.Frame
import Verif.Spec.Time
import Verif.Spec.Bits

/-!
# Specification vocabulary for the example program: fatal messages
-/

namespace Ublox.Spec

/-- The payload of a NAV-PVT message says that there is a fix with time: 3D fix (3), GNSS and dead
reckoning (4) or time only (5) at offset 20. -/
def HasTime (p : Bytes) : Prop := p[20]? = some 3 ∨ p[20]? = some 4 ∨ p[20]? = some 5

instance (p : Bytes) : Decidable (HasTime p) := by unfold HasTime; infer_instance

/-- A fix with position and velocity: 3D fix or GNSS and dead reckoning. -/
def HasPosition (p : Bytes) : Prop := p[20]? = some 3 ∨ p[20]? = some 4

instance (p : Bytes) : Decidable (HasPosition p) := by unfold HasPosition; infer_instance

/-- The date and time fields of a NAV-PVT payload make sense: year (2 bytes) at 4, month, day, hour,
minute and second at 6 to 10, signed nanoseconds at 16. -/
def TimeOk (p : Bytes) : Prop :=
  RealDate (leNat ((p.drop 4).take 2)) (leNat ((p.drop 6).take 1)) (leNat ((p.drop 7).take 1)) ∧
  (leNat ((p.drop 8).take 1) ≤ 23 ∧ leNat ((p.drop 9).take 1) ≤ 59 ∧
    leNat ((p.drop 10).take 1) ≤ 59) ∧
  -1000000000 < signedOf 32 (leNat ((p.drop 16).take 4)) ∧
  signedOf 32 (leNat ((p.drop 16).take 4)) < 1000000000

/-- The `mode` word of a CFG-PRT payload (bytes 4 to 7) has a meaning for the crate. -/
def ModeOk (p : Bytes) : Prop :=
  let w := leNat ((p.drop 4).take 4)
  (dataBitsOf (field w 6 2)).isSome ∧ (parityOf (field w 9 3)).isSome ∧
    (stopBitsOf (field w 12 2)).isSome

/-- A frame that ends the program: NAV-PVT with a fix with time whose date or time does not exist, or
CFG-PRT of a UART or USB port whose mode word has no meaning. -/
def FatalFrame (ev : Ev) : Prop :=
  (∃ p, ev = .packet 0x01 0x07 p ∧ p.length = 92 ∧ HasTime p ∧ ¬ TimeOk p) ∨
  (∃ p, ev = .packet 0x06 0x00 p ∧ p.length = 20 ∧
    (p[0]? = some 1 ∨ p[0]? = some 2 ∨ p[0]? = some 3) ∧ ¬ ModeOk p)

/-! ## What the user has asked for -/

/-- The payload of CFG-PRT for UART and USB ports: port number, reserved, txReady, mode word
(character length in bits 6-7, parity in bits 9-11, stop bits in bits 12-13), baud rate, protocol masks,
flags, reserved. -/
def cfgPrtPayload (port : UInt8) (charLen parity stop baud inMask outMask : Nat) : Bytes :=
  [port, 0, 0, 0] ++ natLe 4 (charLen * 2 ^ 6 + parity * 2 ^ 9 + stop * 2 ^ 12) ++ natLe 4 baud ++
    natLe 2 inMask ++ natLe 2 outMask ++ [0, 0, 0, 0]

/-- Port numbers of the interface description. -/
def askedPort (a : Cli.Args) : Option UInt8 :=
  [("uart1", 1), ("uart2", 2), ("usb", 3)].findSome? fun (n, x) => if a.port = some n then some x else none

/-- 7 bits are coded as 2, 8 bits as 3. -/
def askedCharLen (a : Cli.Args) : Option Nat :=
  [("7", 2), ("8", 3)].findSome? fun (n, x) => if a.dataBits = some n then some x else none

/-- Even parity is coded as 0, odd as 1, none as 4. -/
def askedParity (parity : Option String) : Nat :=
  if parity = some "even" then 0 else if parity = some "odd" then 1 else 4

/-- One stop bit is coded as 0, two as 2. -/
def askedStop (a : Cli.Args) : Nat := if a.stopBits = some "2" then 2 else 0

/-- The sum of the bits of the chosen protocols: UBX 1, NMEA 2, RTCM2 4, RTCM3 32; UBX if none was
chosen. -/
def askedIn (a : Cli.Args) : Nat :=
  let n := a.inUblox.toNat + 2 * a.inNmea.toNat + 4 * a.inRtcm.toNat + 32 * a.inRtcm3.toNat
  if n = 0 then 1 else n

@[inherit_doc askedIn] def askedOut (a : Cli.Args) : Nat :=
  let n := a.outUblox.toNat + 2 * a.outNmea.toNat + 32 * a.outRtcm3.toNat
  if n = 0 then 1 else n

/-- The program can carry out what was asked for: 7 or 8 data bits, not both versions of RTCM. -/
def Sensible (a : Cli.Args) : Prop := (askedCharLen a).isSome ∧ ¬ (a.inRtcm = true ∧ a.inRtcm3 = true)

instance (a : Cli.Args) : Decidable (Sensible a) := by unfold Sensible; infer_instance

/-- The CFG-PRT frame with the settings that were asked for, but with the given parity and baud rate. -/
def settingsFrame (a : Cli.Args) (port : UInt8) (charLen parity baud : Nat) : Bytes :=
  frame 0x06 0x00 (cfgPrtPayload port charLen parity (askedStop a) baud (askedIn a) (askedOut a))

end Ublox.Spec
