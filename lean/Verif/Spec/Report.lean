import Verif.Spec.Frame
import Verif.Model.Parser

/-!
# How decoder reports appear at the API

The reference decoder (`Verif.Spec.Frame`) speaks about frames; the parser answers with
`Result<PacketRef, ParserError>`.  This is the translation.
-/

namespace Ublox.Spec

/-- Two checksum bytes as the little-endian number used in `ParserError::InvalidChecksum`. -/
def ckNumber (p : UInt8 × UInt8) : UInt16 := UInt16.ofNat (p.1.toNat + 256 * p.2.toNat)

/-- A report of the reference decoder as answer of the parser: a well-formed frame is handed to
the packet dispatch `mp` (the generated `match_packet`). -/
def report {P : Type} (mp : UInt8 → UInt8 → Bytes → Except ParserError P) :
    Ev → Except ParserError P
  | .packet c i payload => mp c i payload
  | .badChecksum received computed =>
    .error (.invalidChecksum (ckNumber received) (ckNumber computed))
  | .tooLarge n => .error (.outOfMemory (n + 2))

end Ublox.Spec
