import Verif.Spec.Report
import Verif.Model.Device

/-!
# Specification vocabulary for the example program
-/

namespace Ublox.Spec

variable {P E : Type}

/-- The bytes that one `read` delivers. -/
def portBytes : PortRead E → Bytes
  | .data bs => bs
  | .timedOut => []
  | .failed _ => []

/-- The bytes that the `n` reads from number `i` on deliver. -/
def received (port : Port E) (i : Nat) : Nat → Bytes
  | 0 => []
  | n + 1 => portBytes (port i) ++ received port (i + 1) n

/-- Between 1 and 1240 bytes were read. -/
def Some1240 (r : PortRead E) : Prop := ∃ bs, r = .data bs ∧ 0 < bs.length ∧ bs.length ≤ 1240

/-- No bytes for now: a timeout, or zero bytes. -/
def Quiet (r : PortRead E) : Prop := r = .timedOut ∨ r = .data []

/-- The packets among the answers to the reports of the reference decoder. -/
def handed (D : Dispatch P) (evs : List Ev) : List P :=
  evs.filterMap fun ev => (report D.matchPacket ev).toOption

/-- The device holds the bytes `b`, in which there is nothing more to decode. -/
def Holds {M : Nat} (maxLen : Nat) (dev : Device M) (b : Bytes) : Prop :=
  dev.parser.buf.bytes = b ∧ decode maxLen b = ([], b)

end Ublox.Spec
