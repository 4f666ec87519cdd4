import Verif.Model.DualBuffer
import Verif.Model.Time

/-!
# The texts of errors

`ublox/src/error.rs`: the `Display` implementations.
-/

namespace Ublox

/-- `{}` and `{:x}` of an unsigned integer in the given base: the digits, most significant first,
without leading zeros.  (Rust's standard library; no code of `/repo`.) -/
def digits (b n : Nat) : List Char :=
  if h : n < b ∨ b < 2 then [n.digitChar] else digits b (n / b) ++ [(n % b).digitChar]
termination_by n
decreasing_by exact Nat.div_lt_self (by omega) (by omega)

/-- The digits as a text. -/
def numeral (b n : Nat) : String := String.ofList (digits b n)

/-- `ublox/src/error.rs:43-67`, `Display` of `ParserError` -/
def ParserError.display : ParserError → String
  | .invalidChecksum expect got =>
    "Not valid packet's checksum, expect " ++ numeral 16 expect.toNat ++ ", got " ++
      numeral 16 got.toNat
  | .invalidField packet field =>
    "Invalid field " ++ field ++ " of packet " ++ packet
  | .invalidPacketLen packet expect got =>
    "Invalid packet(" ++ packet ++ ") length, expect " ++ numeral 10 expect ++
      ", got " ++ numeral 10 got
  | .outOfMemory required =>
    "Insufficient parser buffer size, required " ++ numeral 10 required ++ " bytes"

/-- `ublox/src/error.rs:82-90`, `Display` of `DateTimeError` -/
def DateTimeError.display : DateTimeError → String
  | .invalidDate => "invalid date"
  | .invalidTime => "invalid time"
  | .invalidNanoseconds => "invalid nanoseconds"

/-- `ublox/src/error.rs:3-7`, `MemWriterError<E>` -/
inductive MemWriterError (E : Type) where
  | notEnoughMem
  | custom (e : E)

/-- `ublox/src/error.rs:9-16`, `Display` of `MemWriterError<E>`, for the `Display` of `E` -/
def MemWriterError.display (text : E → String) : MemWriterError E → String
  | .notEnoughMem => "Not enough memory error"
  | .custom e => "MemWriterError: " ++ text e

end Ublox
