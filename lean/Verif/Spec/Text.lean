import Verif.Model.DualBuffer
import Verif.Model.Time

/-!
# Specification of messages about errors
-/

namespace Ublox.Spec

/-- The digits. -/
def digitTable : List (Char × Nat) :=
  [('0', 0), ('1', 1), ('2', 2), ('3', 3), ('4', 4), ('5', 5), ('6', 6), ('7', 7), ('8', 8),
    ('9', 9), ('a', 10), ('b', 11), ('c', 12), ('d', 13), ('e', 14), ('f', 15)]

/-- A text is a numeral in the given base and means the number. -/
inductive Reads (base : Nat) : List Char → Nat → Prop
  | digit {c : Char} {v : Nat} : (c, v) ∈ digitTable → v < base → Reads base [c] v
  | snoc {cs : List Char} {n : Nat} {c : Char} {v : Nat} : Reads base cs n → (c, v) ∈ digitTable →
      v < base → Reads base (cs ++ [c]) (n * base + v)

/-- A numeral without superfluous zeros. -/
def Numeral (base : Nat) (cs : List Char) (n : Nat) : Prop :=
  Reads base cs n ∧ (cs.head? = some '0' → n = 0)

/-- An identifier: letters, digits and underscores. -/
def Identifier (s : String) : Prop :=
  ∀ c ∈ s.toList, c.isAlphanum = true ∨ c = '_'

instance (s : String) : Decidable (Identifier s) := inferInstanceAs (Decidable (∀ _ ∈ _, _))

/-- The names in an error are identifiers. -/
def Named : ParserError → Prop
  | .invalidField packet field => Identifier packet ∧ Identifier field
  | .invalidPacketLen packet _ _ => Identifier packet
  | _ => True

/-- The message about an error. -/
def Message (text : String) : ParserError → Prop
  | .invalidChecksum expect got => ∃ x y : String,
      Numeral 16 x.toList expect.toNat ∧ Numeral 16 y.toList got.toNat ∧
      text = "Not valid packet's checksum, expect " ++ x ++ ", got " ++ y
  | .invalidField packet field =>
      text = "Invalid field " ++ field ++ " of packet " ++ packet
  | .invalidPacketLen packet expect got => ∃ x y : String, Numeral 10 x.toList expect ∧ Numeral 10 y.toList got ∧
      text = "Invalid packet(" ++ packet ++ ") length, expect " ++ x ++
        ", got " ++ y
  | .outOfMemory required => ∃ x : String, Numeral 10 x.toList required ∧
      text = "Insufficient parser buffer size, required " ++ x ++ " bytes"

/-- The message about a date or a time of day that is none. -/
def dateMessages : List (DateTimeError × String) :=
  [(.invalidDate, "invalid date"), (.invalidTime, "invalid time"),
    (.invalidNanoseconds, "invalid nanoseconds")]

/-- The message about memory that is too small. -/
def memMessage : String := "Not enough memory error"

/-- What precedes the message about an error of the memory itself. -/
def memPrefix : String := "MemWriterError: "

end Ublox.Spec
