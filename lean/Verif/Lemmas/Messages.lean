import Verif.Lemmas.Code
import Verif.Lemmas.SourceText
import Verif.Lemmas.Emit
import Verif.Model.Messages
import Verif.Model.GenError

/-! The texts of errors, from the text of `error.rs`: lemmas for C100. -/

namespace Ublox.Msg
open Src

set_option maxRecDepth 100000

/-- Characters and placeholders -/
def fmt (cs : List Nat) : List Piece := (piecesOf cs).getD []

/-- The arms in the text -/
def arms : List Arm := [
  ⟨i!"MemWriterError", i!"NotEnoughMem", [], fmt c!"Not enough memory error", []⟩,
  ⟨i!"MemWriterError", i!"Custom", [(0, i!"e")], fmt c!"MemWriterError: {}", [i!"e"]⟩,
  ⟨i!"ParserError", i!"InvalidChecksum", [(i!"expect", i!"expect"), (i!"got", i!"got")],
    fmt c!"Not valid packet's checksum, expect {:x}, got {:x}", [i!"expect", i!"got"]⟩,
  ⟨i!"ParserError", i!"InvalidField", [(i!"packet", i!"packet"), (i!"field", i!"field")],
    fmt c!"Invalid field {} of packet {}", [i!"field", i!"packet"]⟩,
  ⟨i!"ParserError", i!"InvalidPacketLen",
    [(i!"packet", i!"packet"), (i!"expect", i!"expect"), (i!"got", i!"got")],
    fmt c!"Invalid packet({}) length, expect {}, got {}", [i!"packet", i!"expect", i!"got"]⟩,
  ⟨i!"ParserError", i!"OutOfMemory", [(i!"required_size", i!"required_size")],
    fmt c!"Insufficient parser buffer size, required {} bytes", [i!"required_size"]⟩,
  ⟨i!"DateTimeError", i!"InvalidDate", [], fmt c!"invalid date", []⟩,
  ⟨i!"DateTimeError", i!"InvalidTime", [], fmt c!"invalid time", []⟩,
  ⟨i!"DateTimeError", i!"InvalidNanoseconds", [], fmt c!"invalid nanoseconds", []⟩]

theorem errorRs_arms : messagesOf (codes Gen.errorRs) = some arms := by
  rw [codes_eq (s := Gen.errorRs) (chars := charsOf% Gen.errorRs) rfl]
  kernel_rfl

/-- The enumerations in the text -/
def decls : List (Code.Name × List Variant) := [
  (i!"MemWriterError", [(i!"NotEnoughMem", []), (i!"Custom", [(0, i!"E")])]),
  (i!"ParserError", [
    (i!"InvalidChecksum", [(i!"expect", i!"u16"), (i!"got", i!"u16")]),
    (i!"InvalidField", [(i!"packet", i!"str"), (i!"field", i!"str")]),
    (i!"InvalidPacketLen", [(i!"packet", i!"str"), (i!"expect", i!"usize"), (i!"got", i!"usize")]),
    (i!"OutOfMemory", [(i!"required_size", i!"usize")])]),
  (i!"DateTimeError", [(i!"InvalidDate", []), (i!"InvalidTime", []), (i!"InvalidNanoseconds", [])])]

theorem errorRs_decls : declsOf (codes Gen.errorRs) = some decls := by
  rw [codes_eq (s := Gen.errorRs) (chars := charsOf% Gen.errorRs) rfl]
  kernel_rfl

theorem display_checksum (a b : UInt16) :
    display arms (parserErrorV (.invalidChecksum a b)) =
      some (c!"Not valid packet's checksum, expect " ++
        (codes (numeral 16 a.toNat) ++ (c!", got " ++ (codes (numeral 16 b.toNat) ++ [])))) := by
  rfl

theorem display_field (p f : String) :
    display arms (parserErrorV (.invalidField p f)) =
      some (c!"Invalid field " ++ (codes f ++ (c!" of packet " ++ (codes p ++ [])))) := by
  rfl

theorem display_len (p : String) (a b : Nat) :
    display arms (parserErrorV (.invalidPacketLen p a b)) =
      some (c!"Invalid packet(" ++ (codes p ++ (c!") length, expect " ++ (codes (numeral 10 a) ++
        (c!", got " ++ (codes (numeral 10 b) ++ [])))))) := by
  rfl

theorem display_memory (n : Nat) :
    display arms (parserErrorV (.outOfMemory n)) =
      some (c!"Insufficient parser buffer size, required " ++ (codes (numeral 10 n) ++ c!" bytes")) := by
  rfl

theorem display_mem {E : Type} (text : E → String) (e : MemWriterError E) :
    display arms (memWriterErrorV text e) = some (match e with
      | .notEnoughMem => c!"Not enough memory error"
      | .custom e => c!"MemWriterError: " ++ (codes (text e) ++ [])) := by
  cases e <;> rfl

theorem display_date (e : DateTimeError) :
    display arms (dateTimeErrorV e) = some (match e with
      | .invalidDate => c!"invalid date"
      | .invalidTime => c!"invalid time"
      | .invalidNanoseconds => c!"invalid nanoseconds") := by
  cases e <;> rfl

theorem lit_checksum1 : codes "Not valid packet's checksum, expect " = c!"Not valid packet's checksum, expect " := by simp [codes]

theorem lit_got : codes ", got " = c!", got " := by simp [codes]

theorem lit_field1 : codes "Invalid field " = c!"Invalid field " := by simp [codes]

theorem lit_field2 : codes " of packet " = c!" of packet " := by simp [codes]

theorem lit_len1 : codes "Invalid packet(" = c!"Invalid packet(" := by simp [codes]

theorem lit_len2 : codes ") length, expect " = c!") length, expect " := by simp [codes]

theorem lit_mem1 : codes "Insufficient parser buffer size, required " = c!"Insufficient parser buffer size, required " := by simp [codes]

theorem lit_mem2 : codes " bytes" = c!" bytes" := by simp [codes]

theorem lit_nomem : codes "Not enough memory error" = c!"Not enough memory error" := by simp [codes]

theorem lit_memw : codes "MemWriterError: " = c!"MemWriterError: " := by simp [codes]

theorem lit_date : codes "invalid date" = c!"invalid date" := by simp [codes]

theorem lit_time : codes "invalid time" = c!"invalid time" := by simp [codes]

theorem lit_nanos : codes "invalid nanoseconds" = c!"invalid nanoseconds" := by simp [codes]

theorem codes_checksum (a b : UInt16) : codes (ParserError.invalidChecksum a b).display =
    c!"Not valid packet's checksum, expect " ++
        (codes (numeral 16 a.toNat) ++ (c!", got " ++ (codes (numeral 16 b.toNat) ++ []))) := by
  change codes ("Not valid packet's checksum, expect " ++ numeral 16 a.toNat ++ ", got " ++ numeral 16 b.toNat) = _
  simp only [Emit.codes_append, lit_checksum1, lit_got, List.append_assoc, List.append_nil]

theorem codes_field (p f : String) : codes (ParserError.invalidField p f).display =
    c!"Invalid field " ++ (codes f ++ (c!" of packet " ++ (codes p ++ []))) := by
  change codes ("Invalid field " ++ f ++ " of packet " ++ p) = _
  simp only [Emit.codes_append, lit_field1, lit_field2, List.append_assoc, List.append_nil]

theorem codes_len (p : String) (a b : Nat) : codes (ParserError.invalidPacketLen p a b).display =
    c!"Invalid packet(" ++ (codes p ++ (c!") length, expect " ++ (codes (numeral 10 a) ++
        (c!", got " ++ (codes (numeral 10 b) ++ []))))) := by
  change codes ("Invalid packet(" ++ p ++ ") length, expect " ++ numeral 10 a ++ ", got " ++ numeral 10 b) = _
  simp only [Emit.codes_append, lit_len1, lit_len2, lit_got, List.append_assoc, List.append_nil]

theorem codes_memory (n : Nat) : codes (ParserError.outOfMemory n).display =
    c!"Insufficient parser buffer size, required " ++ (codes (numeral 10 n) ++ c!" bytes") := by
  change codes ("Insufficient parser buffer size, required " ++ numeral 10 n ++ " bytes") = _
  simp only [Emit.codes_append, lit_mem1, lit_mem2, List.append_assoc, List.append_nil]

end Ublox.Msg
