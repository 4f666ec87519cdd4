import Verif.Model.Eval

/-!
# The values of the program that stand for those of the model
-/

namespace Ublox.Code

variable {T P : Type}

/-- A `DualBuffer` as a value -/
def dualV (d : DualBuffer T) : V T P :=
  .struct [i!"DualBuffer"] [(i!"buf", .buf d.buf), (i!"off", .int d.off), (i!"new_buf", .bytes d.newBuf),
    (i!"new_buf_offset", .int d.newOff)]

/-- `Result<&[u8], ParserError>` as a value -/
def takeV : Except ParserError Bytes → V T P
  | .ok b => .ctor i!"Ok" (.bytes b)
  | .error e => .ctor i!"Err" (errV e)

/-- A `ParserIter` as a value -/
def iterV (it : ParserIter T) : V T P := .struct [i!"ParserIter"] [(i!"buf", dualV it.buf)]

/-- A `Parser` as a value -/
def parserV (p : Parser T) : V T P := .struct [i!"Parser"] [(i!"buf", .buf p.buf)]

/-- `UbxChecksumCalc` as a value -/
def calcV (k : ChecksumCalc) : V T P :=
  .struct [i!"UbxChecksumCalc"] [(i!"ck_a", .int k.ckA.toNat), (i!"ck_b", .int k.ckB.toNat)]

/-- `Option<Result<PacketRef, ParserError>>` as a value -/
def answerV : Option (Except ParserError P) → V T P
  | some r => .ctor i!"Some" (resV r)
  | .none => .none

/-- A `FixedLinearBuffer` as a value -/
def fixedV {M : Nat} (f : FixedLinearBuffer M) : V T P :=
  .struct [i!"FixedLinearBuffer"] [(i!"buffer", .bytes f.buffer), (i!"len", .int f.len)]

end Ublox.Code
