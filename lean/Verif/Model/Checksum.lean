import Verif.Model.Basic

/-!
# The two checksum implementations of the crate
-/

namespace Ublox

/-- `ublox/src/ubx_packets.rs:24-32`, function `ubx_checksum`: one loop over the bytes with the
two `overflowing_add(..).0` updates. -/
def ubxChecksum (data : Bytes) : UInt8 × UInt8 :=
  let rec loop : Bytes → UInt8 → UInt8 → UInt8 × UInt8
    | [], ckA, ckB => (ckA, ckB)
    | byte :: rest, ckA, ckB =>
      let ckA := ckA + byte
      let ckB := ckB + ckA
      loop rest ckA ckB
  loop data 0 0

/-- `ublox/src/ubx_packets.rs:36-39` and the identical struct of
`ublox/src/parser.rs:388-391`. -/
structure ChecksumCalc where
  ckA : UInt8
  ckB : UInt8
  deriving DecidableEq, Repr

/-- `#[derive(Default)]` at `ublox/src/ubx_packets.rs:35`, used by the generated `create_packet`. -/
def ChecksumCalc.default : ChecksumCalc := ⟨0, 0⟩

/-- `ublox/src/ubx_packets.rs:42-47`, `UbxChecksumCalc::update` of the builders: the fields are
updated byte by byte. -/
def ChecksumCalc.update (c : ChecksumCalc) (chunk : Bytes) : ChecksumCalc :=
  match chunk with
  | [] => c
  | byte :: rest =>
    let ckA := c.ckA + byte
    let ckB := c.ckB + ckA
    ChecksumCalc.update ⟨ckA, ckB⟩ rest

/-- `ublox/src/ubx_packets.rs:48-50`, `result`. -/
def ChecksumCalc.result (c : ChecksumCalc) : UInt8 × UInt8 := (c.ckA, c.ckB)

/-- `ublox/src/parser.rs:394-396`, `UbxChecksumCalc::new` of the parser. -/
def ParserChecksum.new : ChecksumCalc := ⟨0, 0⟩

/-- `ublox/src/parser.rs:398-407`, `UbxChecksumCalc::update` of the parser: works on local copies
`a`, `b` and stores them back after the loop. -/
def ParserChecksum.update (c : ChecksumCalc) (bytes : Bytes) : ChecksumCalc :=
  let rec loop : Bytes → UInt8 → UInt8 → UInt8 × UInt8
    | [], a, b => (a, b)
    | byte :: rest, a, b =>
      let a := a + byte
      let b := b + a
      loop rest a b
  let (a, b) := loop bytes c.ckA c.ckB
  ⟨a, b⟩

/-- `ublox/src/parser.rs:409-411`, `result`. -/
def ParserChecksum.result (c : ChecksumCalc) : UInt8 × UInt8 := (c.ckA, c.ckB)

end Ublox
