import Verif.Model.DualBuffer
import Verif.Model.Checksum

/-!
# `Parser` and `ParserIter`

The packet dispatch `match_packet` and the constant `MAX_PAYLOAD_LEN` are generated code; they are
parameters here (`Dispatch`) and instantiated in `Verif.Model.Dispatch`.
-/

namespace Ublox

/-- What `ublox/src/parser.rs:6` imports from the generated code: `match_packet` and
`MAX_PAYLOAD_LEN` (`ublox_derive/src/output.rs:775-789`). -/
structure Dispatch (P : Type) where
  matchPacket : UInt8 → UInt8 → Bytes → Except ParserError P
  maxPayloadLen : Nat

/-- `ublox/src/parser.rs:164-169`, `Parser`. -/
structure Parser (T : Type) where
  buf : T

/-- `ublox/src/parser.rs:415-417`, `ParserIter`. -/
structure ParserIter (T : Type) where
  buf : DualBuffer T

namespace ParserIter

variable {T P : Type} [UnderlyingBuffer T] (M : Nat) (D : Dispatch P)

/-- `ublox/src/parser.rs:420-422`, `find_sync`. -/
def findSync (it : ParserIter T) : R (Option Nat) := do
  findIndex (it.buf.index M) SYNC_CHAR_1 0 (← it.buf.length M)

/-- `u16::from_le_bytes([lo, hi])`, used for the error of `extract_packet`. -/
def u16FromLe (lo hi : UInt8) : UInt16 := lo.toUInt16 ||| (hi.toUInt16 <<< 8)

/-- `ublox/src/parser.rs:424-463`, `extract_packet`. -/
def extractPacket (it : ParserIter T) (packLen : Nat) :
    R (Option (Except ParserError P) × ParserIter T) := do
  if !(← it.buf.canDrainAndTake M 6 (← uadd M packLen 2)) then
    if (← it.buf.potentialLostBytes M) > 0 then
      let buf ← it.buf.drain M 2
      return (some (.error (.outOfMemory (← uadd M packLen 2))), ⟨buf⟩)
    return (none, it)
  let checksummer := ParserChecksum.new
  let (a, b) ← it.buf.peekRaw M 2 (← uadd M (← uadd M 4 packLen) 2)
  let checksummer := ParserChecksum.update checksummer a
  let checksummer := ParserChecksum.update checksummer b
  let (ckA, ckB) := ParserChecksum.result checksummer
  let expectCkA ← it.buf.index M (← uadd M 6 packLen)
  let expectCkB ← it.buf.index M (← uadd M (← uadd M 6 packLen) 1)
  if (ckA, ckB) ≠ (expectCkA, expectCkB) then
    let buf ← it.buf.drain M 2
    return (some (.error (.invalidChecksum (u16FromLe expectCkA expectCkB)
      (u16FromLe ckA ckB))), ⟨buf⟩)
  let classId ← it.buf.index M 2
  let msgId ← it.buf.index M 3
  let buf ← it.buf.drain M 6
  let (msgData, buf) ← buf.take M (← uadd M packLen 2)
  match msgData with
  | .error e => return (some (.error e), ⟨buf⟩)
  | .ok msgData =>
    let data ← sliceRange msgData 0 (← usub msgData.length 2)
    return (some (D.matchPacket classId msgId data), ⟨buf⟩)

/-- How one pass through the loop body of `next` ends. -/
inductive Ctl (α β : Type) where
  /-- `continue` with the new state -/
  | cont : α → Ctl α β
  /-- `return` -/
  | ret : β → Ctl α β

/-- `ublox/src/parser.rs:469-497`, one evaluation of the loop condition and body of `next`. -/
def nextBody (it : ParserIter T) :
    R (Ctl (ParserIter T) (Option (Except ParserError P) × ParserIter T)) := do
  if (← it.buf.length M) > 0 then
    match ← it.findSync M with
    | none =>
      let buf ← it.buf.clear M
      return .ret (none, ⟨buf⟩)
    | some pos =>
      let buf ← it.buf.drain M pos
      if (← buf.length M) < 2 then
        return .ret (none, ⟨buf⟩)
      if (← buf.index M 1) ≠ SYNC_CHAR_2 then
        let buf ← buf.drain M 1
        return .cont ⟨buf⟩
      if (← buf.length M) < 6 then
        return .ret (none, ⟨buf⟩)
      let packLen := le16 (← buf.index M 4) (← buf.index M 5)
      if packLen > D.maxPayloadLen then
        let buf ← buf.drain M 2
        return .cont ⟨buf⟩
      return .ret (← extractPacket M D ⟨buf⟩ packLen)
  else
    return .ret (none, it)

/-- `ublox/src/parser.rs:468-499`, `next`: the `while` loop.  The outer `Option` is `none` exactly
if the loop does not terminate. -/
def next (it : ParserIter T) : Option (R (Option (Except ParserError P) × ParserIter T)) :=
  match nextBody M D it with
  | .error p => some (.error p)
  | .ok (.ret r) => some (.ok r)
  | .ok (.cont it) => next it
partial_fixpoint

end ParserIter

namespace Parser

variable {T P : Type} [UnderlyingBuffer T] (M : Nat) (D : Dispatch P)

/-- `ublox/src/parser.rs:179-181`, `Parser::new`; `Parser::default()` (lines 172-176) is
`new` of the empty `Vec`. -/
def new (underlying : T) : Parser T := ⟨underlying⟩

/-- `ublox/src/parser.rs:183-185`, `is_buffer_empty`. -/
def isBufferEmpty (p : Parser T) : Bool := UnderlyingBuffer.isEmpty p.buf

/-- `ublox/src/parser.rs:187-189`, `buffer_len`. -/
def bufferLen (p : Parser T) : Nat := UnderlyingBuffer.len p.buf

/-- `ublox/src/parser.rs:191-202`, `consume`: drains up to the first sync byte if there is one. -/
def consume (p : Parser T) (newData : Bytes) : R (ParserIter T) := do
  let buf := DualBuffer.new p.buf newData
  match ← findIndex (buf.index M) SYNC_CHAR_1 0 (← buf.length M) with
  | some i => return ⟨← buf.drain M i⟩
  | none => return ⟨buf⟩

/-- `n` calls of `next` on one iterator (client code, not part of `/repo`): the answers and the
iterator afterwards. -/
def callNext : Nat → ParserIter T →
    Option (R (List (Option (Except ParserError P)) × ParserIter T))
  | 0, it => some (.ok ([], it))
  | n + 1, it =>
    match ParserIter.next M D it with
    | none => none
    | some (.error p) => some (.error p)
    | some (.ok (r, it)) =>
      match callNext n it with
      | none => none
      | some (.error p) => some (.error p)
      | some (.ok (rs, it)) => some (.ok (r :: rs, it))

/-- One chunk: `consume`, `n` calls of `next`, and the iterator goes out of scope
(client code; the last step is `Drop for DualBuffer`, `ublox/src/parser.rs:378-384`). -/
def feed (p : Parser T) (chunk : Bytes) (n : Nat) :
    Option (R (List (Option (Except ParserError P)) × Parser T)) :=
  match p.consume M chunk with
  | .error e => some (.error e)
  | .ok it =>
    match callNext M D n it with
    | none => none
    | some (.error e) => some (.error e)
    | some (.ok (rs, it)) =>
      match it.buf.dropDual with
      | .error e => some (.error e)
      | .ok buf => some (.ok (rs, ⟨buf⟩))

/-- A whole history of a parser: for each chunk the number of `next` calls made before the iterator
is dropped; the answers are grouped by chunk (client code). -/
def session (p : Parser T) : List (Bytes × Nat) →
    Option (R (List (List (Option (Except ParserError P))) × Parser T))
  | [] => some (.ok ([], p))
  | (chunk, n) :: rest =>
    match feed M D p chunk n with
    | none => none
    | some (.error e) => some (.error e)
    | some (.ok (rs, p)) =>
      match session p rest with
      | none => none
      | some (.error e) => some (.error e)
      | some (.ok (rss, p)) => some (.ok (rs :: rss, p))

/-- One chunk whose iterator is either dropped (`leak = false`) or leaked with `mem::forget`
(`leak = true`): in the latter case the destructor does not run and the parser keeps the underlying
buffer as the iterator left it (client code). -/
def feedLeak (p : Parser T) (chunk : Bytes) (n : Nat) (leak : Bool) :
    Option (R (List (Option (Except ParserError P)) × Parser T)) :=
  match p.consume M chunk with
  | .error e => some (.error e)
  | .ok it =>
    match callNext M D n it with
    | none => none
    | some (.error e) => some (.error e)
    | some (.ok (rs, it)) =>
      if leak then some (.ok (rs, ⟨it.buf.buf⟩))
      else
        match it.buf.dropDual with
        | .error e => some (.error e)
        | .ok buf => some (.ok (rs, ⟨buf⟩))

/-- A history in which some iterators may be leaked (client code). -/
def sessionLeak (p : Parser T) : List (Bytes × Nat × Bool) →
    Option (R (List (List (Option (Except ParserError P))) × Parser T))
  | [] => some (.ok ([], p))
  | (chunk, n, leak) :: rest =>
    match feedLeak M D p chunk n leak with
    | none => none
    | some (.error e) => some (.error e)
    | some (.ok (rs, p)) =>
      match sessionLeak p rest with
      | none => none
      | some (.error e) => some (.error e)
      | some (.ok (rss, p)) => some (.ok (rs :: rss, p))

end Parser

end Ublox
