import Verif.Model.Buffer

/-!
# `DualBuffer`: the view of old buffer plus new chunk
-/

namespace Ublox

/-- Errors of the parser, `ublox/src/error.rs:23-41`.  Packet and field names are strings. -/
inductive ParserError where
  | invalidChecksum (expect got : UInt16)
  | invalidField (packet field : String)
  | invalidPacketLen (packet : String) (expect got : Nat)
  | outOfMemory (requiredSize : Nat)
  deriving DecidableEq, Repr

/-- `ublox/src/parser.rs:208-214`, `DualBuffer`.  The exclusive reference `buf` is owned here and
handed back by `dropDual`. -/
structure DualBuffer (T : Type) where
  buf : T
  off : Nat
  newBuf : Bytes
  newOff : Nat

namespace DualBuffer

open UnderlyingBuffer (len maxCapacity)

variable {T : Type} [UnderlyingBuffer T] (M : Nat)

/-- `ublox/src/parser.rs:229-236`, `new`. -/
def new (buf : T) (newBuf : Bytes) : DualBuffer T := ⟨buf, 0, newBuf, 0⟩

/-- `ublox/src/parser.rs:219-225`, `Index<usize>`. -/
def index (d : DualBuffer T) (i : Nat) : R UInt8 := do
  if (← uadd M d.off i) < len d.buf then
    UnderlyingBuffer.index d.buf (← uadd M i d.off)
  else
    getByte d.newBuf (← usub (← uadd M d.newOff i) (← usub (len d.buf) d.off))

/-- `ublox/src/parser.rs:244-250`, `drain`. -/
def drain (d : DualBuffer T) (count : Nat) : R (DualBuffer T) := do
  let underlyingBytes := min (← usub (len d.buf) d.off) count
  let newBytes := count - underlyingBytes
  return { d with
    off := ← uadd M d.off underlyingBytes
    newOff := ← uadd M d.newOff newBytes }

/-- `ublox/src/parser.rs:255-257`, `len`. -/
def length (d : DualBuffer T) : R Nat := do
  usub (← uadd M (← usub (len d.buf) d.off) d.newBuf.length) d.newOff

/-- `ublox/src/parser.rs:239-241`, `clear`. -/
def clear (d : DualBuffer T) : R (DualBuffer T) := do
  d.drain M (← d.length M)

/-- `ublox/src/parser.rs:261-267`, `potential_lost_bytes`. -/
def potentialLostBytes (d : DualBuffer T) : R Nat := do
  if (← d.length M) ≤ maxCapacity d.buf then
    return 0
  else
    usub (← d.length M) (maxCapacity d.buf)

/-- `ublox/src/parser.rs:269-300`, `can_drain_and_take`. -/
def canDrainAndTake (d : DualBuffer T) (drain take : Nat) : R Bool := do
  let underlyingBytes := min (← usub (len d.buf) d.off) drain
  let newBytes := drain - underlyingBytes
  let drainedOff ← uadd M d.off underlyingBytes
  let drainedNewOff ← uadd M d.newOff newBytes
  if take > (← usub (← uadd M (← usub (len d.buf) drainedOff) d.newBuf.length) drainedNewOff) then
    return false
  let underlyingBytes := min (← usub (len d.buf) drainedOff) take
  let newBytes := take - underlyingBytes
  if underlyingBytes == 0 then
    return true
  if newBytes == 0 then
    return true
  if newBytes > (← usub (maxCapacity d.buf) (← usub (len d.buf) drainedOff)) then
    return false
  return true

/-- `ublox/src/parser.rs:302-316`, `peek_raw(start..stop)`: the two slices. -/
def peekRaw (d : DualBuffer T) (start stop : Nat) : R (Bytes × Bytes) := do
  let split ← usub (len d.buf) d.off
  let a ←
    if start ≥ split then pure []
    else
      UnderlyingBuffer.range d.buf (← uadd M start d.off)
        (min (len d.buf) (← uadd M stop d.off))
  let b ←
    if stop ≤ split then pure []
    else
      sliceRange d.newBuf (← uadd M d.newOff (start - split))
        (← uadd M (← usub stop split) d.newOff)
  return (a, b)

/-- `ublox/src/parser.rs:321-375`, `take(count)`: the bytes of the returned slice, or the
`OutOfMemory` error, and the new state. -/
def take (d : DualBuffer T) (count : Nat) : R (Except ParserError Bytes × DualBuffer T) := do
  let underlyingBytes := min (← usub (len d.buf) d.off) count
  let newBytes := count - underlyingBytes
  if newBytes > (← usub d.newBuf.length d.newOff) then
    throw .explicit
  if underlyingBytes == 0 then
    let offset := d.newOff
    let d := { d with newOff := ← uadd M d.newOff count }
    return (.ok (← sliceRange d.newBuf offset (← uadd M offset count)), d)
  if newBytes == 0 then
    let offset := d.off
    let d := { d with off := ← uadd M d.off count }
    return (.ok (← UnderlyingBuffer.range d.buf offset (← uadd M offset count)), d)
  if maxCapacity d.buf < count then
    return (.error (.outOfMemory count), d)
  if newBytes < (← usub (maxCapacity d.buf) (len d.buf)) then
    let (buf, bytesNotMoved) ←
      UnderlyingBuffer.extendFromSlice d.buf (← sliceFrom d.newBuf d.newOff)
    let moved ← usub (← usub d.newBuf.length d.newOff) bytesNotMoved
    let newOff ← uadd M d.newOff moved
    let off := d.off
    let d : DualBuffer T := ⟨buf, ← uadd M d.off count, d.newBuf, newOff⟩
    return (.ok (← UnderlyingBuffer.range d.buf off (← uadd M off count)), d)
  let buf ← UnderlyingBuffer.drain d.buf d.off
  let (buf, _) ←
    UnderlyingBuffer.extendFromSlice buf
      (← sliceRange d.newBuf d.newOff (← uadd M d.newOff newBytes))
  let newOff ← uadd M d.newOff newBytes
  let d : DualBuffer T := ⟨buf, ← uadd M 0 count, d.newBuf, newOff⟩
  return (.ok (← UnderlyingBuffer.range d.buf 0 count), d)

/-- `ublox/src/parser.rs:378-384`, `Drop for DualBuffer`: what is left in the parser's buffer.
The return value of `extend_from_slice` (bytes that did not fit) is ignored. -/
def dropDual (d : DualBuffer T) : R T := do
  let buf ← UnderlyingBuffer.drain d.buf d.off
  let (buf, _) ← UnderlyingBuffer.extendFromSlice buf (← sliceFrom d.newBuf d.newOff)
  return buf

end DualBuffer

end Ublox
