import Verif.Lemmas.Dispatch
import Verif.Model.Position

/-!
# The example program: reading a serial port

`examples/ublox-cli/src/main.rs`.  The serial port (crate `serialport`) is an arbitrary sequence of
answers to `read`.
-/

namespace Ublox

/-- What one call of `read` of the serial port does: it writes some bytes at the beginning of the
buffer and returns their number, or fails with the kind `TimedOut`, or fails in another way. -/
inductive PortRead (E : Type) where
  | data (bs : Bytes)
  | timedOut
  | failed (e : E)
  deriving DecidableEq, Repr

/-- The answers of the port to the successive calls of `read`. -/
abbrev Port (E : Type) := Nat → PortRead E

/-- `main.rs:407-410`, `Device`.  The port is represented by the number of `read` calls made so far;
its answers are an argument of the functions below. -/
structure Device (M : Nat) where
  reads : Nat
  parser : Parser (VecBuf M)

namespace Device

variable {P E σ : Type} (M : Nat) (D : Dispatch P)

/-- `main.rs:413-416`, `Device::new`; `Parser::default()` is a parser over the empty `Vec`. -/
def new : Device M := ⟨0, Parser.new ⟨[]⟩⟩

/-- `main.rs:467-478`, `read_port`: a timeout counts as zero bytes. -/
def readPort (r : PortRead E) : Except E Bytes :=
  match r with
  | .data bs => .ok bs
  | .timedOut => .ok []
  | .failed e => .error e

/-- `main.rs:424`, the size of the buffer for one `read` (it is also called `MAX_PAYLOAD_LEN`). -/
def localBufLen : Nat := 1240

/-- `main.rs:434-447`, the inner loop of `update`: packets are handed to the callback, errors are
ignored.  The callback changes what it has captured, `σ`, and may panic.  The outer `Option` is `none`
exactly if the loop does not terminate. -/
def drainIter (cb : P → σ → R σ) (it : ParserIter (VecBuf M)) (s : σ) :
    Option (R (σ × ParserIter (VecBuf M))) :=
  match ParserIter.next M D it with
  | none => none
  | some (.error p) => some (.error p)
  | some (.ok (none, it)) => some (.ok (s, it))
  | some (.ok (some (.error _), it)) => drainIter cb it s
  | some (.ok (some (.ok packet), it)) =>
    match cb packet s with
    | .error p => some (.error p)
    | .ok s => drainIter cb it s
partial_fixpoint

/-- `main.rs:433-447`, what happens with one chunk; at the end the iterator is dropped. -/
def handleChunk (cb : P → σ → R σ) (parser : Parser (VecBuf M)) (chunk : Bytes) (s : σ) :
    Option (R (σ × Parser (VecBuf M))) :=
  match parser.consume M chunk with
  | .error p => some (.error p)
  | .ok it =>
    match drainIter M D cb it s with
    | none => none
    | some (.error p) => some (.error p)
    | some (.ok (s, it)) =>
      match it.buf.dropDual with
      | .error p => some (.error p)
      | .ok buf => some (.ok (s, ⟨buf⟩))

/-- `main.rs:422-450`, `update`: reads until there are no more bytes.  A port that claims to have
written more bytes than the buffer has makes the slice `&local_buf[..nbytes]` panic. -/
def update (port : Port E) (cb : P → σ → R σ) (dev : Device M) (s : σ) :
    Option (R (Except E Unit × σ × Device M)) :=
  match readPort (port dev.reads) with
  | .error e => some (.ok (.error e, s, ⟨dev.reads + 1, dev.parser⟩))
  | .ok bs =>
    if bs.length = 0 then some (.ok (.ok (), s, ⟨dev.reads + 1, dev.parser⟩))
    else if localBufLen < bs.length then some (.error .slice)
    else
      match handleChunk M D cb dev.parser bs s with
      | none => none
      | some (.error p) => some (.error p)
      | some (.ok (s, parser)) => update port cb ⟨dev.reads + 1, parser⟩ s
partial_fixpoint

/-- `k` calls of `update` with the same callback, whatever they return (client code; the main loop,
`main.rs:332-377`, stops at an error). -/
def updates (port : Port E) (cb : P → σ → R σ) : Nat → Device M → σ →
    Option (R (List (Except E Unit) × σ × Device M))
  | 0, dev, s => some (.ok ([], s, dev))
  | k + 1, dev, s =>
    match update M D port cb dev s with
    | none => none
    | some (.error p) => some (.error p)
    | some (.ok (res, s, dev)) =>
      match updates port cb k dev s with
      | none => none
      | some (.error p) => some (.error p)
      | some (.ok (ress, s, dev)) => some (.ok (res :: ress, s, dev))

/-- `main.rs:455-461`, the callback of `wait_for_ack::<T>`; the state is `found_packet`.  A packet type
`T: UbxPacketMeta` is its declaration. -/
def ackCallback (t : PackDesc) (packet : PacketRef) (found : Bool) : R Bool :=
  match packet with
  | .known d payload =>
    if d = Gen.ackAck_ then do
      if (← Gen.ackAck_.getU8 "class" payload) = t.cls then
        if (← Gen.ackAck_.getU8 "msg_id" payload) = t.id then return true
        else return found
      else return found
    else .ok found
  | .unknown _ _ _ => .ok found

/-- `main.rs:454-463`, the loop of `wait_for_ack`. -/
def waitLoop (port : Port E) (t : PackDesc) (dev : Device M) (found : Bool) :
    Option (R (Except E Unit × Device M)) :=
  if found then some (.ok (.ok (), dev))
  else
    match update M crateDispatch port (ackCallback t) dev found with
    | none => none
    | some (.error p) => some (.error p)
    | some (.ok (.error e, _, dev)) => some (.ok (.error e, dev))
    | some (.ok (.ok (), found, dev)) => waitLoop port t dev found
partial_fixpoint

/-- `main.rs:452-464`, `wait_for_ack::<T>` -/
def waitForAck (port : Port E) (t : PackDesc) (dev : Device M) :
    Option (R (Except E Unit × Device M)) :=
  waitLoop M port t dev false

end Device

end Ublox
