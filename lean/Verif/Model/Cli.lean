import Verif.Model.Device
import Verif.Model.Serialize
import Verif.Model.Ack
import Verif.Model.Time

/-!
# The example program: messages that are printed, configuration that is sent

`examples/ublox-cli/src/main.rs`.  What is printed is represented by the values that are handed to
`println!`, without the formatting.
-/

namespace Ublox.Cli

open Gen

/-- What one `println!` of the message handler shows. -/
inductive Printed where
  /-- `main.rs:336-341` -/
  | version (software hardware : Val) (extensions : List IterItem)
  /-- `main.rs:342`, `362`, `373`: the accessors in the order of `Debug` -/
  | packet (fields : List (String × Val))
  /-- `main.rs:373`: the derived `Debug` of an unknown packet -/
  | unknown (payload : Bytes) (cls msgId : UInt8)
  /-- `main.rs:354-357` -/
  | position (pos : Position)
  /-- `main.rs:358-361` -/
  | velocity (vel : Velocity)
  /-- `main.rs:369` -/
  | time (t : DateTime)
  deriving DecidableEq, Repr

/-- `collect::<Vec<_>>()` of the standard library on an iterator, as at `main.rs:340`.  The result is
`none` if this does not terminate. -/
def collect (M : Nat) (k : IterKind) (st : IterState) : Option (R (List IterItem)) :=
  match k.next M st with
  | .error p => some (.error p)
  | .ok (none, _) => some (.ok [])
  | .ok (some x, st) => do
    let xs ← collect M k st
    return xs.map (x :: ·)
partial_fixpoint

/-- `main.rs:335-343`, the arm for `MonVer` -/
def handleMonVer (M : Nat) (payload : Bytes) : Option (R (List Printed)) :=
  match monVer_.get "software_version" payload with
  | .error p => some (.error p)
  | .ok software =>
  match monVer_.get "hardware_version" payload with
  | .error p => some (.error p)
  | .ok hardware =>
  match monVer_.get "extension" payload with
  | .error p => some (.error p)
  | .ok (.iter k data) =>
    match collect M k (k.new data) with
    | none => none
    | some (.error p) => some (.error p)
    | some (.ok items) =>
      match monVer_.debugFields payload with
      | .error p => some (.error p)
      | .ok fields => some (.ok [.version software hardware items, .packet fields])
  | .ok _ => some (.error .illTyped)

/-- `==` of `GpsFix` with the variant of a name (derived `PartialEq`). -/
def isFix (v : Val) (name : String) : Bool :=
  match v with
  | .enum x => x.1 == name
  | _ => false

/-- `main.rs:344-371`, the arm for `NavPvt` -/
def handleNavPvt (payload : Bytes) : R (List Printed) := do
  let fix ← navPvt_.get "fix_type" payload
  let hasTime := isFix fix "Fix3D" || isFix fix "GPSPlusDeadReckoning" || isFix fix "TimeOnlyFix"
  let hasPosvel := isFix fix "Fix3D" || isFix fix "GPSPlusDeadReckoning"
  let posvel ← if hasPosvel then do
      let pos ← positionFromNavPvt payload
      let vel ← velocityFromNavPvt payload
      let fields ← navPvt_.debugFields payload
      pure [.position pos, .velocity vel, .packet fields]
    else pure []
  let time ← if hasTime then do
      match ← dateTimeFromNavPvt payload with
      | .error _ => throw .unwrap
      | .ok t => pure [.time t]
    else pure []
  return posvel ++ time

/-- `main.rs:334-375`, the callback of the main loop. -/
def handle (M : Nat) : PacketRef → Option (R (List Printed))
  | .known d payload =>
    if d = monVer_ then handleMonVer M payload
    else if d = navPvt_ then some (handleNavPvt payload)
    else some (do return [.packet (← d.debugFields payload)])
  | .unknown payload cls msgId => some (.ok [.unknown payload cls msgId])

/-- `main.rs:334-375`, the callback as a function on what has been printed so far.  The value for a
callback that does not terminate is arbitrary; by `c64_handler` there is none. -/
def callback (M : Nat) (packet : PacketRef) (out : List Printed) : R (List Printed) :=
  match handle M packet with
  | none => .error .illTyped
  | some (.error p) => .error p
  | some (.ok xs) => .ok (out ++ xs)

/-- `main.rs:332-377`, the main loop: its type `!` is `Empty`. -/
def mainLoop {E : Type} (M : Nat) (port : Port E) (dev : Device M) (out : List Printed) :
    Option (R Empty) :=
  match dev.update M crateDispatch port (callback M) out with
  | none => none
  | some (.error p) => some (.error p)
  | some (.ok (.error _, _, _)) => some (.error .unwrap)
  | some (.ok (.ok (), out, dev)) => mainLoop M port dev out
partial_fixpoint

/-! ## The configuration that is sent -/

/-- The arguments of the subcommand `configure` as `clap` has stored them, `main.rs:57-155`: values
of the options by their ids and the flags. -/
structure Args where
  port : Option String
  cfgBaud : Option UInt32
  stopBits : Option String
  dataBits : Option String
  parity : Option String
  inUblox : Bool
  inNmea : Bool
  inRtcm : Bool
  inRtcm3 : Bool
  outUblox : Bool
  outNmea : Bool
  outRtcm3 : Bool
  deriving DecidableEq, Repr

/-- `get_one::<u32>(id)` of `clap` for the subcommand, whose only numeric option is declared as
`cfg-baud` (`main.rs:72`).  For an id that was not declared `clap` panics if debug assertions are on
and returns `None` otherwise. -/
def Args.getU32 (debug : Bool) (a : Args) (id : String) : R (Option UInt32) :=
  if id = "cfg-baud" then .ok a.cfgBaud
  else if debug then .error .explicit
  else .ok none

/-- The enumerations of the crate `serialport` as far as they are used, `main.rs:3-6`.  `DataBits`
of that crate has two more values. -/
inductive SerialDataBits where
  | five | six | seven | eight
  deriving DecidableEq, Repr
@[inherit_doc SerialDataBits] inductive SerialParity where
  | none | odd | even
  deriving DecidableEq, Repr
@[inherit_doc SerialDataBits] inductive SerialStopBits where
  | one | two
  deriving DecidableEq, Repr

/-- `main.rs:380-386` -/
def ubloxStopbits : SerialStopBits → StopBits
  | .one => .one
  | .two => .two

/-- `main.rs:388-397` -/
def ubloxDatabits : SerialDataBits → DataBits
  | .seven => .seven
  | .eight => .eight
  | _ => .eight

/-- `main.rs:399-405` -/
def ubloxParity : SerialParity → Parity
  | .even => .even
  | .odd => .odd
  | .none => .none

/-- The arguments of the program itself as `clap` has stored them, `main.rs:16-55`. -/
structure MainArgs where
  port : String
  baud : Option UInt32
  stopBits : Option String
  dataBits : Option String
  parity : Option String
  deriving DecidableEq, Repr

/-- What the serial port is opened with. -/
structure PortSettings where
  port : String
  baud : UInt32
  stopBits : SerialStopBits
  dataBits : SerialDataBits
  parity : SerialParity
  deriving DecidableEq, Repr

/-- `main.rs:158-188`; `none` stands for `exit(1)`.  The timeout and the flow control are left out. -/
def portSettings (a : MainArgs) : Option PortSettings :=
  let baud := a.baud.getD 9600
  let stopBits := if a.stopBits = some "2" then .two else .one
  let data : Option SerialDataBits :=
    if a.dataBits = some "7" then some .seven
    else if a.dataBits = some "8" then some .eight
    else none
  match data with
  | none => none
  | some dataBits =>
    let parity :=
      if a.parity = some "odd" then .even
      else if a.parity = some "even" then .odd
      else .none
    some ⟨a.port, baud, stopBits, dataBits, parity⟩

/-- `main.rs:200-205` -/
def portId (a : Args) : Option Variant :=
  if a.port = some "usb" then some ("Usb", 3)
  else if a.port = some "uart1" then some ("Uart1", 1)
  else if a.port = some "uart2" then some ("Uart2", 2)
  else none

/-- `main.rs:209-215` -/
def stopBits (a : Args) : SerialStopBits := if a.stopBits = some "2" then .two else .one

/-- `main.rs:217-227`; `none` stands for `exit(1)`. -/
def dataBits (a : Args) : Option SerialDataBits :=
  if a.dataBits = some "7" then some .seven
  else if a.dataBits = some "8" then some .eight
  else none

/-- `main.rs:229-233` -/
def parity (a : Args) : SerialParity :=
  if a.parity = some "odd" then .even
  else if a.parity = some "even" then .odd
  else .none

/-- `main.rs:234-264`; `none` stands for `exit(1)`.  The constants of `InProtoMask` are UBLOX 1,
NMEA 2, RTCM 4, RTCM3 0x20 (`packets.rs:2061-2077`). -/
def inProto (a : Args) : Option Nat :=
  match a.inUblox, a.inNmea, a.inRtcm, a.inRtcm3 with
  | true, false, false, false => some 1
  | false, true, false, false => some 2
  | false, false, true, false => some 4
  | false, false, false, true => some 0x20
  | true, true, false, false => some (1 ||| 2)
  | true, false, true, false => some (1 ||| 4)
  | true, false, false, true => some (1 ||| 0x20)
  | false, true, true, false => some (2 ||| 4)
  | false, true, false, true => some (2 ||| 0x20)
  | true, true, true, false => some ((1 ||| 2) ||| 4)
  | true, true, false, true => some ((1 ||| 2) ||| 0x20)
  | _, _, true, true => none
  | false, false, false, false => some 1

/-- `main.rs:266-282`; the constants of `OutProtoMask` are UBLOX 1, NMEA 2, RTCM3 0x20
(`packets.rs:2079-2094`). -/
def outProto (a : Args) : Nat :=
  match a.outUblox, a.outNmea, a.outRtcm3 with
  | true, false, false => 1
  | false, true, false => 2
  | false, false, true => 0x20
  | true, true, false => 1 ||| 2
  | true, false, true => 1 ||| 0x20
  | false, true, true => 2 ||| 0x20
  | true, true, true => (1 ||| 2) ||| 0x20
  | false, false, false => 1

/-- `main.rs:199-305`, what is sent for the subcommand `configure`: an outer `none` stands for
`exit(1)`, an inner one for a port name that is not known (then nothing is sent). -/
def configure (debug : Bool) (a : Args) : R (Option (Option Bytes)) := do
  let baud := (← a.getU32 debug "baud").getD 9600
  match dataBits a with
  | none => return none
  | some dataBits =>
    match inProto a with
    | none => return none
    | some inproto =>
      match portId a with
      | none => return some none
      | some portId =>
        let mode : UartMode := ⟨ubloxDatabits dataBits, ubloxParity (parity a), ubloxStopbits (stopBits a)⟩
        let bytes ← cfgPrtUart_.intoPacketBytes
          [.enum portId, .raw (.u8 0), .raw (.u16 0), .uartMode mode, .raw (.u32 baud),
            .flags inproto, .flags (outProto a), .raw (.u16 0), .raw (.u16 0)]
        return some (some bytes)

/-- A step of the program before its main loop. -/
inductive Start where
  /-- `exit(1)` -/
  | exit
  /-- the main loop is reached; `written`: what was written to the port -/
  | ready (written : List Bytes)

/-- `write_all` of the port with `expect`: writes succeed or fail, `failed n` says which. -/
def write (failed : Nat → Bool) (written : List Bytes) (bytes : Bytes) : R (List Bytes) :=
  if failed written.length then .error .unwrap else .ok (written ++ [bytes])

/-- `wait_for_ack` with `expect`. -/
def expectAck {E : Type} (M : Nat) (port : Port E) (t : PackDesc) (dev : Device M) :
    Option (R (Device M)) :=
  match dev.waitForAck M port t with
  | none => none
  | some (.error p) => some (.error p)
  | some (.ok (.error _, _)) => some (.error .unwrap)
  | some (.ok (.ok (), dev)) => some (.ok dev)

/-- `main.rs:316-328`, after the subcommand: enable NAV-PVT, wait, ask for MON-VER. -/
def enable {E : Type} (M : Nat) (port : Port E) (failed : Nat → Bool) (dev : Device M)
    (written : List Bytes) : Option (R (Start × Device M)) :=
  match (do write failed written (← cfgMsgAllPorts_.intoPacketBytes
      (setRateForAllPorts navPvt_ [0, 1, 1, 1, 0, 0])) : R (List Bytes)) with
  | .error p => some (.error p)
  | .ok written =>
    match expectAck M port cfgMsgAllPorts_ dev with
    | none => none
    | some (.error p) => some (.error p)
    | some (.ok dev) => some (do
        let written ← write failed written (← monVer_.requestFor)
        return (.ready written, dev))

/-- `main.rs:196-328`, from the open port to the main loop; `cmd` are the arguments of `configure` if
it was given. -/
def startUp {E : Type} (M : Nat) (port : Port E) (failed : Nat → Bool) (debug : Bool)
    (cmd : Option Args) : Option (R (Start × Device M)) :=
  let dev := Device.new M
  match cmd with
  | none => enable M port failed dev []
  | some a =>
    match configure debug a with
    | .error p => some (.error p)
    | .ok none => some (.ok (.exit, dev))
    | .ok (some none) => enable M port failed dev []
    | .ok (some (some bytes)) =>
      match write failed [] bytes with
      | .error p => some (.error p)
      | .ok written =>
        match expectAck M port cfgPrtUart_ dev with
        | none => none
        | some (.error p) => some (.error p)
        | some (.ok dev) => enable M port failed dev written

end Ublox.Cli
