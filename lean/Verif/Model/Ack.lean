import Verif.Model.GenPackets

/-!
# Functions that are generic in a packet type

A packet type that implements `UbxPacketMeta` is modelled by its declaration; its constants `CLASS`
and `ID` are the `cls` and `id` of the declaration.
-/

namespace Ublox

/-- An accessor call whose result is a `u8`. -/
def PackDesc.getU8 (d : PackDesc) (name : String) (payload : Bytes) : R UInt8 := do
  match ← d.get name payload with
  | .raw (.u8 x) => return x
  | _ => .error .illTyped

/-- `packets.rs:1299-1301`, `AckAckRef::is_ack_for::<T>` -/
def isAckFor (t : PackDesc) (payload : Bytes) : R Bool := do
  if (← Gen.ackAck_.getU8 "class" payload) = t.cls then
    return (← Gen.ackAck_.getU8 "msg_id" payload) = t.id
  else return false

/-- `packets.rs:1316-1318`, `AckNakRef::is_nak_for::<T>` -/
def isNakFor (t : PackDesc) (payload : Bytes) : R Bool := do
  if (← Gen.ackNak_.getU8 "class" payload) = t.cls then
    return (← Gen.ackNak_.getU8 "msg_id" payload) = t.id
  else return false

/-- `packets.rs:2203-2209`, `CfgMsgSinglePortBuilder::set_rate_for::<T>` -/
def setRateForSinglePort (t : PackDesc) (rate : UInt8) : Builder :=
  [.raw (.u8 t.cls), .raw (.u8 t.id), .raw (.u8 rate)]

/-- `packets.rs:2228-2234`, `CfgMsgAllPortsBuilder::set_rate_for::<T>`; `rates` has 6 elements. -/
def setRateForAllPorts (t : PackDesc) (rates : Bytes) : Builder :=
  [.raw (.u8 t.cls), .raw (.u8 t.id), .raw (.bytes rates)]

end Ublox
