import Verif.Model.GenPackets
import Verif.Model.GenCfgVal
import Verif.Model.Parser

/-!
# The receive enum `PacketRef`
-/

namespace Ublox

/-- `ublox_derive/src/output.rs:758-764`, the generated enum: a packet of the list with its
payload, or an unknown packet (`ublox/src/ubx_packets.rs:86-92`). -/
inductive PacketRef where
  | known (d : PackDesc) (payload : Bytes)
  | unknown (payload : Bytes) (cls msgId : UInt8)
  deriving DecidableEq, Repr

/-- `ublox_derive/src/output.rs:766-773`, `class_and_msg_id` -/
def PacketRef.classAndMsgId : PacketRef → UInt8 × UInt8
  | .known d _ => (d.cls, d.id)
  | .unknown _ cls msgId => (cls, msgId)

/-- `as_bytes` of the packet (`ublox_derive/src/output.rs:262-264`) respectively the field `payload`
of an unknown packet -/
def PacketRef.payload : PacketRef → Bytes
  | .known _ p => p
  | .unknown p _ _ => p

/-- `ublox_derive/src/output.rs:775-784`, `match_packet`, for a list of packets: the arms are tried
in order, each with the guard `validate(payload).is_ok()`. -/
def matchPacketIn (cls msgId : UInt8) (payload : Bytes) : List PackDesc → R (Except ParserError PacketRef)
  | [] => .ok (.ok (.unknown payload cls msgId))
  | d :: ds =>
    if cls = d.cls ∧ msgId = d.id then do
      match ← d.validate payload with
      | .ok () => return .ok (.known d payload)
      | .error _ => matchPacketIn cls msgId payload ds
    else matchPacketIn cls msgId payload ds

/-- `ublox_derive/src/output.rs:775-784`, `match_packet` -/
def matchPacket (cls msgId : UInt8) (payload : Bytes) : R (Except ParserError PacketRef) :=
  matchPacketIn cls msgId payload Gen.recvPackets

/-- `ublox_derive/src/output.rs:751-756`, `786-789`: `MAX_PAYLOAD_LEN` -/
def MAX_PAYLOAD_LEN : Nat := Gen.recvPackets.foldl (fun prev d => max d.maxPayloadLen prev) 0

/-! ## Serialization -/

/-- `ublox_derive/src/output.rs:35-53`, `serialize_fields`: the keys with the value of the
accessor. -/
def PackDesc.serializeFields (d : PackDesc) (payload : Bytes) : List Getter → R (List (String × Val))
  | [] => .ok []
  | g :: gs => do
    let v ← g.run d payload
    return (g.field.name, v) :: (← d.serializeFields payload gs)

/-- `ublox_derive/src/output.rs:11-28`, the `Debug` implementation calls the same accessors with the
same names. -/
def PackDesc.debugFields (d : PackDesc) (payload : Bytes) : R (List (String × Val)) :=
  d.serializeFields payload d.getters

/-- `ublox_derive/src/output.rs:791-823`, serialization of a `PacketRef` as a map; the unknown
packet is serialized by the derived implementation (`ublox/src/ubx_packets.rs:86-92`). -/
def PacketRef.serialize : PacketRef → R (List (String × Val))
  | .known d payload => do
    return [("class", .raw (.u8 d.cls)), ("msg_id", .raw (.u8 d.id))]
      ++ (← d.serializeFields payload d.getters)
  | .unknown payload cls msgId =>
    .ok [("payload", .raw (.bytes payload)), ("class", .raw (.u8 cls)), ("msg_id", .raw (.u8 msgId))]

end Ublox
