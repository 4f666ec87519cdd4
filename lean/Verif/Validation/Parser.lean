import Verif.Validation.Buffer
import Verif.Model.Ack
import Verif.Model.Default
import Verif.Model.Serialize

/-!
# The tests of the parser and of packets, replayed on the model

Tests of the model, not proofs; see `Verif.Validation.Buffer`.
-/

namespace Ublox.Validation

open Gen Parser

/-- The dispatch of the crate (`match_packet` and `MAX_PAYLOAD_LEN`); a panic would appear as an
error. -/
def dispatch : Dispatch PacketRef where
  matchPacket c i p :=
    match matchPacket c i p with
    | .ok r => r
    | .error _ => .error (.invalidField "panic" "panic")
  maxPayloadLen := MAX_PAYLOAD_LEN

/-- An answer of the parser: name and payload of a packet, or an error. -/
inductive Ans where
  | packet (name : String) (payload : Bytes)
  | unknown (c i : UInt8) (payload : Bytes)
  | err (e : ParserError)
  | done
  deriving DecidableEq

/-- The answer as the tests see it. -/
def ans : Option (Except ParserError PacketRef) → Ans
  | some (.ok (.known d p)) => .packet d.name p
  | some (.ok (.unknown p c i)) => .unknown c i p
  | some (.error e) => .err e
  | none => .done

/-- The answers and the number of bytes kept after each chunk, for a history. -/
def run {T : Type} [UnderlyingBuffer T] (p : Parser T) :
    List (Bytes × Nat) → Option (List (List Ans × Nat))
  | [] => some []
  | (c, n) :: rest =>
    match feed maxUsize dispatch p c n with
    | some (.ok (rs, p)) => do return (rs.map ans, p.bufferLen) :: (← run p rest)
    | _ => none

/-- `Parser::default()` -/
def newVec : Parser (VecBuf maxUsize) := Parser.new (vec [])

/-- `Parser::new(FixedLinearBuffer::new(&mut [0; n]))` -/
def newFlb (n : Nat) : Parser (FixedLinearBuffer maxUsize) := Parser.new (flb n)

/-- `FULL_ACK_ACK_PACK`, ublox/tests/parser_tests.rs:31 -/
def fullAckAck : Bytes := [0xb5, 0x62, 0x5, 0x1, 0x2, 0x0, 0x6, 0x1, 0xf, 0x38]

/-- The packet of the tests of parser.rs. -/
def ackAck45 : Bytes := [0xb5, 0x62, 0x5, 0x1, 0x2, 0x0, 0x4, 0x5, 0x11, 0x38]

/-! ## ublox/tests/parser_tests.rs -/

-- `test_parse_empty_buffer`, 33-39
#guard newVec.isBufferEmpty && run newVec [([], 1)] == some [([.done], 0)]
-- `test_parse_ack_ack_byte_by_byte`, 41-54
#guard run newVec (fullAckAck.dropLast.map (fun b => ([b], 1)) ++ [([0x38], 2)]) ==
  some ((List.range 9).map (fun i => ([Ans.done], i + 1)) ++ [([.packet "AckAck" [6, 1], .done], 0)])
-- `test_parse_ack_ack_in_one_go`, 56-64
#guard run newVec [(fullAckAck, 2)] == some [([.packet "AckAck" [6, 1], .done], 0)]
-- `test_parse_ack_ack_bad_checksum`, 66-87
#guard run newVec [(fullAckAck.set 7 5, 2), (fullAckAck ++ fullAckAck, 3)] ==
  some [([.err (.invalidChecksum 0x380f 0x3c13), .done], 0),
    ([.packet "AckAck" [6, 1], .packet "AckAck" [6, 1], .done], 0)]
-- `test_parse_ack_ack_parted_two_packets`, 89-104
#guard run newVec [(fullAckAck.take 5, 1), (fullAckAck.drop 5 ++ fullAckAck, 3)] ==
  some [([.done], 5), ([.packet "AckAck" [6, 1], .packet "AckAck" [6, 1], .done], 0)]
-- `test_parse_ack_ack_two_in_one_go`, 106-116
#guard run newVec [(fullAckAck ++ fullAckAck, 3)] ==
  some [([.packet "AckAck" [6, 1], .packet "AckAck" [6, 1], .done], 0)]
-- `test_parse_ack_ack_garbage_before`, 118-138
#guard run newVec [([0x00, 0x06, 0x01, 0x0f, 0x38] ++ fullAckAck, 2),
    ([0xb5, 0xb5, 0x62, 0x62, 0x38] ++ fullAckAck, 2)] ==
  some [([.packet "AckAck" [6, 1], .done], 0), ([.packet "AckAck" [6, 1], .done], 0)]

/-- The builder of `test_parse_cfg_nav5`, 142-160; the fields that are not given are the default. -/
def cfgNav5Test : Builder :=
  [.flags 1, .enum ("AirborneWithLess1gAcceleration", 6), .enum ("Only3D", 2),
    .f64 (Fl.lit fmt64 (10017 / 100)), .f64 (Fl.lit fmt64 (17 / 10000)), .raw (.i8 17), .raw (.u8 0),
    .f32 (Fl.lit fmt32 (17 / 10)), .f32 (Fl.lit fmt32 (17 / 10)), .raw (.u16 17), .raw (.u16 17),
    .f32 (Fl.lit fmt32 (217 / 100)), .raw (.u8 17), .raw (.u8 17), .raw (.u8 17),
    .raw (.bytes [0, 0]), .raw (.u16 0x1717), .enum ("UtcChina", 7), .raw (.bytes [0, 0, 0, 0, 0])]

-- the fields that the test takes from `CfgNav5Builder::default()` are those of the model
#guard match cfgNav5_.default with
  | some b => [6, 15, 18].all fun i => b[i]? == cfgNav5Test[i]?
  | none => false

/-- The frame that the builder returns. -/
def cfgNav5Frame : Bytes := ((cfgNav5_.intoPacketBytes cfgNav5Test).toOption).getD []

/-- Its payload. -/
def cfgNav5Payload : Bytes := (cfgNav5Frame.drop 6).dropLast.dropLast

/-- `(x - y).abs() < e` on the exact values. -/
def closeTo (v : R Val) (y e : Rat) : Bool :=
  match v with
  | .ok (.f64 (.fin q)) => decide (q - y < e ∧ y - q < e)
  | .ok (.f32 (.fin q)) => decide (q - y < e ∧ y - q < e)
  | _ => false

-- `test_parse_cfg_nav5`, 140-196
#guard run newVec [(cfgNav5Frame, 2)] == some [([.packet "CfgNav5" cfgNav5Payload, .done], 0)]
#guard cfgNav5Frame.length == 44
#guard returns (cfgNav5_.get "mask" cfgNav5Payload) (.flags 1)
#guard returns (cfgNav5_.get "dyn_model" cfgNav5Payload) (.enum ("AirborneWithLess1gAcceleration", 6))
#guard returns (cfgNav5_.get "fix_mode" cfgNav5Payload) (.enum ("Only3D", 2))
#guard closeTo (cfgNav5_.get "fixed_alt" cfgNav5Payload) (10017 / 100) (1 / 100)
#guard returns (cfgNav5_.getRaw "fixed_alt" cfgNav5Payload) (.i32 10017)
#guard closeTo (cfgNav5_.get "fixed_alt_var" cfgNav5Payload) (17 / 10000) (1 / 10000)
#guard returns (cfgNav5_.get "min_elev_degrees" cfgNav5Payload) (.raw (.i8 17))
#guard closeTo (cfgNav5_.get "pdop" cfgNav5Payload) (17 / 10) (1 / 10)
#guard closeTo (cfgNav5_.get "tdop" cfgNav5Payload) (17 / 10) (1 / 10)
#guard returns (cfgNav5_.get "pacc" cfgNav5Payload) (.raw (.u16 17))
#guard returns (cfgNav5_.get "tacc" cfgNav5Payload) (.raw (.u16 17))
#guard closeTo (cfgNav5_.get "static_hold_thresh" cfgNav5Payload) (217 / 100) (1 / 100)
#guard returns (cfgNav5_.get "dgps_time_out" cfgNav5Payload) (.raw (.u8 17))
#guard returns (cfgNav5_.get "cno_thresh_num_svs" cfgNav5Payload) (.raw (.u8 17))
#guard returns (cfgNav5_.get "cno_thresh" cfgNav5Payload) (.raw (.u8 17))
#guard returns (cfgNav5_.get "static_hold_max_dist" cfgNav5Payload) (.raw (.u16 0x1717))
#guard returns (cfgNav5_.get "utc_standard" cfgNav5Payload) (.enum ("UtcChina", 7))

/-- The frame of `test_esf_meas_serialize`, 201-204 -/
def esfMeasFrame : Bytes := [181, 98, 16, 2, 16, 0, 243, 121, 129, 1, 24, 8, 0, 0, 77, 100, 0, 11, 211,
  148, 129, 1, 213, 198]

/-- Its payload. -/
def esfMeasPayload : Bytes := (esfMeasFrame.drop 6).dropLast.dropLast

-- `test_esf_meas_serialize`, 198-257 (JSON has no order: the order here is that of the code)
#guard run newVec [(esfMeasFrame, 2)] == some [([.packet "EsfMeas" esfMeasPayload, .done], 0)]
#guard match (PacketRef.known esfMeas_ esfMeasPayload).serializeAll maxUsize with
  | some (.ok entries) => entries ==
      [("class", .val (.raw (.u8 16))), ("msg_id", .val (.raw (.u8 2))),
        ("time_tag", .val (.raw (.u32 25262579))), ("flags", .val (.raw (.u16 2072))),
        ("id", .val (.raw (.u16 0))),
        ("data", .seq [.map [("data_type", .raw (.u8 11)), ("data_field", .raw (.u32 25677))]]),
        ("calib_tag", .val (.optU32 (some 25269459)))]
  | _ => false

-- `test_zero_sized_ackack`, 259-271
#guard run newVec [([0xb5, 0x62, 0x05, 0x01, 0x00, 0x00, 0x06, 0x17], 2)] ==
  some [([.unknown 5 1 [], .done], 0)]

-- `test_double_start_at_end`, 273-323
#guard run (newFlb 10) (([0xb5, 0x62, 0xb5, 0x62, 0x05, 0x01, 0x00, 0x00, 0x06, 0x17] : Bytes).map
      (fun b => ([b], 0)) ++ [(ackAck45, 4), (ackAck45, 2)]) ==
  some ((List.range 10).map (fun i => (([] : List Ans), i + 1)) ++
    [([.err (.outOfMemory (0x0105 + 2)), .unknown 5 1 [],
        .packet "AckAck" [4, 5], .done], 0),
      ([.packet "AckAck" [4, 5], .done], 0)])

/-! ## ublox/tests/generator_test.rs -/

-- `test_cfg_msg_simple`, 3-14
#guard returns (cfgMsgSinglePort_.intoPacketBytes (setRateForSinglePort navPosLlh_ 1))
  [0xb5, 0x62, 0x06, 0x01, 0x03, 0x00, 0x01, 0x02, 0x01, 0x0E, 0x47]
#guard returns (cfgMsgSinglePort_.intoPacketBytes (setRateForSinglePort navStatus_ 1))
  [0xb5, 0x62, 0x06, 0x01, 0x03, 0x00, 0x01, 0x03, 0x01, 0x0F, 0x49]

/-! ## ublox/src/parser.rs -/

-- `parser_oom_processes_multiple_small_packets`, 748-769
#guard run (newFlb 10) [((List.replicate 5 ackAck45).flatten, 6)] ==
  some [(List.replicate 5 (.packet "AckAck" [4, 5]) ++ [.done], 0)]
-- `parser_handle_garbage_first_byte`, 771-784
#guard run (newFlb 12) [(0xb5 :: ackAck45, 2)] == some [([.packet "AckAck" [4, 5], .done], 0)]
-- `parser_oom_clears_buffer`, 786-834
#guard run (newFlb 12) [(cfgNav5Frame.take 8, 1), (cfgNav5Frame.drop 8, 2), (ackAck45, 2)] ==
  some [([.done], 8), ([.err (.outOfMemory (cfgNav5Frame.length - 6)), .done], 0),
    ([.packet "AckAck" [4, 5], .done], 0)]
-- `parser_accepts_packet_array_underlying`, 836-865
#guard run (newFlb 1024) [(cfgNav5Frame, 2)] == some [([.packet "CfgNav5" cfgNav5Payload, .done], 0)]

/-- `CfgNav5Builder { pacc, ..CfgNav5Builder::default() }.into_packet_bytes()`, 902-914 -/
def cfgNav5Pacc (pacc : UInt16) : Bytes :=
  match cfgNav5_.default with
  | some b => ((cfgNav5_.intoPacketBytes (b.set 9 (.raw (.u16 pacc)))).toOption).getD []
  | none => []

-- `parser_accepts_multiple_packets`, 897-938
#guard match run newVec [(cfgNav5Pacc 21 ++ cfgNav5Pacc 18, 3)] with
  | some [([.packet n p, .packet n' p', .done], 0)] =>
    n == "CfgNav5" && n' == "CfgNav5" && returns (cfgNav5_.get "pacc" p) (.raw (.u16 21)) &&
      returns (cfgNav5_.get "pacc" p') (.raw (.u16 18))
  | _ => false
-- `test_max_payload_len`, 940-943
#guard MAX_PAYLOAD_LEN ≥ 1240

/-! ## ublox/src/ubx_packets/packets.rs -/

/-- The payload of `test_mon_ver_interpret`, 3722-3731 -/
def monVerPayload : Bytes := [
  82, 79, 77, 32, 67, 79, 82, 69, 32, 51, 46, 48, 49, 32, 40, 49, 48, 55, 56, 56, 56, 41, 0,
  0, 0, 0, 0, 0, 0, 0, 48, 48, 48, 56, 48, 48, 48, 48, 0, 0, 70, 87, 86, 69, 82, 61, 83, 80,
  71, 32, 51, 46, 48, 49, 0, 0, 0, 0, 0, 0, 0, 0, 0, 0, 0, 0, 0, 0, 0, 0, 80, 82, 79, 84, 86,
  69, 82, 61, 49, 56, 46, 48, 48, 0, 0, 0, 0, 0, 0, 0, 0, 0, 0, 0, 0, 0, 0, 0, 0, 0, 71, 80,
  83, 59, 71, 76, 79, 59, 71, 65, 76, 59, 66, 68, 83, 0, 0, 0, 0, 0, 0, 0, 0, 0, 0, 0, 0, 0,
  0, 0, 83, 66, 65, 83, 59, 73, 77, 69, 83, 59, 81, 90, 83, 83, 0, 0, 0, 0, 0, 0, 0, 0, 0, 0,
  0, 0, 0, 0, 0, 0]

/-- The bytes of an ASCII string. -/
def ascii (s : String) : Bytes := s.toList.map fun c => UInt8.ofNat c.toNat

-- `test_mon_ver_interpret`, 3720-3741
#guard match monVer_.validate monVerPayload with
  | .ok (.ok ()) => true
  | _ => false
#guard returns (monVer_.get "software_version" monVerPayload) (.str (ascii "ROM CORE 3.01 (107888)"))
#guard returns (monVer_.get "hardware_version" monVerPayload) (.str (ascii "00080000"))
#guard match monVer_.get "extension" monVerPayload with
  | .ok (.iter k data) =>
    match k.collectSeq maxUsize (k.new data) with
    | some (.ok items) => items == ["FWVER=SPG 3.01", "PROTVER=18.00", "GPS;GLO;GAL;BDS",
        "SBAS;IMES;QZSS"].map fun s => .str (ascii s)
    | _ => false
  | _ => false

end Ublox.Validation
