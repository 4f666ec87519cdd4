import Verif.Model.Code

/-! Generated by `tools/gencode.py`: the functions of hand-written files of `/repo` as syntax; do not edit. -/

namespace Ublox.Gen
open Code

/-- `ublox/src/ubx_packets.rs:1-52` -/
def metaRs_UbxPacketMeta_impl : Impl := ⟨[i!"UbxPacketMeta"], i!"UbxPacketMeta", []⟩

/-- `ublox/src/ubx_packets.rs:17` -/
def metaRs_SYNC_CHAR_1 : Fn where
  name := i!"SYNC_CHAR_1"
  params := []
  ret := i!"u8"
  body :=
    .last (.int 181)

/-- `ublox/src/ubx_packets.rs:1-52` -/
def metaRs_SYNC_CHAR_1_impl : Impl := ⟨[i!"mod"], i!"", [metaRs_SYNC_CHAR_1]⟩

/-- `ublox/src/ubx_packets.rs:18` -/
def metaRs_SYNC_CHAR_2 : Fn where
  name := i!"SYNC_CHAR_2"
  params := []
  ret := i!"u8"
  body :=
    .last (.int 98)

/-- `ublox/src/ubx_packets.rs:1-52` -/
def metaRs_SYNC_CHAR_2_impl : Impl := ⟨[i!"mod"], i!"", [metaRs_SYNC_CHAR_2]⟩

/-- `ublox/src/ubx_packets.rs:24` -/
def metaRs_ubx_checksum : Fn where
  name := i!"ubx_checksum"
  params := [i!"data"]
  ret := i!""
  body :=
    .let_
      (.name i!"ck_a")
      (.cast (.int 0) i!"u8")
      (.let_
        (.name i!"ck_b")
        (.cast (.int 0) i!"u8")
        (.semi
          (.for_
            i!"byte"
            (.path [i!"data"])
            (.semi
              (.assign
                (.path [i!"ck_a"])
                (.field
                  (.meth
                    (.path [i!"ck_a"])
                    i!"overflowing_add"
                    (.cons
                      (.un .deref (.path [i!"byte"]))
                      .nil))
                  i!"0"))
              (.semi
                (.assign
                  (.path [i!"ck_b"])
                  (.field
                    (.meth
                      (.path [i!"ck_b"])
                      i!"overflowing_add"
                      (.cons
                        (.path [i!"ck_a"])
                        .nil))
                    i!"0"))
                .nil)))
          (.last
            (.tuple
              (.cons
                (.path [i!"ck_a"])
                (.cons (.path [i!"ck_b"]) .nil))))))

/-- `ublox/src/ubx_packets.rs:1-52` -/
def metaRs_ubx_checksum_impl : Impl := ⟨[i!"mod"], i!"", [metaRs_ubx_checksum]⟩

/-- `ublox/src/ubx_packets.rs:42` -/
def metaRs_UbxChecksumCalc_update : Fn where
  name := i!"update"
  params := [i!"self", i!"chunk"]
  ret := i!""
  body :=
    .last
      (.for_
        i!"byte"
        (.path [i!"chunk"])
        (.semi
          (.assign
            (.field (.path [i!"self"]) i!"ck_a")
            (.field
              (.meth
                (.field (.path [i!"self"]) i!"ck_a")
                i!"overflowing_add"
                (.cons
                  (.un .deref (.path [i!"byte"]))
                  .nil))
              i!"0"))
          (.semi
            (.assign
              (.field (.path [i!"self"]) i!"ck_b")
              (.field
                (.meth
                  (.field (.path [i!"self"]) i!"ck_b")
                  i!"overflowing_add"
                  (.cons
                    (.field (.path [i!"self"]) i!"ck_a")
                    .nil))
                i!"0"))
            .nil)))

/-- `ublox/src/ubx_packets.rs:48` -/
def metaRs_UbxChecksumCalc_result : Fn where
  name := i!"result"
  params := [i!"self"]
  ret := i!""
  body :=
    .last
      (.tuple
        (.cons
          (.field (.path [i!"self"]) i!"ck_a")
          (.cons
            (.field (.path [i!"self"]) i!"ck_b")
            .nil)))

/-- `ublox/src/ubx_packets.rs:1-52` -/
def metaRs_UbxChecksumCalc_impl : Impl := ⟨[], i!"UbxChecksumCalc", [metaRs_UbxChecksumCalc_update, metaRs_UbxChecksumCalc_result]⟩

/-- `ublox/src/ubx_packets.rs:1-52` -/
def metaRs_UbxChecksumCalc_decl : Decl := .struct i!"UbxChecksumCalc" [(i!"ck_a", i!"u8"), (i!"ck_b", i!"u8")]

/-- `ublox/src/ubx_packets.rs:53-93` -/
def metaRs_MemWriter_impl : Impl := ⟨[i!"MemWriter"], i!"MemWriter", []⟩

/-- `ublox/src/ubx_packets.rs:58` -/
def metaRs_Vec_MemWriter_reserve_allocate : Fn where
  name := i!"reserve_allocate"
  params := [i!"self", i!"len"]
  ret := i!""
  body :=
    .semi
      (.meth
        (.path [i!"self"])
        i!"reserve"
        (.cons (.path [i!"len"]) .nil))
      (.last
        (.call
          [i!"Ok"]
          (.cons
            (.tuple .nil)
            .nil)))

/-- `ublox/src/ubx_packets.rs:59` -/
def metaRs_Vec_MemWriter_write : Fn where
  name := i!"write"
  params := [i!"self", i!"buf"]
  ret := i!""
  body :=
    .let_
      (.name i!"ret")
      (.try_
        (.meth
          (.call
            [i!"dyn", i!"std", i!"io", i!"Write", i!"write"]
            (.cons
              (.path [i!"self"])
              (.cons (.path [i!"buf"]) .nil)))
          i!"map_err"
          (.cons
            (.path [i!"MemWriterError", i!"Custom"])
            .nil)))
      (.last
        (.ite
          (.bin
            .eq
            (.path [i!"ret"])
            (.meth (.path [i!"buf"]) i!"len" .nil))
          (.last
            (.call
              [i!"Ok"]
              (.cons
                (.tuple .nil)
                .nil)))
          (.last
            (.call
              [i!"Err"]
              (.cons
                (.path
                  [i!"MemWriterError", i!"NotEnoughMem"])
                .nil)))))

/-- `ublox/src/ubx_packets.rs:53-93` -/
def metaRs_Vec_MemWriter_impl : Impl := ⟨[i!"MemWriter"], i!"Vec", [metaRs_Vec_MemWriter_reserve_allocate, metaRs_Vec_MemWriter_write]⟩

/-- `ublox/src/ubx_packets.rs:53-93` -/
def metaRs_UbxPacketCreator_impl : Impl := ⟨[i!"UbxPacketCreator"], i!"UbxPacketCreator", []⟩

/-- `ublox/src/ubx_packets.rs:53-93` -/
def metaRs_UbxUnknownPacketRef_decl : Decl := .struct i!"UbxUnknownPacketRef" [(i!"payload", i!""), (i!"class", i!"u8"), (i!"msg_id", i!"u8")]

/-- `ublox/src/ubx_packets.rs:101` -/
def metaRs_UbxPacketRequest_PACKET_LEN : Fn where
  name := i!"PACKET_LEN"
  params := []
  ret := i!"usize"
  body :=
    .last (.int 8)

/-- `ublox/src/ubx_packets.rs:104` -/
def metaRs_UbxPacketRequest_request_for : Fn where
  name := i!"request_for"
  params := []
  ret := i!"Self"
  body :=
    .last
      (.struct
        [i!"Self"]
        (.cons
          i!"req_class"
          (.path [i!"T", i!"CLASS"])
          (.cons
            i!"req_id"
            (.path [i!"T", i!"ID"])
            .nil)))

/-- `ublox/src/ubx_packets.rs:111` -/
def metaRs_UbxPacketRequest_request_for_unknown : Fn where
  name := i!"request_for_unknown"
  params := [i!"req_class", i!"req_id"]
  ret := i!"Self"
  body :=
    .last
      (.struct
        [i!"Self"]
        (.cons
          i!"req_class"
          (.path [i!"req_class"])
          (.cons
            i!"req_id"
            (.path [i!"req_id"])
            .nil)))

/-- `ublox/src/ubx_packets.rs:116` -/
def metaRs_UbxPacketRequest_into_packet_bytes : Fn where
  name := i!"into_packet_bytes"
  params := [i!"self"]
  ret := i!""
  body :=
    .let_
      (.name i!"ret")
      (.array
        (.cons
          (.path [i!"SYNC_CHAR_1"])
          (.cons
            (.path [i!"SYNC_CHAR_2"])
            (.cons
              (.field (.path [i!"self"]) i!"req_class")
              (.cons
                (.field (.path [i!"self"]) i!"req_id")
                (.cons
                  (.int 0)
                  (.cons
                    (.int 0)
                    (.cons
                      (.int 0)
                      (.cons (.int 0) .nil)))))))))
      (.let_
        (.pair i!"ck_a" i!"ck_b")
        (.call
          [i!"ubx_checksum"]
          (.cons
            (.un
              .ref
              (.index
                (.path [i!"ret"])
                (.range (.int 2) (.int 6))))
            .nil))
        (.semi
          (.assign
            (.index (.path [i!"ret"]) (.int 6))
            (.path [i!"ck_a"]))
          (.semi
            (.assign
              (.index (.path [i!"ret"]) (.int 7))
              (.path [i!"ck_b"]))
            (.last (.path [i!"ret"])))))

/-- `ublox/src/ubx_packets.rs:94-132` -/
def metaRs_UbxPacketRequest_impl : Impl := ⟨[], i!"UbxPacketRequest", [metaRs_UbxPacketRequest_PACKET_LEN, metaRs_UbxPacketRequest_request_for, metaRs_UbxPacketRequest_request_for_unknown, metaRs_UbxPacketRequest_into_packet_bytes]⟩

/-- `ublox/src/ubx_packets.rs:94-132` -/
def metaRs_UbxPacketRequest_decl : Decl := .struct i!"UbxPacketRequest" [(i!"req_class", i!"u8"), (i!"req_id", i!"u8")]

/-- `ublox/src/ubx_packets.rs:1-132`, all functions -/
def metaRs_code : List Impl :=
  [metaRs_UbxPacketMeta_impl, metaRs_SYNC_CHAR_1_impl, metaRs_SYNC_CHAR_2_impl, metaRs_ubx_checksum_impl, metaRs_UbxChecksumCalc_impl, metaRs_MemWriter_impl, metaRs_Vec_MemWriter_impl, metaRs_UbxPacketCreator_impl, metaRs_UbxPacketRequest_impl]

/-- `ublox/src/ubx_packets.rs:1-132`, all structures and enumerations that no macro is called for -/
def metaRs_decls : List Decl :=
  [metaRs_UbxChecksumCalc_decl, metaRs_UbxUnknownPacketRef_decl, metaRs_UbxPacketRequest_decl]

/-- `ublox/src/ubx_packets/types.rs:45` -/
def typesRs_Position_From_NavPosLlhRef_from : Fn where
  name := i!"from"
  params := [i!"packet"]
  ret := i!"Self"
  body :=
    .last
      (.struct
        [i!"Position"]
        (.cons
          i!"lon"
          (.meth
            (.path [i!"packet"])
            i!"lon_degrees"
            .nil)
          (.cons
            i!"lat"
            (.meth
              (.path [i!"packet"])
              i!"lat_degrees"
              .nil)
            (.cons
              i!"alt"
              (.meth
                (.path [i!"packet"])
                i!"height_msl"
                .nil)
              .nil))))

/-- `ublox/src/ubx_packets/types.rs:1-53` -/
def typesRs_Position_From_NavPosLlhRef_impl : Impl := ⟨[i!"From", i!"NavPosLlhRef"], i!"Position", [typesRs_Position_From_NavPosLlhRef_from]⟩

/-- `ublox/src/ubx_packets/types.rs:1-53` -/
def typesRs_Position_decl : Decl := .struct i!"Position" [(i!"lon", i!"f64"), (i!"lat", i!"f64"), (i!"alt", i!"f64")]

/-- `ublox/src/ubx_packets/types.rs:1-53` -/
def typesRs_PositionECEF_decl : Decl := .struct i!"PositionECEF" [(i!"x", i!"f64"), (i!"y", i!"f64"), (i!"z", i!"f64")]

/-- `ublox/src/ubx_packets/types.rs:1-53` -/
def typesRs_Velocity_decl : Decl := .struct i!"Velocity" [(i!"speed", i!"f64"), (i!"heading", i!"f64")]

/-- `ublox/src/ubx_packets/types.rs:55` -/
def typesRs_Position_From_NavHpPosLlhRef_from : Fn where
  name := i!"from"
  params := [i!"packet"]
  ret := i!"Self"
  body :=
    .last
      (.struct
        [i!"Position"]
        (.cons
          i!"lon"
          (.bin
            .add
            (.meth
              (.path [i!"packet"])
              i!"lon_degrees"
              .nil)
            (.meth
              (.path [i!"packet"])
              i!"lon_hp_degrees"
              .nil))
          (.cons
            i!"lat"
            (.bin
              .add
              (.meth
                (.path [i!"packet"])
                i!"lat_degrees"
                .nil)
              (.meth
                (.path [i!"packet"])
                i!"lat_hp_degrees"
                .nil))
            (.cons
              i!"alt"
              (.bin
                .add
                (.meth
                  (.path [i!"packet"])
                  i!"height_msl"
                  .nil)
                (.meth
                  (.path [i!"packet"])
                  i!"height_hp_msl"
                  .nil))
              .nil))))

/-- `ublox/src/ubx_packets/types.rs:54-101` -/
def typesRs_Position_From_NavHpPosLlhRef_impl : Impl := ⟨[i!"From", i!"NavHpPosLlhRef"], i!"Position", [typesRs_Position_From_NavHpPosLlhRef_from]⟩

/-- `ublox/src/ubx_packets/types.rs:65` -/
def typesRs_PositionECEF_From_NavHpPosEcefRef_from : Fn where
  name := i!"from"
  params := [i!"packet"]
  ret := i!"Self"
  body :=
    .last
      (.struct
        [i!"PositionECEF"]
        (.cons
          i!"x"
          (.bin
            .mul
            (.float 1 10)
            (.bin
              .add
              (.meth
                (.path [i!"packet"])
                i!"ecef_x_cm"
                .nil)
              (.bin
                .mul
                (.float 1 10)
                (.meth
                  (.path [i!"packet"])
                  i!"ecef_x_hp_mm"
                  .nil))))
          (.cons
            i!"y"
            (.bin
              .mul
              (.float 1 10)
              (.bin
                .add
                (.meth
                  (.path [i!"packet"])
                  i!"ecef_y_cm"
                  .nil)
                (.bin
                  .mul
                  (.float 1 10)
                  (.meth
                    (.path [i!"packet"])
                    i!"ecef_y_hp_mm"
                    .nil))))
            (.cons
              i!"z"
              (.bin
                .mul
                (.float 1 10)
                (.bin
                  .add
                  (.meth
                    (.path [i!"packet"])
                    i!"ecef_z_cm"
                    .nil)
                  (.bin
                    .mul
                    (.float 1 10)
                    (.meth
                      (.path [i!"packet"])
                      i!"ecef_z_hp_mm"
                      .nil))))
              .nil))))

/-- `ublox/src/ubx_packets/types.rs:54-101` -/
def typesRs_PositionECEF_From_NavHpPosEcefRef_impl : Impl := ⟨[i!"From", i!"NavHpPosEcefRef"], i!"PositionECEF", [typesRs_PositionECEF_From_NavHpPosEcefRef_from]⟩

/-- `ublox/src/ubx_packets/types.rs:75` -/
def typesRs_Velocity_From_NavVelNedRef_from : Fn where
  name := i!"from"
  params := [i!"packet"]
  ret := i!"Self"
  body :=
    .last
      (.struct
        [i!"Velocity"]
        (.cons
          i!"speed"
          (.meth
            (.path [i!"packet"])
            i!"ground_speed"
            .nil)
          (.cons
            i!"heading"
            (.meth
              (.path [i!"packet"])
              i!"heading_degrees"
              .nil)
            .nil)))

/-- `ublox/src/ubx_packets/types.rs:54-101` -/
def typesRs_Velocity_From_NavVelNedRef_impl : Impl := ⟨[i!"From", i!"NavVelNedRef"], i!"Velocity", [typesRs_Velocity_From_NavVelNedRef_from]⟩

/-- `ublox/src/ubx_packets/types.rs:84` -/
def typesRs_Position_From_NavPvtRef_from : Fn where
  name := i!"from"
  params := [i!"packet"]
  ret := i!"Self"
  body :=
    .last
      (.struct
        [i!"Position"]
        (.cons
          i!"lon"
          (.meth
            (.path [i!"packet"])
            i!"lon_degrees"
            .nil)
          (.cons
            i!"lat"
            (.meth
              (.path [i!"packet"])
              i!"lat_degrees"
              .nil)
            (.cons
              i!"alt"
              (.meth
                (.path [i!"packet"])
                i!"height_msl"
                .nil)
              .nil))))

/-- `ublox/src/ubx_packets/types.rs:54-101` -/
def typesRs_Position_From_NavPvtRef_impl : Impl := ⟨[i!"From", i!"NavPvtRef"], i!"Position", [typesRs_Position_From_NavPvtRef_from]⟩

/-- `ublox/src/ubx_packets/types.rs:94` -/
def typesRs_Velocity_From_NavPvtRef_from : Fn where
  name := i!"from"
  params := [i!"packet"]
  ret := i!"Self"
  body :=
    .last
      (.struct
        [i!"Velocity"]
        (.cons
          i!"speed"
          (.meth
            (.path [i!"packet"])
            i!"ground_speed"
            .nil)
          (.cons
            i!"heading"
            (.meth
              (.path [i!"packet"])
              i!"heading_degrees"
              .nil)
            .nil)))

/-- `ublox/src/ubx_packets/types.rs:54-101` -/
def typesRs_Velocity_From_NavPvtRef_impl : Impl := ⟨[i!"From", i!"NavPvtRef"], i!"Velocity", [typesRs_Velocity_From_NavPvtRef_from]⟩

/-- `ublox/src/ubx_packets/types.rs:104` -/
def typesRs_DateTime_TryFrom_NavPvtRef_try_from : Fn where
  name := i!"try_from"
  params := [i!"sol"]
  ret := i!""
  body :=
    .let_
      (.name i!"date")
      (.try_
        (.meth
          (.call
            [i!"NaiveDate", i!"from_ymd_opt"]
            (.cons
              (.call
                [i!"i32", i!"from"]
                (.cons
                  (.meth
                    (.path [i!"sol"])
                    i!"year"
                    .nil)
                  .nil))
              (.cons
                (.call
                  [i!"u32", i!"from"]
                  (.cons
                    (.meth
                      (.path [i!"sol"])
                      i!"month"
                      .nil)
                    .nil))
                (.cons
                  (.call
                    [i!"u32", i!"from"]
                    (.cons
                      (.meth
                        (.path [i!"sol"])
                        i!"day"
                        .nil)
                      .nil))
                  .nil))))
          i!"ok_or"
          (.cons
            (.path [i!"DateTimeError", i!"InvalidDate"])
            .nil)))
      (.let_
        (.name i!"time")
        (.try_
          (.meth
            (.call
              [i!"NaiveTime", i!"from_hms_opt"]
              (.cons
                (.call
                  [i!"u32", i!"from"]
                  (.cons
                    (.meth
                      (.path [i!"sol"])
                      i!"hour"
                      .nil)
                    .nil))
                (.cons
                  (.call
                    [i!"u32", i!"from"]
                    (.cons
                      (.meth
                        (.path [i!"sol"])
                        i!"min"
                        .nil)
                      .nil))
                  (.cons
                    (.call
                      [i!"u32", i!"from"]
                      (.cons
                        (.meth
                          (.path [i!"sol"])
                          i!"sec"
                          .nil)
                        .nil))
                    .nil))))
            i!"ok_or"
            (.cons
              (.path [i!"DateTimeError", i!"InvalidTime"])
              .nil)))
        (.let_
          (.name i!"NANOS_LIM")
          (.cast (.int 1000000000) i!"u32")
          (.semi
            (.ite
              (.bin
                .ge
                (.cast
                  (.meth
                    (.meth
                      (.path [i!"sol"])
                      i!"nanosecond"
                      .nil)
                    i!"wrapping_abs"
                    .nil)
                  i!"u32")
                (.path [i!"NANOS_LIM"]))
              (.semi
                (.return_
                  (.call
                    [i!"Err"]
                    (.cons
                      (.path
                        [i!"DateTimeError", i!"InvalidNanoseconds"])
                      .nil)))
                .nil)
              .nil)
            (.let_
              (.name i!"dt")
              (.bin
                .add
                (.call
                  [i!"NaiveDateTime", i!"new"]
                  (.cons
                    (.path [i!"date"])
                    (.cons (.path [i!"time"]) .nil)))
                (.call
                  [i!"chrono", i!"Duration", i!"nanoseconds"]
                  (.cons
                    (.call
                      [i!"i64", i!"from"]
                      (.cons
                        (.meth
                          (.path [i!"sol"])
                          i!"nanosecond"
                          .nil)
                        .nil))
                    .nil)))
              (.last
                (.call
                  [i!"Ok"]
                  (.cons
                    (.call
                      [i!"DateTime",
                       i!"from_naive_utc_and_offset"]
                      (.cons
                        (.path [i!"dt"])
                        (.cons
                          (.path [i!"Utc"])
                          .nil)))
                    .nil)))))))

/-- `ublox/src/ubx_packets/types.rs:102-152` -/
def typesRs_DateTime_TryFrom_NavPvtRef_impl : Impl := ⟨[i!"TryFrom", i!"NavPvtRef"], i!"DateTime", [typesRs_DateTime_TryFrom_NavPvtRef_try_from]⟩

/-- `ublox/src/ubx_packets/types.rs:135` -/
def typesRs_FieldIter_fmt_Debug_fmt : Fn where
  name := i!"fmt"
  params := [i!"self", i!"f"]
  ret := i!""
  body :=
    .last
      (.meth
        (.field (.path [i!"self"]) i!"0")
        i!"fmt"
        (.cons (.path [i!"f"]) .nil))

/-- `ublox/src/ubx_packets/types.rs:102-152` -/
def typesRs_FieldIter_fmt_Debug_impl : Impl := ⟨[i!"fmt", i!"Debug"], i!"FieldIter", [typesRs_FieldIter_fmt_Debug_fmt]⟩

/-- `ublox/src/ubx_packets/types.rs:146` -/
def typesRs_FieldIter_serde_Serialize_serialize : Fn where
  name := i!"serialize"
  params := [i!"self", i!"serializer"]
  ret := i!""
  body :=
    .last
      (.meth
        (.path [i!"serializer"])
        i!"collect_seq"
        (.cons
          (.meth
            (.field (.path [i!"self"]) i!"0")
            i!"clone"
            .nil)
          .nil))

/-- `ublox/src/ubx_packets/types.rs:102-152` -/
def typesRs_FieldIter_serde_Serialize_impl : Impl := ⟨[i!"serde", i!"Serialize"], i!"FieldIter", [typesRs_FieldIter_serde_Serialize_serialize]⟩

/-- `ublox/src/ubx_packets/types.rs:102-152` -/
def typesRs_FieldIter_decl : Decl := .struct i!"FieldIter" [(i!"0", i!"")]

/-- `ublox/src/ubx_packets/types.rs:1-152`, all functions -/
def typesRs_code : List Impl :=
  [typesRs_Position_From_NavPosLlhRef_impl, typesRs_Position_From_NavHpPosLlhRef_impl, typesRs_PositionECEF_From_NavHpPosEcefRef_impl, typesRs_Velocity_From_NavVelNedRef_impl, typesRs_Position_From_NavPvtRef_impl, typesRs_Velocity_From_NavPvtRef_impl, typesRs_DateTime_TryFrom_NavPvtRef_impl, typesRs_FieldIter_fmt_Debug_impl, typesRs_FieldIter_serde_Serialize_impl]

/-- `ublox/src/ubx_packets/types.rs:1-152`, all structures and enumerations that no macro is called for -/
def typesRs_decls : List Decl :=
  [typesRs_Position_decl, typesRs_PositionECEF_decl, typesRs_Velocity_decl, typesRs_FieldIter_decl]

/-- `ublox/src/ubx_packets/cfg_val.rs:14` -/
def cfgHeadRs_StorageSize_to_usize : Fn where
  name := i!"to_usize"
  params := [i!"self"]
  ret := i!"usize"
  body :=
    .last
      (.match_
        (.path [i!"self"])
        (.cons
          (.or
            (.path [i!"Self", i!"OneBit"])
            (.path [i!"Self", i!"OneByte"]))
          (.int 1)
          (.cons
            (.path [i!"Self", i!"TwoBytes"])
            (.int 2)
            (.cons
              (.path [i!"Self", i!"FourBytes"])
              (.int 4)
              (.cons
                (.path [i!"Self", i!"EightBytes"])
                (.int 8)
                .nil)))))

/-- `ublox/src/ubx_packets/cfg_val.rs:1-49` -/
def cfgHeadRs_StorageSize_impl : Impl := ⟨[], i!"StorageSize", [cfgHeadRs_StorageSize_to_usize]⟩

/-- `ublox/src/ubx_packets/cfg_val.rs:25` -/
def cfgHeadRs_KeyId_SIZE : Fn where
  name := i!"SIZE"
  params := []
  ret := i!"usize"
  body :=
    .last (.int 4)

/-- `ublox/src/ubx_packets/cfg_val.rs:27` -/
def cfgHeadRs_KeyId_value_size : Fn where
  name := i!"value_size"
  params := [i!"self"]
  ret := i!"StorageSize"
  body :=
    .last
      (.match_
        (.bin
          .bitAnd
          (.bin
            .shr
            (.field (.path [i!"self"]) i!"0")
            (.int 28))
          (.int 7))
        (.cons
          (.int 1)
          (.path [i!"StorageSize", i!"OneBit"])
          (.cons
            (.int 2)
            (.path [i!"StorageSize", i!"OneByte"])
            (.cons
              (.int 3)
              (.path [i!"StorageSize", i!"TwoBytes"])
              (.cons
                (.int 4)
                (.path [i!"StorageSize", i!"FourBytes"])
                (.cons
                  (.int 5)
                  (.path [i!"StorageSize", i!"EightBytes"])
                  (.cons
                    (.name i!"_")
                    (.path [i!"StorageSize", i!"OneBit"])
                    .nil)))))))

/-- `ublox/src/ubx_packets/cfg_val.rs:42` -/
def cfgHeadRs_KeyId_group_id : Fn where
  name := i!"group_id"
  params := [i!"self"]
  ret := i!"u8"
  body :=
    .last
      (.cast
        (.bin
          .shr
          (.field (.path [i!"self"]) i!"0")
          (.int 16))
        i!"u8")

/-- `ublox/src/ubx_packets/cfg_val.rs:46` -/
def cfgHeadRs_KeyId_item_id : Fn where
  name := i!"item_id"
  params := [i!"self"]
  ret := i!"u8"
  body :=
    .last
      (.cast (.field (.path [i!"self"]) i!"0") i!"u8")

/-- `ublox/src/ubx_packets/cfg_val.rs:1-49` -/
def cfgHeadRs_KeyId_impl : Impl := ⟨[], i!"KeyId", [cfgHeadRs_KeyId_SIZE, cfgHeadRs_KeyId_value_size, cfgHeadRs_KeyId_group_id, cfgHeadRs_KeyId_item_id]⟩

/-- `ublox/src/ubx_packets/cfg_val.rs:1-49` -/
def cfgHeadRs_KeyId_decl : Decl := .struct i!"KeyId" [(i!"0", i!"u32")]

/-- `ublox/src/ubx_packets/cfg_val.rs:1-49` -/
def cfgHeadRs_StorageSize_decl : Decl := .enum i!"StorageSize" [(i!"OneBit", none), (i!"OneByte", none), (i!"TwoBytes", none), (i!"FourBytes", none), (i!"EightBytes", none)]

/-- `ublox/src/ubx_packets/cfg_val.rs:1-49`, all functions -/
def cfgHeadRs_code : List Impl :=
  [cfgHeadRs_StorageSize_impl, cfgHeadRs_KeyId_impl]

/-- `ublox/src/ubx_packets/cfg_val.rs:1-49`, all structures and enumerations that no macro is called for -/
def cfgHeadRs_decls : List Decl :=
  [cfgHeadRs_KeyId_decl, cfgHeadRs_StorageSize_decl]

/-- `ublox/src/ubx_packets/packets.rs:1-68` -/
def packetsRs_SerializeUbxPacketFields_impl : Impl := ⟨[i!"SerializeUbxPacketFields"], i!"SerializeUbxPacketFields", []⟩

/-- `ublox/src/ubx_packets/packets.rs:507` -/
def packetsRs_FixStatusInfo_has_pr_prr_correction : Fn where
  name := i!"has_pr_prr_correction"
  params := [i!"self"]
  ret := i!"bool"
  body :=
    .last
      (.bin
        .eq
        (.bin
          .bitAnd
          (.field (.path [i!"self"]) i!"0")
          (.int 1))
        (.int 1))

/-- `ublox/src/ubx_packets/packets.rs:510` -/
def packetsRs_FixStatusInfo_map_matching : Fn where
  name := i!"map_matching"
  params := [i!"self"]
  ret := i!"MapMatchingStatus"
  body :=
    .let_
      (.name i!"bits")
      (.bin
        .bitAnd
        (.bin
          .shr
          (.field (.path [i!"self"]) i!"0")
          (.int 6))
        (.int 3))
      (.last
        (.match_
          (.path [i!"bits"])
          (.cons
            (.int 0)
            (.path [i!"MapMatchingStatus", i!"None"])
            (.cons
              (.int 1)
              (.path [i!"MapMatchingStatus", i!"Valid"])
              (.cons
                (.int 2)
                (.path [i!"MapMatchingStatus", i!"Used"])
                (.cons
                  (.int 3)
                  (.path [i!"MapMatchingStatus", i!"Dr"])
                  (.cons
                    (.name i!"_")
                    .panic
                    .nil)))))))

/-- `ublox/src/ubx_packets/packets.rs:520` -/
def packetsRs_FixStatusInfo_from : Fn where
  name := i!"from"
  params := [i!"x"]
  ret := i!"Self"
  body :=
    .last
      (.call
        [i!"Self"]
        (.cons (.path [i!"x"]) .nil))

/-- `ublox/src/ubx_packets/packets.rs:469-524` -/
def packetsRs_FixStatusInfo_impl : Impl := ⟨[], i!"FixStatusInfo", [packetsRs_FixStatusInfo_has_pr_prr_correction, packetsRs_FixStatusInfo_map_matching, packetsRs_FixStatusInfo_from]⟩

/-- `ublox/src/ubx_packets/packets.rs:469-524` -/
def packetsRs_FixStatusInfo_decl : Decl := .struct i!"FixStatusInfo" [(i!"0", i!"u8")]

/-- `ublox/src/ubx_packets/packets.rs:526` -/
def packetsRs_FixStatusInfo_fmt_Debug_fmt : Fn where
  name := i!"fmt"
  params := [i!"self", i!"f"]
  ret := i!""
  body :=
    .last
      (.meth
        (.meth
          (.meth
            (.meth
              (.path [i!"f"])
              i!"debug_struct"
              (.cons
                (.str i!"FixStatusInfo")
                .nil))
            i!"field"
            (.cons
              (.str i!"has_pr_prr_correction")
              (.cons
                (.un
                  .ref
                  (.meth
                    (.path [i!"self"])
                    i!"has_pr_prr_correction"
                    .nil))
                .nil)))
          i!"field"
          (.cons
            (.str i!"map_matching")
            (.cons
              (.un
                .ref
                (.meth
                  (.path [i!"self"])
                  i!"map_matching"
                  .nil))
              .nil)))
        i!"finish"
        .nil)

/-- `ublox/src/ubx_packets/packets.rs:525-662` -/
def packetsRs_FixStatusInfo_fmt_Debug_impl : Impl := ⟨[i!"fmt", i!"Debug"], i!"FixStatusInfo", [packetsRs_FixStatusInfo_fmt_Debug_fmt]⟩

/-- `ublox/src/ubx_packets/packets.rs:566` -/
def packetsRs_NavSatSvFlags_quality_ind : Fn where
  name := i!"quality_ind"
  params := [i!"self"]
  ret := i!"NavSatQualityIndicator"
  body :=
    .let_
      (.name i!"bits")
      (.bin
        .bitAnd
        (.field (.path [i!"self"]) i!"0")
        (.int 7))
      (.last
        (.match_
          (.path [i!"bits"])
          (.cons
            (.int 0)
            (.path
              [i!"NavSatQualityIndicator", i!"NoSignal"])
            (.cons
              (.int 1)
              (.path
                [i!"NavSatQualityIndicator", i!"Searching"])
              (.cons
                (.int 2)
                (.path
                  [i!"NavSatQualityIndicator",
                   i!"SignalAcquired"])
                (.cons
                  (.int 3)
                  (.path
                    [i!"NavSatQualityIndicator",
                     i!"SignalDetected"])
                  (.cons
                    (.int 4)
                    (.path
                      [i!"NavSatQualityIndicator", i!"CodeLock"])
                    (.cons
                      (.range 5 7)
                      (.path
                        [i!"NavSatQualityIndicator",
                         i!"CarrierLock"])
                      (.cons
                        (.name i!"_")
                        (.block
                          (.semi .panic .nil))
                        .nil)))))))))

/-- `ublox/src/ubx_packets/packets.rs:581` -/
def packetsRs_NavSatSvFlags_sv_used : Fn where
  name := i!"sv_used"
  params := [i!"self"]
  ret := i!"bool"
  body :=
    .last
      (.bin
        .ne
        (.bin
          .bitAnd
          (.bin
            .shr
            (.field (.path [i!"self"]) i!"0")
            (.int 3))
          (.int 1))
        (.int 0))

/-- `ublox/src/ubx_packets/packets.rs:585` -/
def packetsRs_NavSatSvFlags_health : Fn where
  name := i!"health"
  params := [i!"self"]
  ret := i!"NavSatSvHealth"
  body :=
    .let_
      (.name i!"bits")
      (.bin
        .bitAnd
        (.bin
          .shr
          (.field (.path [i!"self"]) i!"0")
          (.int 4))
        (.int 3))
      (.last
        (.match_
          (.path [i!"bits"])
          (.cons
            (.int 1)
            (.path [i!"NavSatSvHealth", i!"Healthy"])
            (.cons
              (.int 2)
              (.path [i!"NavSatSvHealth", i!"Unhealthy"])
              (.cons
                (.name i!"x")
                (.call
                  [i!"NavSatSvHealth", i!"Unknown"]
                  (.cons
                    (.cast (.path [i!"x"]) i!"u8")
                    .nil))
                .nil)))))

/-- `ublox/src/ubx_packets/packets.rs:594` -/
def packetsRs_NavSatSvFlags_differential_correction_available : Fn where
  name := i!"differential_correction_available"
  params := [i!"self"]
  ret := i!"bool"
  body :=
    .last
      (.bin
        .ne
        (.bin
          .bitAnd
          (.bin
            .shr
            (.field (.path [i!"self"]) i!"0")
            (.int 6))
          (.int 1))
        (.int 0))

/-- `ublox/src/ubx_packets/packets.rs:598` -/
def packetsRs_NavSatSvFlags_smoothed : Fn where
  name := i!"smoothed"
  params := [i!"self"]
  ret := i!"bool"
  body :=
    .last
      (.bin
        .ne
        (.bin
          .bitAnd
          (.bin
            .shr
            (.field (.path [i!"self"]) i!"0")
            (.int 7))
          (.int 1))
        (.int 0))

/-- `ublox/src/ubx_packets/packets.rs:602` -/
def packetsRs_NavSatSvFlags_orbit_source : Fn where
  name := i!"orbit_source"
  params := [i!"self"]
  ret := i!"NavSatOrbitSource"
  body :=
    .let_
      (.name i!"bits")
      (.bin
        .bitAnd
        (.bin
          .shr
          (.field (.path [i!"self"]) i!"0")
          (.int 8))
        (.int 7))
      (.last
        (.match_
          (.path [i!"bits"])
          (.cons
            (.int 0)
            (.path
              [i!"NavSatOrbitSource", i!"NoInfoAvailable"])
            (.cons
              (.int 1)
              (.path [i!"NavSatOrbitSource", i!"Ephemeris"])
              (.cons
                (.int 2)
                (.path [i!"NavSatOrbitSource", i!"Almanac"])
                (.cons
                  (.int 3)
                  (.path
                    [i!"NavSatOrbitSource", i!"AssistNowOffline"])
                  (.cons
                    (.int 4)
                    (.path
                      [i!"NavSatOrbitSource",
                       i!"AssistNowAutonomous"])
                    (.cons
                      (.name i!"x")
                      (.call
                        [i!"NavSatOrbitSource", i!"Other"]
                        (.cons
                          (.cast (.path [i!"x"]) i!"u8")
                          .nil))
                      .nil))))))))

/-- `ublox/src/ubx_packets/packets.rs:614` -/
def packetsRs_NavSatSvFlags_ephemeris_available : Fn where
  name := i!"ephemeris_available"
  params := [i!"self"]
  ret := i!"bool"
  body :=
    .last
      (.bin
        .ne
        (.bin
          .bitAnd
          (.bin
            .shr
            (.field (.path [i!"self"]) i!"0")
            (.int 11))
          (.int 1))
        (.int 0))

/-- `ublox/src/ubx_packets/packets.rs:618` -/
def packetsRs_NavSatSvFlags_almanac_available : Fn where
  name := i!"almanac_available"
  params := [i!"self"]
  ret := i!"bool"
  body :=
    .last
      (.bin
        .ne
        (.bin
          .bitAnd
          (.bin
            .shr
            (.field (.path [i!"self"]) i!"0")
            (.int 12))
          (.int 1))
        (.int 0))

/-- `ublox/src/ubx_packets/packets.rs:622` -/
def packetsRs_NavSatSvFlags_an_offline_available : Fn where
  name := i!"an_offline_available"
  params := [i!"self"]
  ret := i!"bool"
  body :=
    .last
      (.bin
        .ne
        (.bin
          .bitAnd
          (.bin
            .shr
            (.field (.path [i!"self"]) i!"0")
            (.int 13))
          (.int 1))
        (.int 0))

/-- `ublox/src/ubx_packets/packets.rs:626` -/
def packetsRs_NavSatSvFlags_an_auto_available : Fn where
  name := i!"an_auto_available"
  params := [i!"self"]
  ret := i!"bool"
  body :=
    .last
      (.bin
        .ne
        (.bin
          .bitAnd
          (.bin
            .shr
            (.field (.path [i!"self"]) i!"0")
            (.int 14))
          (.int 1))
        (.int 0))

/-- `ublox/src/ubx_packets/packets.rs:630` -/
def packetsRs_NavSatSvFlags_sbas_corr : Fn where
  name := i!"sbas_corr"
  params := [i!"self"]
  ret := i!"bool"
  body :=
    .last
      (.bin
        .ne
        (.bin
          .bitAnd
          (.bin
            .shr
            (.field (.path [i!"self"]) i!"0")
            (.int 16))
          (.int 1))
        (.int 0))

/-- `ublox/src/ubx_packets/packets.rs:634` -/
def packetsRs_NavSatSvFlags_rtcm_corr : Fn where
  name := i!"rtcm_corr"
  params := [i!"self"]
  ret := i!"bool"
  body :=
    .last
      (.bin
        .ne
        (.bin
          .bitAnd
          (.bin
            .shr
            (.field (.path [i!"self"]) i!"0")
            (.int 17))
          (.int 1))
        (.int 0))

/-- `ublox/src/ubx_packets/packets.rs:638` -/
def packetsRs_NavSatSvFlags_slas_corr : Fn where
  name := i!"slas_corr"
  params := [i!"self"]
  ret := i!"bool"
  body :=
    .last
      (.bin
        .ne
        (.bin
          .bitAnd
          (.bin
            .shr
            (.field (.path [i!"self"]) i!"0")
            (.int 18))
          (.int 1))
        (.int 0))

/-- `ublox/src/ubx_packets/packets.rs:642` -/
def packetsRs_NavSatSvFlags_spartn_corr : Fn where
  name := i!"spartn_corr"
  params := [i!"self"]
  ret := i!"bool"
  body :=
    .last
      (.bin
        .ne
        (.bin
          .bitAnd
          (.bin
            .shr
            (.field (.path [i!"self"]) i!"0")
            (.int 19))
          (.int 1))
        (.int 0))

/-- `ublox/src/ubx_packets/packets.rs:646` -/
def packetsRs_NavSatSvFlags_pr_corr : Fn where
  name := i!"pr_corr"
  params := [i!"self"]
  ret := i!"bool"
  body :=
    .last
      (.bin
        .ne
        (.bin
          .bitAnd
          (.bin
            .shr
            (.field (.path [i!"self"]) i!"0")
            (.int 20))
          (.int 1))
        (.int 0))

/-- `ublox/src/ubx_packets/packets.rs:650` -/
def packetsRs_NavSatSvFlags_cr_corr : Fn where
  name := i!"cr_corr"
  params := [i!"self"]
  ret := i!"bool"
  body :=
    .last
      (.bin
        .ne
        (.bin
          .bitAnd
          (.bin
            .shr
            (.field (.path [i!"self"]) i!"0")
            (.int 21))
          (.int 1))
        (.int 0))

/-- `ublox/src/ubx_packets/packets.rs:654` -/
def packetsRs_NavSatSvFlags_do_corr : Fn where
  name := i!"do_corr"
  params := [i!"self"]
  ret := i!"bool"
  body :=
    .last
      (.bin
        .ne
        (.bin
          .bitAnd
          (.bin
            .shr
            (.field (.path [i!"self"]) i!"0")
            (.int 22))
          (.int 1))
        (.int 0))

/-- `ublox/src/ubx_packets/packets.rs:658` -/
def packetsRs_NavSatSvFlags_from : Fn where
  name := i!"from"
  params := [i!"x"]
  ret := i!"Self"
  body :=
    .last
      (.call
        [i!"Self"]
        (.cons (.path [i!"x"]) .nil))

/-- `ublox/src/ubx_packets/packets.rs:525-662` -/
def packetsRs_NavSatSvFlags_impl : Impl := ⟨[], i!"NavSatSvFlags", [packetsRs_NavSatSvFlags_quality_ind, packetsRs_NavSatSvFlags_sv_used, packetsRs_NavSatSvFlags_health, packetsRs_NavSatSvFlags_differential_correction_available, packetsRs_NavSatSvFlags_smoothed, packetsRs_NavSatSvFlags_orbit_source, packetsRs_NavSatSvFlags_ephemeris_available, packetsRs_NavSatSvFlags_almanac_available, packetsRs_NavSatSvFlags_an_offline_available, packetsRs_NavSatSvFlags_an_auto_available, packetsRs_NavSatSvFlags_sbas_corr, packetsRs_NavSatSvFlags_rtcm_corr, packetsRs_NavSatSvFlags_slas_corr, packetsRs_NavSatSvFlags_spartn_corr, packetsRs_NavSatSvFlags_pr_corr, packetsRs_NavSatSvFlags_cr_corr, packetsRs_NavSatSvFlags_do_corr, packetsRs_NavSatSvFlags_from]⟩

/-- `ublox/src/ubx_packets/packets.rs:525-662` -/
def packetsRs_MapMatchingStatus_decl : Decl := .enum i!"MapMatchingStatus" [(i!"None", some 0), (i!"Valid", some 1), (i!"Used", some 2), (i!"Dr", some 3)]

/-- `ublox/src/ubx_packets/packets.rs:525-662` -/
def packetsRs_NavSatSvFlags_decl : Decl := .struct i!"NavSatSvFlags" [(i!"0", i!"u32")]

/-- `ublox/src/ubx_packets/packets.rs:664` -/
def packetsRs_NavSatSvFlags_fmt_Debug_fmt : Fn where
  name := i!"fmt"
  params := [i!"self", i!"f"]
  ret := i!""
  body :=
    .last
      (.meth
        (.meth
          (.meth
            (.meth
              (.meth
                (.meth
                  (.meth
                    (.meth
                      (.meth
                        (.meth
                          (.meth
                            (.meth
                              (.meth
                                (.meth
                                  (.meth
                                    (.meth
                                      (.meth
                                        (.meth
                                          (.meth
                                            (.path [i!"f"])
                                            i!"debug_struct"
                                            (.cons
                                              (.str i!"NavSatSvFlags")
                                              .nil))
                                          i!"field"
                                          (.cons
                                            (.str i!"quality_ind")
                                            (.cons
                                              (.un
                                                .ref
                                                (.meth
                                                  (.path [i!"self"])
                                                  i!"quality_ind"
                                                  .nil))
                                              .nil)))
                                        i!"field"
                                        (.cons
                                          (.str i!"sv_used")
                                          (.cons
                                            (.un
                                              .ref
                                              (.meth
                                                (.path [i!"self"])
                                                i!"sv_used"
                                                .nil))
                                            .nil)))
                                      i!"field"
                                      (.cons
                                        (.str i!"health")
                                        (.cons
                                          (.un
                                            .ref
                                            (.meth
                                              (.path [i!"self"])
                                              i!"health"
                                              .nil))
                                          .nil)))
                                    i!"field"
                                    (.cons
                                      (.str
                                        i!"differential_correction_available")
                                      (.cons
                                        (.un
                                          .ref
                                          (.meth
                                            (.path [i!"self"])
                                            i!"differential_correction_available"
                                            .nil))
                                        .nil)))
                                  i!"field"
                                  (.cons
                                    (.str i!"smoothed")
                                    (.cons
                                      (.un
                                        .ref
                                        (.meth
                                          (.path [i!"self"])
                                          i!"smoothed"
                                          .nil))
                                      .nil)))
                                i!"field"
                                (.cons
                                  (.str i!"orbit_source")
                                  (.cons
                                    (.un
                                      .ref
                                      (.meth
                                        (.path [i!"self"])
                                        i!"orbit_source"
                                        .nil))
                                    .nil)))
                              i!"field"
                              (.cons
                                (.str i!"ephemeris_available")
                                (.cons
                                  (.un
                                    .ref
                                    (.meth
                                      (.path [i!"self"])
                                      i!"ephemeris_available"
                                      .nil))
                                  .nil)))
                            i!"field"
                            (.cons
                              (.str i!"almanac_available")
                              (.cons
                                (.un
                                  .ref
                                  (.meth
                                    (.path [i!"self"])
                                    i!"almanac_available"
                                    .nil))
                                .nil)))
                          i!"field"
                          (.cons
                            (.str i!"an_offline_available")
                            (.cons
                              (.un
                                .ref
                                (.meth
                                  (.path [i!"self"])
                                  i!"an_offline_available"
                                  .nil))
                              .nil)))
                        i!"field"
                        (.cons
                          (.str i!"an_auto_available")
                          (.cons
                            (.un
                              .ref
                              (.meth
                                (.path [i!"self"])
                                i!"an_auto_available"
                                .nil))
                            .nil)))
                      i!"field"
                      (.cons
                        (.str i!"sbas_corr")
                        (.cons
                          (.un
                            .ref
                            (.meth
                              (.path [i!"self"])
                              i!"sbas_corr"
                              .nil))
                          .nil)))
                    i!"field"
                    (.cons
                      (.str i!"rtcm_corr")
                      (.cons
                        (.un
                          .ref
                          (.meth
                            (.path [i!"self"])
                            i!"rtcm_corr"
                            .nil))
                        .nil)))
                  i!"field"
                  (.cons
                    (.str i!"slas_corr")
                    (.cons
                      (.un
                        .ref
                        (.meth
                          (.path [i!"self"])
                          i!"slas_corr"
                          .nil))
                      .nil)))
                i!"field"
                (.cons
                  (.str i!"spartn_corr")
                  (.cons
                    (.un
                      .ref
                      (.meth
                        (.path [i!"self"])
                        i!"spartn_corr"
                        .nil))
                    .nil)))
              i!"field"
              (.cons
                (.str i!"pr_corr")
                (.cons
                  (.un
                    .ref
                    (.meth
                      (.path [i!"self"])
                      i!"pr_corr"
                      .nil))
                  .nil)))
            i!"field"
            (.cons
              (.str i!"cr_corr")
              (.cons
                (.un
                  .ref
                  (.meth
                    (.path [i!"self"])
                    i!"cr_corr"
                    .nil))
                .nil)))
          i!"field"
          (.cons
            (.str i!"do_corr")
            (.cons
              (.un
                .ref
                (.meth
                  (.path [i!"self"])
                  i!"do_corr"
                  .nil))
              .nil)))
        i!"finish"
        .nil)

/-- `ublox/src/ubx_packets/packets.rs:663-700` -/
def packetsRs_NavSatSvFlags_fmt_Debug_impl : Impl := ⟨[i!"fmt", i!"Debug"], i!"NavSatSvFlags", [packetsRs_NavSatSvFlags_fmt_Debug_fmt]⟩

/-- `ublox/src/ubx_packets/packets.rs:663-700` -/
def packetsRs_NavSatQualityIndicator_decl : Decl := .enum i!"NavSatQualityIndicator" [(i!"NoSignal", none), (i!"Searching", none), (i!"SignalAcquired", none), (i!"SignalDetected", none), (i!"CodeLock", none), (i!"CarrierLock", none)]

/-- `ublox/src/ubx_packets/packets.rs:741` -/
def packetsRs_NavSatIter_new : Fn where
  name := i!"new"
  params := [i!"data"]
  ret := i!"Self"
  body :=
    .last
      (.struct
        [i!"Self"]
        (.cons
          i!"data"
          (.path [i!"data"])
          (.cons i!"offset" (.int 0) .nil)))

/-- `ublox/src/ubx_packets/packets.rs:745` -/
def packetsRs_NavSatIter_is_valid : Fn where
  name := i!"is_valid"
  params := [i!"bytes"]
  ret := i!"bool"
  body :=
    .last
      (.bin
        .eq
        (.bin
          .rem
          (.meth (.path [i!"bytes"]) i!"len" .nil)
          (.int 12))
        (.int 0))

/-- `ublox/src/ubx_packets/packets.rs:701-763` -/
def packetsRs_NavSatIter_impl : Impl := ⟨[], i!"NavSatIter", [packetsRs_NavSatIter_new, packetsRs_NavSatIter_is_valid]⟩

/-- `ublox/src/ubx_packets/packets.rs:753` -/
def packetsRs_NavSatIter_Iterator_next : Fn where
  name := i!"next"
  params := [i!"self"]
  ret := i!""
  body :=
    .last
      (.ite
        (.bin
          .lt
          (.field (.path [i!"self"]) i!"offset")
          (.meth
            (.field (.path [i!"self"]) i!"data")
            i!"len"
            .nil))
        (.let_
          (.name i!"data")
          (.un
            .ref
            (.index
              (.field (.path [i!"self"]) i!"data")
              (.range
                (.field (.path [i!"self"]) i!"offset")
                (.bin
                  .add
                  (.field (.path [i!"self"]) i!"offset")
                  (.int 12)))))
          (.semi
            (.addAssign
              (.field (.path [i!"self"]) i!"offset")
              (.int 12))
            (.last
              (.call
                [i!"Some"]
                (.cons
                  (.call
                    [i!"NavSatSvInfoRef"]
                    (.cons (.path [i!"data"]) .nil))
                  .nil)))))
        (.last (.path [i!"None"])))

/-- `ublox/src/ubx_packets/packets.rs:701-763` -/
def packetsRs_NavSatIter_Iterator_impl : Impl := ⟨[i!"core", i!"iter", i!"Iterator"], i!"NavSatIter", [packetsRs_NavSatIter_Iterator_next]⟩

/-- `ublox/src/ubx_packets/packets.rs:701-763` -/
def packetsRs_NavSatSvHealth_decl : Decl := .enum i!"NavSatSvHealth" [(i!"Healthy", none), (i!"Unhealthy", none), (i!"Unknown", none)]

/-- `ublox/src/ubx_packets/packets.rs:701-763` -/
def packetsRs_NavSatOrbitSource_decl : Decl := .enum i!"NavSatOrbitSource" [(i!"NoInfoAvailable", none), (i!"Ephemeris", none), (i!"Almanac", none), (i!"AssistNowOffline", none), (i!"AssistNowAutonomous", none), (i!"Other", none)]

/-- `ublox/src/ubx_packets/packets.rs:701-763` -/
def packetsRs_NavSatIter_decl : Decl := .struct i!"NavSatIter" [(i!"data", i!""), (i!"offset", i!"usize")]

/-- `ublox/src/ubx_packets/packets.rs:829-886` -/
def packetsRs_CfgItfmConfig_decl : Decl := .struct i!"CfgItfmConfig" [(i!"enable", i!"bool"), (i!"bb_threshold", i!"CfgItfmBbThreshold"), (i!"cw_threshold", i!"CfgItfmCwThreshold"), (i!"algorithm_bits", i!"CfgItfmAlgoBits")]

/-- `ublox/src/ubx_packets/packets.rs:888` -/
def packetsRs_CfgItfmConfig_new : Fn where
  name := i!"new"
  params := [i!"enable", i!"bb_threshold", i!"cw_threshold"]
  ret := i!"Self"
  body :=
    .last
      (.struct
        [i!"Self"]
        (.cons
          i!"enable"
          (.path [i!"enable"])
          (.cons
            i!"bb_threshold"
            (.meth
              (.path [i!"bb_threshold"])
              i!"into"
              .nil)
            (.cons
              i!"cw_threshold"
              (.meth
                (.path [i!"cw_threshold"])
                i!"into"
                .nil)
              (.cons
                i!"algorithm_bits"
                (.call
                  [i!"CfgItfmAlgoBits", i!"default"]
                  .nil)
                .nil)))))

/-- `ublox/src/ubx_packets/packets.rs:897` -/
def packetsRs_CfgItfmConfig_into_raw : Fn where
  name := i!"into_raw"
  params := [i!"self"]
  ret := i!"u32"
  body :=
    .last
      (.bin
        .bitOr
        (.bin
          .bitOr
          (.bin
            .bitOr
            (.bin
              .shl
              (.cast
                (.field (.path [i!"self"]) i!"enable")
                i!"u32")
              (.int 31))
            (.meth
              (.field (.path [i!"self"]) i!"cw_threshold")
              i!"into_raw"
              .nil))
          (.meth
            (.field (.path [i!"self"]) i!"bb_threshold")
            i!"into_raw"
            .nil))
        (.meth
          (.field (.path [i!"self"]) i!"algorithm_bits")
          i!"into_raw"
          .nil))

/-- `ublox/src/ubx_packets/packets.rs:887-932` -/
def packetsRs_CfgItfmConfig_impl : Impl := ⟨[], i!"CfgItfmConfig", [packetsRs_CfgItfmConfig_new, packetsRs_CfgItfmConfig_into_raw]⟩

/-- `ublox/src/ubx_packets/packets.rs:906` -/
def packetsRs_CfgItfmConfig_From_u32_from : Fn where
  name := i!"from"
  params := [i!"cfg"]
  ret := i!"Self"
  body :=
    .let_
      (.name i!"enable")
      (.bin
        .gt
        (.bin
          .bitAnd
          (.path [i!"cfg"])
          (.int 2147483648))
        (.int 0))
      (.let_
        (.name i!"bb_threshold")
        (.call
          [i!"CfgItfmBbThreshold", i!"from"]
          (.cons (.path [i!"cfg"]) .nil))
        (.let_
          (.name i!"cw_threshold")
          (.call
            [i!"CfgItfmCwThreshold", i!"from"]
            (.cons (.path [i!"cfg"]) .nil))
          (.let_
            (.name i!"algorithm_bits")
            (.call
              [i!"CfgItfmAlgoBits", i!"from"]
              (.cons (.path [i!"cfg"]) .nil))
            (.last
              (.struct
                [i!"Self"]
                (.cons
                  i!"enable"
                  (.path [i!"enable"])
                  (.cons
                    i!"bb_threshold"
                    (.path [i!"bb_threshold"])
                    (.cons
                      i!"cw_threshold"
                      (.path [i!"cw_threshold"])
                      (.cons
                        i!"algorithm_bits"
                        (.path [i!"algorithm_bits"])
                        .nil)))))))))

/-- `ublox/src/ubx_packets/packets.rs:887-932` -/
def packetsRs_CfgItfmConfig_From_u32_impl : Impl := ⟨[i!"From", i!"u32"], i!"CfgItfmConfig", [packetsRs_CfgItfmConfig_From_u32_from]⟩

/-- `ublox/src/ubx_packets/packets.rs:925` -/
def packetsRs_CfgItfmBbThreshold_POSITION : Fn where
  name := i!"POSITION"
  params := []
  ret := i!"u32"
  body :=
    .last (.int 0)

/-- `ublox/src/ubx_packets/packets.rs:926` -/
def packetsRs_CfgItfmBbThreshold_LENGTH : Fn where
  name := i!"LENGTH"
  params := []
  ret := i!"u32"
  body :=
    .last (.int 4)

/-- `ublox/src/ubx_packets/packets.rs:927` -/
def packetsRs_CfgItfmBbThreshold_MASK : Fn where
  name := i!"MASK"
  params := []
  ret := i!"u32"
  body :=
    .last
      (.bin
        .sub
        (.bin
          .shl
          (.int 1)
          (.path [i!"Self", i!"LENGTH"]))
        (.int 1))

/-- `ublox/src/ubx_packets/packets.rs:928` -/
def packetsRs_CfgItfmBbThreshold_into_raw : Fn where
  name := i!"into_raw"
  params := [i!"self"]
  ret := i!"u32"
  body :=
    .last
      (.bin
        .shl
        (.bin
          .bitAnd
          (.field (.path [i!"self"]) i!"0")
          (.path [i!"Self", i!"MASK"]))
        (.path [i!"Self", i!"POSITION"]))

/-- `ublox/src/ubx_packets/packets.rs:887-932` -/
def packetsRs_CfgItfmBbThreshold_impl : Impl := ⟨[], i!"CfgItfmBbThreshold", [packetsRs_CfgItfmBbThreshold_POSITION, packetsRs_CfgItfmBbThreshold_LENGTH, packetsRs_CfgItfmBbThreshold_MASK, packetsRs_CfgItfmBbThreshold_into_raw]⟩

/-- `ublox/src/ubx_packets/packets.rs:887-932` -/
def packetsRs_CfgItfmBbThreshold_decl : Decl := .struct i!"CfgItfmBbThreshold" [(i!"0", i!"u32")]

/-- `ublox/src/ubx_packets/packets.rs:934` -/
def packetsRs_CfgItfmBbThreshold_Default_default : Fn where
  name := i!"default"
  params := []
  ret := i!"Self"
  body :=
    .last
      (.call
        [i!"Self"]
        (.cons (.int 3) .nil))

/-- `ublox/src/ubx_packets/packets.rs:933-988` -/
def packetsRs_CfgItfmBbThreshold_Default_impl : Impl := ⟨[i!"Default"], i!"CfgItfmBbThreshold", [packetsRs_CfgItfmBbThreshold_Default_default]⟩

/-- `ublox/src/ubx_packets/packets.rs:940` -/
def packetsRs_CfgItfmBbThreshold_From_u32_from : Fn where
  name := i!"from"
  params := [i!"thres"]
  ret := i!"Self"
  body :=
    .last
      (.call
        [i!"Self"]
        (.cons (.path [i!"thres"]) .nil))

/-- `ublox/src/ubx_packets/packets.rs:933-988` -/
def packetsRs_CfgItfmBbThreshold_From_u32_impl : Impl := ⟨[i!"From", i!"u32"], i!"CfgItfmBbThreshold", [packetsRs_CfgItfmBbThreshold_From_u32_from]⟩

/-- `ublox/src/ubx_packets/packets.rs:950` -/
def packetsRs_CfgItfmCwThreshold_POSITION : Fn where
  name := i!"POSITION"
  params := []
  ret := i!"u32"
  body :=
    .last (.int 4)

/-- `ublox/src/ubx_packets/packets.rs:951` -/
def packetsRs_CfgItfmCwThreshold_LENGTH : Fn where
  name := i!"LENGTH"
  params := []
  ret := i!"u32"
  body :=
    .last (.int 5)

/-- `ublox/src/ubx_packets/packets.rs:952` -/
def packetsRs_CfgItfmCwThreshold_MASK : Fn where
  name := i!"MASK"
  params := []
  ret := i!"u32"
  body :=
    .last
      (.bin
        .sub
        (.bin
          .shl
          (.int 1)
          (.path [i!"Self", i!"LENGTH"]))
        (.int 1))

/-- `ublox/src/ubx_packets/packets.rs:953` -/
def packetsRs_CfgItfmCwThreshold_into_raw : Fn where
  name := i!"into_raw"
  params := [i!"self"]
  ret := i!"u32"
  body :=
    .last
      (.bin
        .shl
        (.bin
          .bitAnd
          (.field (.path [i!"self"]) i!"0")
          (.path [i!"Self", i!"MASK"]))
        (.path [i!"Self", i!"POSITION"]))

/-- `ublox/src/ubx_packets/packets.rs:933-988` -/
def packetsRs_CfgItfmCwThreshold_impl : Impl := ⟨[], i!"CfgItfmCwThreshold", [packetsRs_CfgItfmCwThreshold_POSITION, packetsRs_CfgItfmCwThreshold_LENGTH, packetsRs_CfgItfmCwThreshold_MASK, packetsRs_CfgItfmCwThreshold_into_raw]⟩

/-- `ublox/src/ubx_packets/packets.rs:959` -/
def packetsRs_CfgItfmCwThreshold_Default_default : Fn where
  name := i!"default"
  params := []
  ret := i!"Self"
  body :=
    .last
      (.call
        [i!"Self"]
        (.cons (.int 15) .nil))

/-- `ublox/src/ubx_packets/packets.rs:933-988` -/
def packetsRs_CfgItfmCwThreshold_Default_impl : Impl := ⟨[i!"Default"], i!"CfgItfmCwThreshold", [packetsRs_CfgItfmCwThreshold_Default_default]⟩

/-- `ublox/src/ubx_packets/packets.rs:965` -/
def packetsRs_CfgItfmCwThreshold_From_u32_from : Fn where
  name := i!"from"
  params := [i!"thres"]
  ret := i!"Self"
  body :=
    .last
      (.call
        [i!"Self"]
        (.cons (.path [i!"thres"]) .nil))

/-- `ublox/src/ubx_packets/packets.rs:933-988` -/
def packetsRs_CfgItfmCwThreshold_From_u32_impl : Impl := ⟨[i!"From", i!"u32"], i!"CfgItfmCwThreshold", [packetsRs_CfgItfmCwThreshold_From_u32_from]⟩

/-- `ublox/src/ubx_packets/packets.rs:975` -/
def packetsRs_CfgItfmAlgoBits_POSITION : Fn where
  name := i!"POSITION"
  params := []
  ret := i!"u32"
  body :=
    .last (.int 9)

/-- `ublox/src/ubx_packets/packets.rs:976` -/
def packetsRs_CfgItfmAlgoBits_LENGTH : Fn where
  name := i!"LENGTH"
  params := []
  ret := i!"u32"
  body :=
    .last (.int 22)

/-- `ublox/src/ubx_packets/packets.rs:977` -/
def packetsRs_CfgItfmAlgoBits_MASK : Fn where
  name := i!"MASK"
  params := []
  ret := i!"u32"
  body :=
    .last
      (.bin
        .sub
        (.bin
          .shl
          (.int 1)
          (.path [i!"Self", i!"LENGTH"]))
        (.int 1))

/-- `ublox/src/ubx_packets/packets.rs:978` -/
def packetsRs_CfgItfmAlgoBits_into_raw : Fn where
  name := i!"into_raw"
  params := [i!"self"]
  ret := i!"u32"
  body :=
    .last
      (.bin
        .shl
        (.bin
          .bitAnd
          (.field (.path [i!"self"]) i!"0")
          (.path [i!"Self", i!"MASK"]))
        (.path [i!"Self", i!"POSITION"]))

/-- `ublox/src/ubx_packets/packets.rs:933-988` -/
def packetsRs_CfgItfmAlgoBits_impl : Impl := ⟨[], i!"CfgItfmAlgoBits", [packetsRs_CfgItfmAlgoBits_POSITION, packetsRs_CfgItfmAlgoBits_LENGTH, packetsRs_CfgItfmAlgoBits_MASK, packetsRs_CfgItfmAlgoBits_into_raw]⟩

/-- `ublox/src/ubx_packets/packets.rs:984` -/
def packetsRs_CfgItfmAlgoBits_Default_default : Fn where
  name := i!"default"
  params := []
  ret := i!"Self"
  body :=
    .last
      (.call
        [i!"Self"]
        (.cons (.int 1487190) .nil))

/-- `ublox/src/ubx_packets/packets.rs:933-988` -/
def packetsRs_CfgItfmAlgoBits_Default_impl : Impl := ⟨[i!"Default"], i!"CfgItfmAlgoBits", [packetsRs_CfgItfmAlgoBits_Default_default]⟩

/-- `ublox/src/ubx_packets/packets.rs:933-988` -/
def packetsRs_CfgItfmCwThreshold_decl : Decl := .struct i!"CfgItfmCwThreshold" [(i!"0", i!"u32")]

/-- `ublox/src/ubx_packets/packets.rs:933-988` -/
def packetsRs_CfgItfmAlgoBits_decl : Decl := .struct i!"CfgItfmAlgoBits" [(i!"0", i!"u32")]

/-- `ublox/src/ubx_packets/packets.rs:990` -/
def packetsRs_CfgItfmAlgoBits_From_u32_from : Fn where
  name := i!"from"
  params := [i!"thres"]
  ret := i!"Self"
  body :=
    .last
      (.call
        [i!"Self"]
        (.cons (.path [i!"thres"]) .nil))

/-- `ublox/src/ubx_packets/packets.rs:989-1036` -/
def packetsRs_CfgItfmAlgoBits_From_u32_impl : Impl := ⟨[i!"From", i!"u32"], i!"CfgItfmAlgoBits", [packetsRs_CfgItfmAlgoBits_From_u32_from]⟩

/-- `ublox/src/ubx_packets/packets.rs:1009` -/
def packetsRs_CfgItfmConfig2_new : Fn where
  name := i!"new"
  params := [i!"antenna", i!"scan_aux_bands"]
  ret := i!"Self"
  body :=
    .last
      (.struct
        [i!"Self"]
        (.cons
          i!"general"
          (.call
            [i!"CfgItfmGeneralBits", i!"default"]
            .nil)
          (.cons
            i!"antenna"
            (.path [i!"antenna"])
            (.cons
              i!"scan_aux_bands"
              (.path [i!"scan_aux_bands"])
              .nil))))

/-- `ublox/src/ubx_packets/packets.rs:1017` -/
def packetsRs_CfgItfmConfig2_into_raw : Fn where
  name := i!"into_raw"
  params := [i!"self"]
  ret := i!"u32"
  body :=
    .last
      (.bin
        .bitOr
        (.bin
          .bitOr
          (.bin
            .shl
            (.cast
              (.field
                (.path [i!"self"])
                i!"scan_aux_bands")
              i!"u32")
            (.int 14))
          (.meth
            (.field (.path [i!"self"]) i!"general")
            i!"into_raw"
            .nil))
        (.cast
          (.meth
            (.field (.path [i!"self"]) i!"antenna")
            i!"into_raw"
            .nil)
          i!"u32"))

/-- `ublox/src/ubx_packets/packets.rs:989-1036` -/
def packetsRs_CfgItfmConfig2_impl : Impl := ⟨[], i!"CfgItfmConfig2", [packetsRs_CfgItfmConfig2_new, packetsRs_CfgItfmConfig2_into_raw]⟩

/-- `ublox/src/ubx_packets/packets.rs:1025` -/
def packetsRs_CfgItfmConfig2_From_u32_from : Fn where
  name := i!"from"
  params := [i!"cfg"]
  ret := i!"Self"
  body :=
    .let_
      (.name i!"scan_aux_bands")
      (.bin
        .gt
        (.bin
          .bitAnd
          (.path [i!"cfg"])
          (.int 16384))
        (.int 0))
      (.let_
        (.name i!"general")
        (.call
          [i!"CfgItfmGeneralBits", i!"from"]
          (.cons (.path [i!"cfg"]) .nil))
        (.let_
          (.name i!"antenna")
          (.call
            [i!"CfgItfmAntennaSettings", i!"from"]
            (.cons (.path [i!"cfg"]) .nil))
          (.last
            (.struct
              [i!"Self"]
              (.cons
                i!"scan_aux_bands"
                (.path [i!"scan_aux_bands"])
                (.cons
                  i!"general"
                  (.path [i!"general"])
                  (.cons
                    i!"antenna"
                    (.path [i!"antenna"])
                    .nil)))))))

/-- `ublox/src/ubx_packets/packets.rs:989-1036` -/
def packetsRs_CfgItfmConfig2_From_u32_impl : Impl := ⟨[i!"From", i!"u32"], i!"CfgItfmConfig2", [packetsRs_CfgItfmConfig2_From_u32_from]⟩

/-- `ublox/src/ubx_packets/packets.rs:989-1036` -/
def packetsRs_CfgItfmConfig2_decl : Decl := .struct i!"CfgItfmConfig2" [(i!"general", i!"CfgItfmGeneralBits"), (i!"antenna", i!"CfgItfmAntennaSettings"), (i!"scan_aux_bands", i!"bool")]

/-- `ublox/src/ubx_packets/packets.rs:1042` -/
def packetsRs_CfgItfmGeneralBits_POSITION : Fn where
  name := i!"POSITION"
  params := []
  ret := i!"u32"
  body :=
    .last (.int 0)

/-- `ublox/src/ubx_packets/packets.rs:1043` -/
def packetsRs_CfgItfmGeneralBits_LENGTH : Fn where
  name := i!"LENGTH"
  params := []
  ret := i!"u32"
  body :=
    .last (.int 12)

/-- `ublox/src/ubx_packets/packets.rs:1044` -/
def packetsRs_CfgItfmGeneralBits_MASK : Fn where
  name := i!"MASK"
  params := []
  ret := i!"u32"
  body :=
    .last
      (.bin
        .sub
        (.bin
          .shl
          (.int 1)
          (.path [i!"Self", i!"LENGTH"]))
        (.int 1))

/-- `ublox/src/ubx_packets/packets.rs:1045` -/
def packetsRs_CfgItfmGeneralBits_into_raw : Fn where
  name := i!"into_raw"
  params := [i!"self"]
  ret := i!"u32"
  body :=
    .last
      (.bin
        .shl
        (.bin
          .bitAnd
          (.field (.path [i!"self"]) i!"0")
          (.path [i!"Self", i!"MASK"]))
        (.path [i!"Self", i!"POSITION"]))

/-- `ublox/src/ubx_packets/packets.rs:1037-1090` -/
def packetsRs_CfgItfmGeneralBits_impl : Impl := ⟨[], i!"CfgItfmGeneralBits", [packetsRs_CfgItfmGeneralBits_POSITION, packetsRs_CfgItfmGeneralBits_LENGTH, packetsRs_CfgItfmGeneralBits_MASK, packetsRs_CfgItfmGeneralBits_into_raw]⟩

/-- `ublox/src/ubx_packets/packets.rs:1051` -/
def packetsRs_CfgItfmGeneralBits_Default_default : Fn where
  name := i!"default"
  params := []
  ret := i!"Self"
  body :=
    .last
      (.call
        [i!"Self"]
        (.cons (.int 798) .nil))

/-- `ublox/src/ubx_packets/packets.rs:1037-1090` -/
def packetsRs_CfgItfmGeneralBits_Default_impl : Impl := ⟨[i!"Default"], i!"CfgItfmGeneralBits", [packetsRs_CfgItfmGeneralBits_Default_default]⟩

/-- `ublox/src/ubx_packets/packets.rs:1057` -/
def packetsRs_CfgItfmGeneralBits_From_u32_from : Fn where
  name := i!"from"
  params := [i!"thres"]
  ret := i!"Self"
  body :=
    .last
      (.call
        [i!"Self"]
        (.cons (.path [i!"thres"]) .nil))

/-- `ublox/src/ubx_packets/packets.rs:1037-1090` -/
def packetsRs_CfgItfmGeneralBits_From_u32_impl : Impl := ⟨[i!"From", i!"u32"], i!"CfgItfmGeneralBits", [packetsRs_CfgItfmGeneralBits_From_u32_from]⟩

/-- `ublox/src/ubx_packets/packets.rs:1081` -/
def packetsRs_CfgItfmAntennaSettings_From_u32_from : Fn where
  name := i!"from"
  params := [i!"cfg"]
  ret := i!"Self"
  body :=
    .let_
      (.name i!"cfg")
      (.bin
        .shr
        (.bin
          .bitAnd
          (.path [i!"cfg"])
          (.int 12288))
        (.int 12))
      (.last
        (.match_
          (.path [i!"cfg"])
          (.cons
            (.int 1)
            (.path
              [i!"CfgItfmAntennaSettings", i!"Active"])
            (.cons
              (.int 2)
              (.path
                [i!"CfgItfmAntennaSettings", i!"Passive"])
              (.cons
                (.name i!"_")
                (.path
                  [i!"CfgItfmAntennaSettings", i!"Unknown"])
                .nil)))))

/-- `ublox/src/ubx_packets/packets.rs:1037-1090` -/
def packetsRs_CfgItfmAntennaSettings_From_u32_impl : Impl := ⟨[i!"From", i!"u32"], i!"CfgItfmAntennaSettings", [packetsRs_CfgItfmAntennaSettings_From_u32_from]⟩

/-- `ublox/src/ubx_packets/packets.rs:1037-1090` -/
def packetsRs_CfgItfmGeneralBits_decl : Decl := .struct i!"CfgItfmGeneralBits" [(i!"0", i!"u32")]

/-- `ublox/src/ubx_packets/packets.rs:1211` -/
def packetsRs_inf_convert_to_str : Fn where
  name := i!"convert_to_str"
  params := [i!"bytes"]
  ret := i!""
  body :=
    .last
      (.match_
        (.call
          [i!"core", i!"str", i!"from_utf8"]
          (.cons (.path [i!"bytes"]) .nil))
        (.cons
          (.ctor i!"Ok" [i!"msg"])
          (.call
            [i!"Some"]
            (.cons (.path [i!"msg"]) .nil))
          (.cons
            (.ctor i!"Err" [i!"_"])
            (.path [i!"None"])
            .nil)))

/-- `ublox/src/ubx_packets/packets.rs:1218` -/
def packetsRs_inf_is_valid : Fn where
  name := i!"is_valid"
  params := [i!"_bytes"]
  ret := i!"bool"
  body :=
    .last (.path [i!"true"])

/-- `ublox/src/ubx_packets/packets.rs:1210-1270` -/
def packetsRs_inf_impl : Impl := ⟨[i!"mod"], i!"inf", [packetsRs_inf_convert_to_str, packetsRs_inf_is_valid]⟩

/-- `ublox/src/ubx_packets/packets.rs:1248` -/
def packetsRs_AidIniBuilder_set_position : Fn where
  name := i!"set_position"
  params := [i!"self", i!"pos"]
  ret := i!"Self"
  body :=
    .semi
      (.assign
        (.field (.path [i!"self"]) i!"ecef_x_or_lat")
        (.cast
          (.bin
            .mul
            (.field (.path [i!"pos"]) i!"lat")
            (.float 10000000 1))
          i!"i32"))
      (.semi
        (.assign
          (.field (.path [i!"self"]) i!"ecef_y_or_lon")
          (.cast
            (.bin
              .mul
              (.field (.path [i!"pos"]) i!"lon")
              (.float 10000000 1))
            i!"i32"))
        (.semi
          (.assign
            (.field (.path [i!"self"]) i!"ecef_z_or_alt")
            (.cast
              (.bin
                .mul
                (.field (.path [i!"pos"]) i!"alt")
                (.float 100 1))
              i!"i32"))
          (.semi
            (.orAssign
              (.field (.path [i!"self"]) i!"flags")
              (.bin
                .bitOr
                (.bin
                  .shl
                  (.int 1)
                  (.int 0))
                (.bin
                  .shl
                  (.int 1)
                  (.int 5))))
            (.last (.path [i!"self"])))))

/-- `ublox/src/ubx_packets/packets.rs:1256` -/
def packetsRs_AidIniBuilder_set_time : Fn where
  name := i!"set_time"
  params := [i!"self", i!"tm"]
  ret := i!"Self"
  body :=
    .semi
      (.assign
        (.field (.path [i!"self"]) i!"week_or_ym")
        (.cast
          (.bin
            .add
            (.bin
              .mul
              (.match_
                (.meth
                  (.path [i!"tm"])
                  i!"year_ce"
                  .nil)
                (.cons
                  (.pair i!"true" i!"yr")
                  (.bin
                    .sub
                    (.path [i!"yr"])
                    (.int 2000))
                  (.cons
                    (.pair i!"false" i!"_")
                    (.block
                      (.semi .panic .nil))
                    .nil)))
              (.int 100))
            (.meth
              (.path [i!"tm"])
              i!"month0"
              .nil))
          i!"u16"))
      (.semi
        (.assign
          (.field (.path [i!"self"]) i!"tow_or_hms")
          (.bin
            .add
            (.bin
              .add
              (.bin
                .mul
                (.meth (.path [i!"tm"]) i!"hour" .nil)
                (.int 10000))
              (.bin
                .mul
                (.meth
                  (.path [i!"tm"])
                  i!"minute"
                  .nil)
                (.int 100)))
            (.meth
              (.path [i!"tm"])
              i!"second"
              .nil)))
        (.semi
          (.assign
            (.field (.path [i!"self"]) i!"tow_ns")
            (.cast
              (.meth
                (.path [i!"tm"])
                i!"nanosecond"
                .nil)
              i!"i32"))
          (.semi
            (.orAssign
              (.field (.path [i!"self"]) i!"flags")
              (.bin
                .bitOr
                (.bin
                  .shl
                  (.int 1)
                  (.int 1))
                (.bin
                  .shl
                  (.int 1)
                  (.int 10))))
            (.last (.path [i!"self"])))))

/-- `ublox/src/ubx_packets/packets.rs:1210-1270` -/
def packetsRs_AidIniBuilder_impl : Impl := ⟨[], i!"AidIniBuilder", [packetsRs_AidIniBuilder_set_position, packetsRs_AidIniBuilder_set_time]⟩

/-- `ublox/src/ubx_packets/packets.rs:1299` -/
def packetsRs_AckAckRef_is_ack_for : Fn where
  name := i!"is_ack_for"
  params := [i!"self"]
  ret := i!"bool"
  body :=
    .last
      (.bin
        .and
        (.bin
          .eq
          (.meth (.path [i!"self"]) i!"class" .nil)
          (.path [i!"T", i!"CLASS"]))
        (.bin
          .eq
          (.meth
            (.path [i!"self"])
            i!"msg_id"
            .nil)
          (.path [i!"T", i!"ID"])))

/-- `ublox/src/ubx_packets/packets.rs:1271-1320` -/
def packetsRs_AckAckRef_impl : Impl := ⟨[], i!"AckAckRef", [packetsRs_AckAckRef_is_ack_for]⟩

/-- `ublox/src/ubx_packets/packets.rs:1316` -/
def packetsRs_AckNakRef_is_nak_for : Fn where
  name := i!"is_nak_for"
  params := [i!"self"]
  ret := i!"bool"
  body :=
    .last
      (.bin
        .and
        (.bin
          .eq
          (.meth (.path [i!"self"]) i!"class" .nil)
          (.path [i!"T", i!"CLASS"]))
        (.bin
          .eq
          (.meth
            (.path [i!"self"])
            i!"msg_id"
            .nil)
          (.path [i!"T", i!"ID"])))

/-- `ublox/src/ubx_packets/packets.rs:1271-1320` -/
def packetsRs_AckNakRef_impl : Impl := ⟨[], i!"AckNakRef", [packetsRs_AckNakRef_is_nak_for]⟩

/-- `ublox/src/ubx_packets/packets.rs:1733` -/
def packetsRs_NavBbrMask_From_NavBbrPredefinedMask_from : Fn where
  name := i!"from"
  params := [i!"x"]
  ret := i!"Self"
  body :=
    .last
      (.call
        [i!"Self", i!"from_bits_truncate"]
        (.cons
          (.field (.path [i!"x"]) i!"0")
          .nil))

/-- `ublox/src/ubx_packets/packets.rs:1695-1743` -/
def packetsRs_NavBbrMask_From_NavBbrPredefinedMask_impl : Impl := ⟨[i!"From", i!"NavBbrPredefinedMask"], i!"NavBbrMask", [packetsRs_NavBbrMask_From_NavBbrPredefinedMask_from]⟩

/-- `ublox/src/ubx_packets/packets.rs:1739` -/
def packetsRs_NavBbrPredefinedMask_HOT_START : Fn where
  name := i!"HOT_START"
  params := []
  ret := i!"NavBbrPredefinedMask"
  body :=
    .last
      (.call
        [i!"NavBbrPredefinedMask"]
        (.cons (.int 0) .nil))

/-- `ublox/src/ubx_packets/packets.rs:1740` -/
def packetsRs_NavBbrPredefinedMask_WARM_START : Fn where
  name := i!"WARM_START"
  params := []
  ret := i!"NavBbrPredefinedMask"
  body :=
    .last
      (.call
        [i!"NavBbrPredefinedMask"]
        (.cons (.int 1) .nil))

/-- `ublox/src/ubx_packets/packets.rs:1741` -/
def packetsRs_NavBbrPredefinedMask_COLD_START : Fn where
  name := i!"COLD_START"
  params := []
  ret := i!"NavBbrPredefinedMask"
  body :=
    .last
      (.call
        [i!"NavBbrPredefinedMask"]
        (.cons (.int 65535) .nil))

/-- `ublox/src/ubx_packets/packets.rs:1695-1743` -/
def packetsRs_NavBbrPredefinedMask_impl : Impl := ⟨[], i!"NavBbrPredefinedMask", [packetsRs_NavBbrPredefinedMask_HOT_START, packetsRs_NavBbrPredefinedMask_WARM_START, packetsRs_NavBbrPredefinedMask_COLD_START]⟩

/-- `ublox/src/ubx_packets/packets.rs:1695-1743` -/
def packetsRs_NavBbrPredefinedMask_decl : Decl := .struct i!"NavBbrPredefinedMask" [(i!"0", i!"u16")]

/-- `ublox/src/ubx_packets/packets.rs:1760` -/
def packetsRs_ResetMode_into_raw : Fn where
  name := i!"into_raw"
  params := [i!"self"]
  ret := i!"u8"
  body :=
    .last (.cast (.path [i!"self"]) i!"u8")

/-- `ublox/src/ubx_packets/packets.rs:1744-1801` -/
def packetsRs_ResetMode_impl : Impl := ⟨[], i!"ResetMode", [packetsRs_ResetMode_into_raw]⟩

/-- `ublox/src/ubx_packets/packets.rs:1788` -/
def packetsRs_CfgValIter_new : Fn where
  name := i!"new"
  params := [i!"data", i!"values"]
  ret := i!"Self"
  body :=
    .let_
      (.name i!"offset")
      (.int 0)
      (.semi
        (.for_
          i!"value"
          (.path [i!"values"])
          (.semi
            (.addAssign
              (.path [i!"offset"])
              (.meth
                (.path [i!"value"])
                i!"write_to"
                (.cons
                  (.un
                    .refMut
                    (.index
                      (.path [i!"data"])
                      (.rangeFrom (.path [i!"offset"]))))
                  .nil)))
            .nil))
        (.last
          (.struct
            [i!"Self"]
            (.cons
              i!"data"
              (.un
                .ref
                (.index
                  (.path [i!"data"])
                  (.rangeTo (.path [i!"offset"]))))
              (.cons
                i!"offset"
                (.int 0)
                .nil)))))

/-- `ublox/src/ubx_packets/packets.rs:1744-1801` -/
def packetsRs_CfgValIter_impl : Impl := ⟨[], i!"CfgValIter", [packetsRs_CfgValIter_new]⟩

/-- `ublox/src/ubx_packets/packets.rs:1744-1801` -/
def packetsRs_ResetMode_decl : Decl := .enum i!"ResetMode" [(i!"HardwareResetImmediately", some 0), (i!"ControlledSoftwareReset", some 1), (i!"ControlledSoftwareResetGpsOnly", some 2), (i!"HardwareResetAfterShutdown", some 4), (i!"ControlledGpsStop", some 8), (i!"ControlledGpsStart", some 9)]

/-- `ublox/src/ubx_packets/packets.rs:1744-1801` -/
def packetsRs_CfgValIter_decl : Decl := .struct i!"CfgValIter" [(i!"data", i!""), (i!"offset", i!"usize")]

/-- `ublox/src/ubx_packets/packets.rs:1805` -/
def packetsRs_CfgValIter_Iterator_next : Fn where
  name := i!"next"
  params := [i!"self"]
  ret := i!""
  body :=
    .last
      (.ite
        (.bin
          .lt
          (.field (.path [i!"self"]) i!"offset")
          (.meth
            (.field (.path [i!"self"]) i!"data")
            i!"len"
            .nil))
        (.let_
          (.name i!"cfg_val")
          (.call
            [i!"CfgVal", i!"parse"]
            (.cons
              (.un
                .ref
                (.index
                  (.field (.path [i!"self"]) i!"data")
                  (.rangeFrom
                    (.field (.path [i!"self"]) i!"offset"))))
              .nil))
          (.semi
            (.addAssign
              (.field (.path [i!"self"]) i!"offset")
              (.meth
                (.path [i!"cfg_val"])
                i!"len"
                .nil))
            (.last
              (.call
                [i!"Some"]
                (.cons
                  (.path [i!"cfg_val"])
                  .nil)))))
        (.last (.path [i!"None"])))

/-- `ublox/src/ubx_packets/packets.rs:1802-1859` -/
def packetsRs_CfgValIter_Iterator_impl : Impl := ⟨[i!"core", i!"iter", i!"Iterator"], i!"CfgValIter", [packetsRs_CfgValIter_Iterator_next]⟩

/-- `ublox/src/ubx_packets/packets.rs:1830` -/
def packetsRs_CfgLayer_Default_default : Fn where
  name := i!"default"
  params := []
  ret := i!"Self"
  body :=
    .last
      (.bin
        .bitOr
        (.bin
          .bitOr
          (.path [i!"Self", i!"RAM"])
          (.path [i!"Self", i!"BBR"]))
        (.path [i!"Self", i!"FLASH"]))

/-- `ublox/src/ubx_packets/packets.rs:1802-1859` -/
def packetsRs_CfgLayer_Default_impl : Impl := ⟨[i!"Default"], i!"CfgLayer", [packetsRs_CfgLayer_Default_default]⟩

/-- `ublox/src/ubx_packets/packets.rs:1910` -/
def packetsRs_UartMode_new : Fn where
  name := i!"new"
  params := [i!"data_bits", i!"parity", i!"stop_bits"]
  ret := i!"Self"
  body :=
    .last
      (.struct
        [i!"Self"]
        (.cons
          i!"data_bits"
          (.path [i!"data_bits"])
          (.cons
            i!"parity"
            (.path [i!"parity"])
            (.cons
              i!"stop_bits"
              (.path [i!"stop_bits"])
              .nil))))

/-- `ublox/src/ubx_packets/packets.rs:1918` -/
def packetsRs_UartMode_into_raw : Fn where
  name := i!"into_raw"
  params := [i!"self"]
  ret := i!"u32"
  body :=
    .last
      (.bin
        .bitOr
        (.bin
          .bitOr
          (.meth
            (.field (.path [i!"self"]) i!"data_bits")
            i!"into_raw"
            .nil)
          (.meth
            (.field (.path [i!"self"]) i!"parity")
            i!"into_raw"
            .nil))
        (.meth
          (.field (.path [i!"self"]) i!"stop_bits")
          i!"into_raw"
          .nil))

/-- `ublox/src/ubx_packets/packets.rs:1860-1922` -/
def packetsRs_UartMode_impl : Impl := ⟨[], i!"UartMode", [packetsRs_UartMode_new, packetsRs_UartMode_into_raw]⟩

/-- `ublox/src/ubx_packets/packets.rs:1860-1922` -/
def packetsRs_UartMode_decl : Decl := .struct i!"UartMode" [(i!"data_bits", i!"DataBits"), (i!"parity", i!"Parity"), (i!"stop_bits", i!"StopBits")]

/-- `ublox/src/ubx_packets/packets.rs:1924` -/
def packetsRs_UartMode_From_u32_from : Fn where
  name := i!"from"
  params := [i!"mode"]
  ret := i!"Self"
  body :=
    .let_
      (.name i!"data_bits")
      (.call
        [i!"DataBits", i!"from"]
        (.cons (.path [i!"mode"]) .nil))
      (.let_
        (.name i!"parity")
        (.call
          [i!"Parity", i!"from"]
          (.cons (.path [i!"mode"]) .nil))
        (.let_
          (.name i!"stop_bits")
          (.call
            [i!"StopBits", i!"from"]
            (.cons (.path [i!"mode"]) .nil))
          (.last
            (.struct
              [i!"Self"]
              (.cons
                i!"data_bits"
                (.path [i!"data_bits"])
                (.cons
                  i!"parity"
                  (.path [i!"parity"])
                  (.cons
                    i!"stop_bits"
                    (.path [i!"stop_bits"])
                    .nil)))))))

/-- `ublox/src/ubx_packets/packets.rs:1923-1988` -/
def packetsRs_UartMode_From_u32_impl : Impl := ⟨[i!"From", i!"u32"], i!"UartMode", [packetsRs_UartMode_From_u32_from]⟩

/-- `ublox/src/ubx_packets/packets.rs:1945` -/
def packetsRs_DataBits_POSITION : Fn where
  name := i!"POSITION"
  params := []
  ret := i!"u32"
  body :=
    .last (.int 6)

/-- `ublox/src/ubx_packets/packets.rs:1946` -/
def packetsRs_DataBits_MASK : Fn where
  name := i!"MASK"
  params := []
  ret := i!"u32"
  body :=
    .last (.int 3)

/-- `ublox/src/ubx_packets/packets.rs:1948` -/
def packetsRs_DataBits_into_raw : Fn where
  name := i!"into_raw"
  params := [i!"self"]
  ret := i!"u32"
  body :=
    .last
      (.bin
        .shl
        (.match_
          (.path [i!"self"])
          (.cons
            (.path [i!"Self", i!"Seven"])
            (.int 2)
            (.cons
              (.path [i!"Self", i!"Eight"])
              (.int 3)
              .nil)))
        (.path [i!"Self", i!"POSITION"]))

/-- `ublox/src/ubx_packets/packets.rs:1923-1988` -/
def packetsRs_DataBits_impl : Impl := ⟨[], i!"DataBits", [packetsRs_DataBits_POSITION, packetsRs_DataBits_MASK, packetsRs_DataBits_into_raw]⟩

/-- `ublox/src/ubx_packets/packets.rs:1957` -/
def packetsRs_DataBits_From_u32_from : Fn where
  name := i!"from"
  params := [i!"mode"]
  ret := i!"Self"
  body :=
    .last
      (.match_
        (.bin
          .bitAnd
          (.bin
            .shr
            (.path [i!"mode"])
            (.path [i!"Self", i!"POSITION"]))
          (.path [i!"Self", i!"MASK"]))
        (.cons
          (.int 0)
          .panic
          (.cons
            (.int 1)
            .panic
            (.cons
              (.int 2)
              (.path [i!"Self", i!"Seven"])
              (.cons
                (.int 3)
                (.path [i!"Self", i!"Eight"])
                (.cons
                  (.name i!"_")
                  .panic
                  .nil))))))

/-- `ublox/src/ubx_packets/packets.rs:1923-1988` -/
def packetsRs_DataBits_From_u32_impl : Impl := ⟨[i!"From", i!"u32"], i!"DataBits", [packetsRs_DataBits_From_u32_from]⟩

/-- `ublox/src/ubx_packets/packets.rs:1977` -/
def packetsRs_Parity_POSITION : Fn where
  name := i!"POSITION"
  params := []
  ret := i!"u32"
  body :=
    .last (.int 9)

/-- `ublox/src/ubx_packets/packets.rs:1978` -/
def packetsRs_Parity_MASK : Fn where
  name := i!"MASK"
  params := []
  ret := i!"u32"
  body :=
    .last (.int 7)

/-- `ublox/src/ubx_packets/packets.rs:1980` -/
def packetsRs_Parity_into_raw : Fn where
  name := i!"into_raw"
  params := [i!"self"]
  ret := i!"u32"
  body :=
    .last
      (.bin
        .shl
        (.match_
          (.path [i!"self"])
          (.cons
            (.path [i!"Self", i!"Even"])
            (.int 0)
            (.cons
              (.path [i!"Self", i!"Odd"])
              (.int 1)
              (.cons
                (.path [i!"Self", i!"None"])
                (.int 4)
                .nil))))
        (.path [i!"Self", i!"POSITION"]))

/-- `ublox/src/ubx_packets/packets.rs:1923-1988` -/
def packetsRs_Parity_impl : Impl := ⟨[], i!"Parity", [packetsRs_Parity_POSITION, packetsRs_Parity_MASK, packetsRs_Parity_into_raw]⟩

/-- `ublox/src/ubx_packets/packets.rs:1923-1988` -/
def packetsRs_DataBits_decl : Decl := .enum i!"DataBits" [(i!"Seven", none), (i!"Eight", none)]

/-- `ublox/src/ubx_packets/packets.rs:1923-1988` -/
def packetsRs_Parity_decl : Decl := .enum i!"Parity" [(i!"Even", none), (i!"Odd", none), (i!"None", none)]

/-- `ublox/src/ubx_packets/packets.rs:1990` -/
def packetsRs_Parity_From_u32_from : Fn where
  name := i!"from"
  params := [i!"mode"]
  ret := i!"Self"
  body :=
    .last
      (.match_
        (.bin
          .bitAnd
          (.bin
            .shr
            (.path [i!"mode"])
            (.path [i!"Self", i!"POSITION"]))
          (.path [i!"Self", i!"MASK"]))
        (.cons
          (.int 0)
          (.path [i!"Self", i!"Even"])
          (.cons
            (.int 1)
            (.path [i!"Self", i!"Odd"])
            (.cons
              (.or (.int 4) (.int 5))
              (.path [i!"Self", i!"None"])
              (.cons
                (.or
                  (.int 2)
                  (.or
                    (.int 3)
                    (.or (.int 6) (.int 7))))
                .panic
                (.cons
                  (.name i!"_")
                  .panic
                  .nil))))))

/-- `ublox/src/ubx_packets/packets.rs:1989-2060` -/
def packetsRs_Parity_From_u32_impl : Impl := ⟨[i!"From", i!"u32"], i!"Parity", [packetsRs_Parity_From_u32_from]⟩

/-- `ublox/src/ubx_packets/packets.rs:2011` -/
def packetsRs_StopBits_POSITION : Fn where
  name := i!"POSITION"
  params := []
  ret := i!"u32"
  body :=
    .last (.int 12)

/-- `ublox/src/ubx_packets/packets.rs:2012` -/
def packetsRs_StopBits_MASK : Fn where
  name := i!"MASK"
  params := []
  ret := i!"u32"
  body :=
    .last (.int 3)

/-- `ublox/src/ubx_packets/packets.rs:2014` -/
def packetsRs_StopBits_into_raw : Fn where
  name := i!"into_raw"
  params := [i!"self"]
  ret := i!"u32"
  body :=
    .last
      (.bin
        .shl
        (.match_
          (.path [i!"self"])
          (.cons
            (.path [i!"Self", i!"One"])
            (.int 0)
            (.cons
              (.path [i!"Self", i!"OneHalf"])
              (.int 1)
              (.cons
                (.path [i!"Self", i!"Two"])
                (.int 2)
                (.cons
                  (.path [i!"Self", i!"Half"])
                  (.int 3)
                  .nil)))))
        (.path [i!"Self", i!"POSITION"]))

/-- `ublox/src/ubx_packets/packets.rs:1989-2060` -/
def packetsRs_StopBits_impl : Impl := ⟨[], i!"StopBits", [packetsRs_StopBits_POSITION, packetsRs_StopBits_MASK, packetsRs_StopBits_into_raw]⟩

/-- `ublox/src/ubx_packets/packets.rs:2025` -/
def packetsRs_StopBits_From_u32_from : Fn where
  name := i!"from"
  params := [i!"mode"]
  ret := i!"Self"
  body :=
    .last
      (.match_
        (.bin
          .bitAnd
          (.bin
            .shr
            (.path [i!"mode"])
            (.path [i!"Self", i!"POSITION"]))
          (.path [i!"Self", i!"MASK"]))
        (.cons
          (.int 0)
          (.path [i!"Self", i!"One"])
          (.cons
            (.int 1)
            (.path [i!"Self", i!"OneHalf"])
            (.cons
              (.int 2)
              (.path [i!"Self", i!"Two"])
              (.cons
                (.int 3)
                (.path [i!"Self", i!"Half"])
                (.cons
                  (.name i!"_")
                  .panic
                  .nil))))))

/-- `ublox/src/ubx_packets/packets.rs:1989-2060` -/
def packetsRs_StopBits_From_u32_impl : Impl := ⟨[i!"From", i!"u32"], i!"StopBits", [packetsRs_StopBits_From_u32_from]⟩

/-- `ublox/src/ubx_packets/packets.rs:1989-2060` -/
def packetsRs_StopBits_decl : Decl := .enum i!"StopBits" [(i!"One", none), (i!"OneHalf", none), (i!"Two", none), (i!"Half", none)]

/-- `ublox/src/ubx_packets/packets.rs:2185` -/
def packetsRs_AlignmentToReferenceTime_into_raw : Fn where
  name := i!"into_raw"
  params := [i!"self"]
  ret := i!"u16"
  body :=
    .last (.cast (.path [i!"self"]) i!"u16")

/-- `ublox/src/ubx_packets/packets.rs:2173-2236` -/
def packetsRs_AlignmentToReferenceTime_impl : Impl := ⟨[], i!"AlignmentToReferenceTime", [packetsRs_AlignmentToReferenceTime_into_raw]⟩

/-- `ublox/src/ubx_packets/packets.rs:2203` -/
def packetsRs_CfgMsgSinglePortBuilder_set_rate_for : Fn where
  name := i!"set_rate_for"
  params := [i!"rate"]
  ret := i!"Self"
  body :=
    .last
      (.struct
        [i!"Self"]
        (.cons
          i!"msg_class"
          (.path [i!"T", i!"CLASS"])
          (.cons
            i!"msg_id"
            (.path [i!"T", i!"ID"])
            (.cons
              i!"rate"
              (.path [i!"rate"])
              .nil))))

/-- `ublox/src/ubx_packets/packets.rs:2173-2236` -/
def packetsRs_CfgMsgSinglePortBuilder_impl : Impl := ⟨[], i!"CfgMsgSinglePortBuilder", [packetsRs_CfgMsgSinglePortBuilder_set_rate_for]⟩

/-- `ublox/src/ubx_packets/packets.rs:2228` -/
def packetsRs_CfgMsgAllPortsBuilder_set_rate_for : Fn where
  name := i!"set_rate_for"
  params := [i!"rates"]
  ret := i!"Self"
  body :=
    .last
      (.struct
        [i!"Self"]
        (.cons
          i!"msg_class"
          (.path [i!"T", i!"CLASS"])
          (.cons
            i!"msg_id"
            (.path [i!"T", i!"ID"])
            (.cons
              i!"rates"
              (.path [i!"rates"])
              .nil))))

/-- `ublox/src/ubx_packets/packets.rs:2173-2236` -/
def packetsRs_CfgMsgAllPortsBuilder_impl : Impl := ⟨[], i!"CfgMsgAllPortsBuilder", [packetsRs_CfgMsgAllPortsBuilder_set_rate_for]⟩

/-- `ublox/src/ubx_packets/packets.rs:2173-2236` -/
def packetsRs_AlignmentToReferenceTime_decl : Decl := .enum i!"AlignmentToReferenceTime" [(i!"Utc", some 0), (i!"Gps", some 1), (i!"Glo", some 2), (i!"Bds", some 3), (i!"Gal", some 4)]

/-- `ublox/src/ubx_packets/packets.rs:2396` -/
def packetsRs_ScaleBack_as_i8 : Fn where
  name := i!"as_i8"
  params := [i!"self", i!"x"]
  ret := i!"i8"
  body :=
    .let_
      (.name i!"x")
      (.meth
        (.bin
          .mul
          (.path [i!"x"])
          (.field (.path [i!"self"]) i!"0"))
        i!"round"
        .nil)
      (.last
        (.ite
          (.bin
            .lt
            (.path [i!"x"])
            (.meth
              (.call
                [i!"T", i!"from_i8"]
                (.cons
                  (.call [i!"i8", i!"min_value"] .nil)
                  .nil))
              i!"unwrap"
              .nil))
          (.last
            (.call [i!"i8", i!"min_value"] .nil))
          (.last
            (.ite
              (.bin
                .gt
                (.path [i!"x"])
                (.meth
                  (.call
                    [i!"T", i!"from_i8"]
                    (.cons
                      (.call [i!"i8", i!"max_value"] .nil)
                      .nil))
                  i!"unwrap"
                  .nil))
              (.last
                (.call [i!"i8", i!"max_value"] .nil))
              (.last
                (.meth
                  (.meth
                    (.path [i!"x"])
                    i!"to_i8"
                    .nil)
                  i!"unwrap"
                  .nil))))))

/-- `ublox/src/ubx_packets/packets.rs:2407` -/
def packetsRs_ScaleBack_as_i16 : Fn where
  name := i!"as_i16"
  params := [i!"self", i!"x"]
  ret := i!"i16"
  body :=
    .let_
      (.name i!"x")
      (.meth
        (.bin
          .mul
          (.path [i!"x"])
          (.field (.path [i!"self"]) i!"0"))
        i!"round"
        .nil)
      (.last
        (.ite
          (.bin
            .lt
            (.path [i!"x"])
            (.meth
              (.call
                [i!"T", i!"from_i16"]
                (.cons
                  (.call [i!"i16", i!"min_value"] .nil)
                  .nil))
              i!"unwrap"
              .nil))
          (.last
            (.call [i!"i16", i!"min_value"] .nil))
          (.last
            (.ite
              (.bin
                .gt
                (.path [i!"x"])
                (.meth
                  (.call
                    [i!"T", i!"from_i16"]
                    (.cons
                      (.call [i!"i16", i!"max_value"] .nil)
                      .nil))
                  i!"unwrap"
                  .nil))
              (.last
                (.call [i!"i16", i!"max_value"] .nil))
              (.last
                (.meth
                  (.meth
                    (.path [i!"x"])
                    i!"to_i16"
                    .nil)
                  i!"unwrap"
                  .nil))))))

/-- `ublox/src/ubx_packets/packets.rs:2418` -/
def packetsRs_ScaleBack_as_i32 : Fn where
  name := i!"as_i32"
  params := [i!"self", i!"x"]
  ret := i!"i32"
  body :=
    .let_
      (.name i!"x")
      (.meth
        (.bin
          .mul
          (.path [i!"x"])
          (.field (.path [i!"self"]) i!"0"))
        i!"round"
        .nil)
      (.last
        (.ite
          (.bin
            .lt
            (.path [i!"x"])
            (.meth
              (.call
                [i!"T", i!"from_i32"]
                (.cons
                  (.path [i!"i32", i!"MIN"])
                  .nil))
              i!"unwrap"
              .nil))
          (.last (.path [i!"i32", i!"MIN"]))
          (.last
            (.ite
              (.bin
                .gt
                (.path [i!"x"])
                (.meth
                  (.call
                    [i!"T", i!"from_i32"]
                    (.cons
                      (.path [i!"i32", i!"MAX"])
                      .nil))
                  i!"unwrap"
                  .nil))
              (.last (.path [i!"i32", i!"MAX"]))
              (.last
                (.meth
                  (.meth
                    (.path [i!"x"])
                    i!"to_i32"
                    .nil)
                  i!"unwrap"
                  .nil))))))

/-- `ublox/src/ubx_packets/packets.rs:2429` -/
def packetsRs_ScaleBack_as_u32 : Fn where
  name := i!"as_u32"
  params := [i!"self", i!"x"]
  ret := i!"u32"
  body :=
    .let_
      (.name i!"x")
      (.meth
        (.bin
          .mul
          (.path [i!"x"])
          (.field (.path [i!"self"]) i!"0"))
        i!"round"
        .nil)
      (.last
        (.ite
          (.un
            .not
            (.meth
              (.path [i!"x"])
              i!"is_sign_negative"
              .nil))
          (.last
            (.ite
              (.bin
                .le
                (.path [i!"x"])
                (.meth
                  (.call
                    [i!"T", i!"from_u32"]
                    (.cons
                      (.path [i!"u32", i!"MAX"])
                      .nil))
                  i!"unwrap"
                  .nil))
              (.last
                (.meth
                  (.meth
                    (.path [i!"x"])
                    i!"to_u32"
                    .nil)
                  i!"unwrap"
                  .nil))
              (.last (.path [i!"u32", i!"MAX"]))))
          (.last (.int 0))))

/-- `ublox/src/ubx_packets/packets.rs:2442` -/
def packetsRs_ScaleBack_as_u16 : Fn where
  name := i!"as_u16"
  params := [i!"self", i!"x"]
  ret := i!"u16"
  body :=
    .let_
      (.name i!"x")
      (.meth
        (.bin
          .mul
          (.path [i!"x"])
          (.field (.path [i!"self"]) i!"0"))
        i!"round"
        .nil)
      (.last
        (.ite
          (.un
            .not
            (.meth
              (.path [i!"x"])
              i!"is_sign_negative"
              .nil))
          (.last
            (.ite
              (.bin
                .le
                (.path [i!"x"])
                (.meth
                  (.call
                    [i!"T", i!"from_u16"]
                    (.cons
                      (.path [i!"u16", i!"MAX"])
                      .nil))
                  i!"unwrap"
                  .nil))
              (.last
                (.meth
                  (.meth
                    (.path [i!"x"])
                    i!"to_u16"
                    .nil)
                  i!"unwrap"
                  .nil))
              (.last (.path [i!"u16", i!"MAX"]))))
          (.last (.int 0))))

/-- `ublox/src/ubx_packets/packets.rs:2455` -/
def packetsRs_ScaleBack_as_u8 : Fn where
  name := i!"as_u8"
  params := [i!"self", i!"x"]
  ret := i!"u8"
  body :=
    .let_
      (.name i!"x")
      (.meth
        (.bin
          .mul
          (.path [i!"x"])
          (.field (.path [i!"self"]) i!"0"))
        i!"round"
        .nil)
      (.last
        (.ite
          (.un
            .not
            (.meth
              (.path [i!"x"])
              i!"is_sign_negative"
              .nil))
          (.last
            (.ite
              (.bin
                .le
                (.path [i!"x"])
                (.meth
                  (.call
                    [i!"T", i!"from_u8"]
                    (.cons
                      (.path [i!"u8", i!"MAX"])
                      .nil))
                  i!"unwrap"
                  .nil))
              (.last
                (.meth
                  (.meth
                    (.path [i!"x"])
                    i!"to_u8"
                    .nil)
                  i!"unwrap"
                  .nil))
              (.last (.path [i!"u8", i!"MAX"]))))
          (.last (.int 0))))

/-- `ublox/src/ubx_packets/packets.rs:2358-2468` -/
def packetsRs_ScaleBack_impl : Impl := ⟨[], i!"ScaleBack", [packetsRs_ScaleBack_as_i8, packetsRs_ScaleBack_as_i16, packetsRs_ScaleBack_as_i32, packetsRs_ScaleBack_as_u32, packetsRs_ScaleBack_as_u16, packetsRs_ScaleBack_as_u8]⟩

/-- `ublox/src/ubx_packets/packets.rs:2358-2468` -/
def packetsRs_ScaleBack_decl : Decl := .struct i!"ScaleBack" [(i!"0", i!"T")]

/-- `ublox/src/ubx_packets/packets.rs:2740` -/
def packetsRs_TimTpFlags_time_base : Fn where
  name := i!"time_base"
  params := [i!"self"]
  ret := i!"TimTpTimeBase"
  body :=
    .last
      (.ite
        (.bin
          .eq
          (.bin
            .bitAnd
            (.field (.path [i!"self"]) i!"0")
            (.int 1))
          (.int 0))
        (.last (.path [i!"TimTpTimeBase", i!"Gnss"]))
        (.last (.path [i!"TimTpTimeBase", i!"Utc"])))

/-- `ublox/src/ubx_packets/packets.rs:2749` -/
def packetsRs_TimTpFlags_utc_available : Fn where
  name := i!"utc_available"
  params := [i!"self"]
  ret := i!"bool"
  body :=
    .last
      (.bin
        .ne
        (.bin
          .bitAnd
          (.field (.path [i!"self"]) i!"0")
          (.int 2))
        (.int 0))

/-- `ublox/src/ubx_packets/packets.rs:2756` -/
def packetsRs_TimTpFlags_raim_active : Fn where
  name := i!"raim_active"
  params := [i!"self"]
  ret := i!""
  body :=
    .last
      (.match_
        (.bin
          .bitAnd
          (.bin
            .shr
            (.field (.path [i!"self"]) i!"0")
            (.int 2))
          (.int 3))
        (.cons
          (.int 1)
          (.call
            [i!"Some"]
            (.cons (.path [i!"false"]) .nil))
          (.cons
            (.int 2)
            (.call
              [i!"Some"]
              (.cons (.path [i!"true"]) .nil))
            (.cons
              (.name i!"_")
              (.path [i!"None"])
              .nil))))

/-- `ublox/src/ubx_packets/packets.rs:2768` -/
def packetsRs_TimTpFlags_q_err_valid : Fn where
  name := i!"q_err_valid"
  params := [i!"self"]
  ret := i!"bool"
  body :=
    .last
      (.bin
        .eq
        (.bin
          .bitAnd
          (.field (.path [i!"self"]) i!"0")
          (.int 16))
        (.int 0))

/-- `ublox/src/ubx_packets/packets.rs:2678-2772` -/
def packetsRs_TimTpFlags_impl : Impl := ⟨[], i!"TimTpFlags", [packetsRs_TimTpFlags_time_base, packetsRs_TimTpFlags_utc_available, packetsRs_TimTpFlags_raim_active, packetsRs_TimTpFlags_q_err_valid]⟩

/-- `ublox/src/ubx_packets/packets.rs:2678-2772` -/
def packetsRs_TimTpFlags_decl : Decl := .struct i!"TimTpFlags" [(i!"0", i!"u8")]

/-- `ublox/src/ubx_packets/packets.rs:2785` -/
def packetsRs_TimTpRefInfo_time_ref_gnss : Fn where
  name := i!"time_ref_gnss"
  params := [i!"self"]
  ret := i!""
  body :=
    .last
      (.call
        [i!"Some"]
        (.cons
          (.match_
            (.bin
              .bitAnd
              (.field (.path [i!"self"]) i!"0")
              (.int 15))
            (.cons
              (.int 0)
              (.path [i!"TimTpRefInfoTimeRefGnss", i!"Gps"])
              (.cons
                (.int 1)
                (.path
                  [i!"TimTpRefInfoTimeRefGnss", i!"Glo"])
                (.cons
                  (.int 2)
                  (.path
                    [i!"TimTpRefInfoTimeRefGnss", i!"Bds"])
                  (.cons
                    (.int 3)
                    (.path
                      [i!"TimTpRefInfoTimeRefGnss", i!"Gal"])
                    (.cons
                      (.int 4)
                      (.path
                        [i!"TimTpRefInfoTimeRefGnss", i!"NavIc"])
                      (.cons
                        (.name i!"_")
                        (.return_ (.path [i!"None"]))
                        .nil)))))))
          .nil))

/-- `ublox/src/ubx_packets/packets.rs:2797` -/
def packetsRs_TimTpRefInfo_utc_standard : Fn where
  name := i!"utc_standard"
  params := [i!"self"]
  ret := i!""
  body :=
    .last
      (.call
        [i!"Some"]
        (.cons
          (.match_
            (.bin
              .shr
              (.field (.path [i!"self"]) i!"0")
              (.int 4))
            (.cons
              (.int 1)
              (.path [i!"TimTpRefInfoUtcStandard", i!"Crl"])
              (.cons
                (.int 2)
                (.path
                  [i!"TimTpRefInfoUtcStandard", i!"Nist"])
                (.cons
                  (.int 3)
                  (.path
                    [i!"TimTpRefInfoUtcStandard", i!"Usno"])
                  (.cons
                    (.int 4)
                    (.path
                      [i!"TimTpRefInfoUtcStandard", i!"Bipm"])
                    (.cons
                      (.int 5)
                      (.path
                        [i!"TimTpRefInfoUtcStandard", i!"Eu"])
                      (.cons
                        (.int 6)
                        (.path
                          [i!"TimTpRefInfoUtcStandard", i!"Su"])
                        (.cons
                          (.int 7)
                          (.path
                            [i!"TimTpRefInfoUtcStandard", i!"Ntsc"])
                          (.cons
                            (.int 8)
                            (.path
                              [i!"TimTpRefInfoUtcStandard", i!"Npli"])
                            (.cons
                              (.name i!"_")
                              (.return_ (.path [i!"None"]))
                              .nil))))))))))
          .nil))

/-- `ublox/src/ubx_packets/packets.rs:2773-2811` -/
def packetsRs_TimTpRefInfo_impl : Impl := ⟨[], i!"TimTpRefInfo", [packetsRs_TimTpRefInfo_time_ref_gnss, packetsRs_TimTpRefInfo_utc_standard]⟩

/-- `ublox/src/ubx_packets/packets.rs:2773-2811` -/
def packetsRs_TimTpTimeBase_decl : Decl := .enum i!"TimTpTimeBase" [(i!"Gnss", none), (i!"Utc", none)]

/-- `ublox/src/ubx_packets/packets.rs:2773-2811` -/
def packetsRs_TimTpRefInfo_decl : Decl := .struct i!"TimTpRefInfo" [(i!"0", i!"u8")]

/-- `ublox/src/ubx_packets/packets.rs:2865` -/
def packetsRs_TimTm2Flags_mode : Fn where
  name := i!"mode"
  params := [i!"self"]
  ret := i!"TimTm2Mode"
  body :=
    .last
      (.ite
        (.bin
          .eq
          (.bin
            .bitAnd
            (.field (.path [i!"self"]) i!"0")
            (.int 1))
          (.int 0))
        (.last (.path [i!"TimTm2Mode", i!"Single"]))
        (.last (.path [i!"TimTm2Mode", i!"Running"])))

/-- `ublox/src/ubx_packets/packets.rs:2873` -/
def packetsRs_TimTm2Flags_run : Fn where
  name := i!"run"
  params := [i!"self"]
  ret := i!"TimTm2Run"
  body :=
    .last
      (.ite
        (.bin
          .eq
          (.bin
            .bitAnd
            (.field (.path [i!"self"]) i!"0")
            (.int 2))
          (.int 0))
        (.last (.path [i!"TimTm2Run", i!"Armed"]))
        (.last (.path [i!"TimTm2Run", i!"Stopped"])))

/-- `ublox/src/ubx_packets/packets.rs:2881` -/
def packetsRs_TimTm2Flags_new_falling_edge : Fn where
  name := i!"new_falling_edge"
  params := [i!"self"]
  ret := i!"bool"
  body :=
    .last
      (.bin
        .ne
        (.bin
          .bitAnd
          (.field (.path [i!"self"]) i!"0")
          (.int 4))
        (.int 0))

/-- `ublox/src/ubx_packets/packets.rs:2885` -/
def packetsRs_TimTm2Flags_new_rising_edge : Fn where
  name := i!"new_rising_edge"
  params := [i!"self"]
  ret := i!"bool"
  body :=
    .last
      (.bin
        .ne
        (.bin
          .bitAnd
          (.field (.path [i!"self"]) i!"0")
          (.int 128))
        (.int 0))

/-- `ublox/src/ubx_packets/packets.rs:2889` -/
def packetsRs_TimTm2Flags_time_base : Fn where
  name := i!"time_base"
  params := [i!"self"]
  ret := i!"TimTm2TimeBase"
  body :=
    .last
      (.match_
        (.bin
          .bitAnd
          (.field (.path [i!"self"]) i!"0")
          (.int 24))
        (.cons
          (.int 0)
          (.path [i!"TimTm2TimeBase", i!"Receiver"])
          (.cons
            (.int 1)
            (.path [i!"TimTm2TimeBase", i!"Gnss"])
            (.cons
              (.int 2)
              (.path [i!"TimTm2TimeBase", i!"Utc"])
              (.cons
                (.name i!"_")
                .panic
                .nil)))))

/-- `ublox/src/ubx_packets/packets.rs:2899` -/
def packetsRs_TimTm2Flags_utc_available : Fn where
  name := i!"utc_available"
  params := [i!"self"]
  ret := i!"bool"
  body :=
    .last
      (.bin
        .ne
        (.bin
          .bitAnd
          (.field (.path [i!"self"]) i!"0")
          (.int 32))
        (.int 0))

/-- `ublox/src/ubx_packets/packets.rs:2903` -/
def packetsRs_TimTm2Flags_time_valid : Fn where
  name := i!"time_valid"
  params := [i!"self"]
  ret := i!"bool"
  body :=
    .last
      (.bin
        .ne
        (.bin
          .bitAnd
          (.field (.path [i!"self"]) i!"0")
          (.int 64))
        (.int 0))

/-- `ublox/src/ubx_packets/packets.rs:2812-2907` -/
def packetsRs_TimTm2Flags_impl : Impl := ⟨[], i!"TimTm2Flags", [packetsRs_TimTm2Flags_mode, packetsRs_TimTm2Flags_run, packetsRs_TimTm2Flags_new_falling_edge, packetsRs_TimTm2Flags_new_rising_edge, packetsRs_TimTm2Flags_time_base, packetsRs_TimTm2Flags_utc_available, packetsRs_TimTm2Flags_time_valid]⟩

/-- `ublox/src/ubx_packets/packets.rs:2812-2907` -/
def packetsRs_TimTpRefInfoTimeRefGnss_decl : Decl := .enum i!"TimTpRefInfoTimeRefGnss" [(i!"Gps", none), (i!"Glo", none), (i!"Bds", none), (i!"Gal", none), (i!"NavIc", none)]

/-- `ublox/src/ubx_packets/packets.rs:2812-2907` -/
def packetsRs_TimTpRefInfoUtcStandard_decl : Decl := .enum i!"TimTpRefInfoUtcStandard" [(i!"Crl", none), (i!"Nist", none), (i!"Usno", none), (i!"Bipm", none), (i!"Eu", none), (i!"Su", none), (i!"Ntsc", none), (i!"Npli", none)]

/-- `ublox/src/ubx_packets/packets.rs:2812-2907` -/
def packetsRs_TimTm2Flags_decl : Decl := .struct i!"TimTm2Flags" [(i!"0", i!"u8")]

/-- `ublox/src/ubx_packets/packets.rs:2908-2963` -/
def packetsRs_TimTm2Mode_decl : Decl := .enum i!"TimTm2Mode" [(i!"Single", none), (i!"Running", none)]

/-- `ublox/src/ubx_packets/packets.rs:2908-2963` -/
def packetsRs_TimTm2Run_decl : Decl := .enum i!"TimTm2Run" [(i!"Armed", none), (i!"Stopped", none)]

/-- `ublox/src/ubx_packets/packets.rs:2908-2963` -/
def packetsRs_TimTm2TimeBase_decl : Decl := .enum i!"TimTm2TimeBase" [(i!"Receiver", none), (i!"Gnss", none), (i!"Utc", none)]

/-- `ublox/src/ubx_packets/packets.rs:3057` -/
def packetsRs_MonVerExtensionIter_new : Fn where
  name := i!"new"
  params := [i!"data"]
  ret := i!"Self"
  body :=
    .last
      (.struct
        [i!"Self"]
        (.cons
          i!"data"
          (.path [i!"data"])
          (.cons i!"offset" (.int 0) .nil)))

/-- `ublox/src/ubx_packets/packets.rs:3061` -/
def packetsRs_MonVerExtensionIter_is_valid : Fn where
  name := i!"is_valid"
  params := [i!"payload"]
  ret := i!"bool"
  body :=
    .last
      (.bin
        .and
        (.bin
          .eq
          (.bin
            .rem
            (.meth
              (.path [i!"payload"])
              i!"len"
              .nil)
            (.int 30))
          (.int 0))
        (.meth
          (.meth
            (.path [i!"payload"])
            i!"chunks"
            (.cons (.int 30) .nil))
          i!"all"
          (.cons
            (.path [i!"is_cstr_valid"])
            .nil)))

/-- `ublox/src/ubx_packets/packets.rs:3023-3079` -/
def packetsRs_MonVerExtensionIter_impl : Impl := ⟨[], i!"MonVerExtensionIter", [packetsRs_MonVerExtensionIter_new, packetsRs_MonVerExtensionIter_is_valid]⟩

/-- `ublox/src/ubx_packets/packets.rs:3069` -/
def packetsRs_MonVerExtensionIter_Iterator_next : Fn where
  name := i!"next"
  params := [i!"self"]
  ret := i!""
  body :=
    .last
      (.ite
        (.bin
          .lt
          (.field (.path [i!"self"]) i!"offset")
          (.meth
            (.field (.path [i!"self"]) i!"data")
            i!"len"
            .nil))
        (.let_
          (.name i!"data")
          (.un
            .ref
            (.index
              (.field (.path [i!"self"]) i!"data")
              (.range
                (.field (.path [i!"self"]) i!"offset")
                (.bin
                  .add
                  (.field (.path [i!"self"]) i!"offset")
                  (.int 30)))))
          (.semi
            (.addAssign
              (.field (.path [i!"self"]) i!"offset")
              (.int 30))
            (.last
              (.call
                [i!"Some"]
                (.cons
                  (.call
                    [i!"mon_ver", i!"convert_to_str_unchecked"]
                    (.cons (.path [i!"data"]) .nil))
                  .nil)))))
        (.last (.path [i!"None"])))

/-- `ublox/src/ubx_packets/packets.rs:3023-3079` -/
def packetsRs_MonVerExtensionIter_Iterator_impl : Impl := ⟨[i!"core", i!"iter", i!"Iterator"], i!"MonVerExtensionIter", [packetsRs_MonVerExtensionIter_Iterator_next]⟩

/-- `ublox/src/ubx_packets/packets.rs:3023-3079` -/
def packetsRs_MonVerExtensionIter_decl : Decl := .struct i!"MonVerExtensionIter" [(i!"data", i!""), (i!"offset", i!"usize")]

/-- `ublox/src/ubx_packets/packets.rs:3099` -/
def packetsRs_mon_ver_convert_to_str_unchecked : Fn where
  name := i!"convert_to_str_unchecked"
  params := [i!"bytes"]
  ret := i!""
  body :=
    .let_
      (.name i!"null_pos")
      (.meth
        (.methFn
          (.meth (.path [i!"bytes"]) i!"iter" .nil)
          i!"position"
          i!"x"
          (.bin
            .eq
            (.un .deref (.path [i!"x"]))
            (.int 0)))
        i!"expect"
        (.cons
          (.str i!"is_cstr_valid bug?")
          .nil))
      (.last
        (.meth
          (.call
            [i!"core", i!"str", i!"from_utf8"]
            (.cons
              (.un
                .ref
                (.index
                  (.path [i!"bytes"])
                  (.range
                    (.int 0)
                    (.path [i!"null_pos"]))))
              .nil))
          i!"expect"
          (.cons
            (.str
              i!"is_cstr_valid should have prevented this code from running")
            .nil)))

/-- `ublox/src/ubx_packets/packets.rs:3108` -/
def packetsRs_mon_ver_is_cstr_valid : Fn where
  name := i!"is_cstr_valid"
  params := [i!"bytes"]
  ret := i!"bool"
  body :=
    .let_
      (.name i!"null_pos")
      (.match_
        (.methFn
          (.meth (.path [i!"bytes"]) i!"iter" .nil)
          i!"position"
          i!"x"
          (.bin
            .eq
            (.un .deref (.path [i!"x"]))
            (.int 0)))
        (.cons
          (.ctor i!"Some" [i!"pos"])
          (.path [i!"pos"])
          (.cons
            (.ctor i!"None" [])
            (.block
              (.semi
                (.return_ (.path [i!"false"]))
                .nil))
            .nil)))
      (.last
        (.meth
          (.call
            [i!"core", i!"str", i!"from_utf8"]
            (.cons
              (.un
                .ref
                (.index
                  (.path [i!"bytes"])
                  (.range
                    (.int 0)
                    (.path [i!"null_pos"]))))
              .nil))
          i!"is_ok"
          .nil))

/-- `ublox/src/ubx_packets/packets.rs:3080-3118` -/
def packetsRs_mon_ver_impl : Impl := ⟨[i!"mod"], i!"mon_ver", [packetsRs_mon_ver_convert_to_str_unchecked, packetsRs_mon_ver_is_cstr_valid]⟩

/-- `ublox/src/ubx_packets/packets.rs:3152` -/
def packetsRs_EsfMeas_calib_tag : Fn where
  name := i!"calib_tag"
  params := [i!"bytes"]
  ret := i!""
  body :=
    .last
      (.meth
        (.meth
          (.meth
            (.path [i!"bytes"])
            i!"try_into"
            .nil)
          i!"ok"
          .nil)
        i!"map"
        (.cons
          (.path [i!"u32", i!"from_le_bytes"])
          .nil))

/-- `ublox/src/ubx_packets/packets.rs:3119-3177` -/
def packetsRs_EsfMeas_impl : Impl := ⟨[], i!"EsfMeas", [packetsRs_EsfMeas_calib_tag]⟩

/-- `ublox/src/ubx_packets/packets.rs:3158` -/
def packetsRs_EsfMeasRef_data_len : Fn where
  name := i!"data_len"
  params := [i!"self"]
  ret := i!"usize"
  body :=
    .last
      (.bin
        .mul
        (.cast
          (.bin
            .bitAnd
            (.bin
              .shr
              (.meth
                (.path [i!"self"])
                i!"flags"
                .nil)
              (.int 11))
            (.int 31))
          i!"usize")
        (.int 4))

/-- `ublox/src/ubx_packets/packets.rs:3162` -/
def packetsRs_EsfMeasRef_calib_tag_len : Fn where
  name := i!"calib_tag_len"
  params := [i!"self"]
  ret := i!"usize"
  body :=
    .last
      (.ite
        (.bin
          .ne
          (.bin
            .bitAnd
            (.meth
              (.path [i!"self"])
              i!"flags"
              .nil)
            (.int 8))
          (.int 0))
        (.last (.int 4))
        (.last (.int 0)))

/-- `ublox/src/ubx_packets/packets.rs:3119-3177` -/
def packetsRs_EsfMeasRef_impl : Impl := ⟨[], i!"EsfMeasRef", [packetsRs_EsfMeasRef_data_len, packetsRs_EsfMeasRef_calib_tag_len]⟩

/-- `ublox/src/ubx_packets/packets.rs:3119-3177` -/
def packetsRs_EsfMeasData_decl : Decl := .struct i!"EsfMeasData" [(i!"data_type", i!"u8"), (i!"data_field", i!"u32")]

/-- `ublox/src/ubx_packets/packets.rs:3182` -/
def packetsRs_EsfMeasDataIter_new : Fn where
  name := i!"new"
  params := [i!"bytes"]
  ret := i!"Self"
  body :=
    .last
      (.call
        [i!"Self"]
        (.cons
          (.meth
            (.path [i!"bytes"])
            i!"chunks_exact"
            (.cons (.int 4) .nil))
          .nil))

/-- `ublox/src/ubx_packets/packets.rs:3186` -/
def packetsRs_EsfMeasDataIter_is_valid : Fn where
  name := i!"is_valid"
  params := [i!"bytes"]
  ret := i!"bool"
  body :=
    .last
      (.bin
        .eq
        (.bin
          .rem
          (.meth (.path [i!"bytes"]) i!"len" .nil)
          (.int 4))
        (.int 0))

/-- `ublox/src/ubx_packets/packets.rs:3178-3236` -/
def packetsRs_EsfMeasDataIter_impl : Impl := ⟨[], i!"EsfMeasDataIter", [packetsRs_EsfMeasDataIter_new, packetsRs_EsfMeasDataIter_is_valid]⟩

/-- `ublox/src/ubx_packets/packets.rs:3194` -/
def packetsRs_EsfMeasDataIter_Iterator_next : Fn where
  name := i!"next"
  params := [i!"self"]
  ret := i!""
  body :=
    .let_
      (.name i!"data")
      (.meth
        (.meth
          (.meth
            (.try_
              (.meth
                (.field (.path [i!"self"]) i!"0")
                i!"next"
                .nil))
            i!"try_into"
            .nil)
          i!"map"
          (.cons
            (.path [i!"u32", i!"from_le_bytes"])
            .nil))
        i!"unwrap"
        .nil)
      (.last
        (.call
          [i!"Some"]
          (.cons
            (.struct
              [i!"EsfMeasData"]
              (.cons
                i!"data_type"
                (.meth
                  (.meth
                    (.bin
                      .shr
                      (.bin
                        .bitAnd
                        (.path [i!"data"])
                        (.int 1056964608))
                      (.int 24))
                    i!"try_into"
                    .nil)
                  i!"unwrap"
                  .nil)
                (.cons
                  i!"data_field"
                  (.bin
                    .bitAnd
                    (.path [i!"data"])
                    (.int 16777215))
                  .nil)))
            .nil)))

/-- `ublox/src/ubx_packets/packets.rs:3178-3236` -/
def packetsRs_EsfMeasDataIter_Iterator_impl : Impl := ⟨[i!"core", i!"iter", i!"Iterator"], i!"EsfMeasDataIter", [packetsRs_EsfMeasDataIter_Iterator_next]⟩

/-- `ublox/src/ubx_packets/packets.rs:3228` -/
def packetsRs_EsfRawDataIter_new : Fn where
  name := i!"new"
  params := [i!"bytes"]
  ret := i!"Self"
  body :=
    .last
      (.call
        [i!"Self"]
        (.cons
          (.meth
            (.path [i!"bytes"])
            i!"chunks_exact"
            (.cons (.int 8) .nil))
          .nil))

/-- `ublox/src/ubx_packets/packets.rs:3232` -/
def packetsRs_EsfRawDataIter_is_valid : Fn where
  name := i!"is_valid"
  params := [i!"bytes"]
  ret := i!"bool"
  body :=
    .last
      (.bin
        .eq
        (.bin
          .rem
          (.meth (.path [i!"bytes"]) i!"len" .nil)
          (.int 8))
        (.int 0))

/-- `ublox/src/ubx_packets/packets.rs:3178-3236` -/
def packetsRs_EsfRawDataIter_impl : Impl := ⟨[], i!"EsfRawDataIter", [packetsRs_EsfRawDataIter_new, packetsRs_EsfRawDataIter_is_valid]⟩

/-- `ublox/src/ubx_packets/packets.rs:3178-3236` -/
def packetsRs_EsfMeasDataIter_decl : Decl := .struct i!"EsfMeasDataIter" [(i!"0", i!"")]

/-- `ublox/src/ubx_packets/packets.rs:3178-3236` -/
def packetsRs_EsfRawData_decl : Decl := .struct i!"EsfRawData" [(i!"data_type", i!"u8"), (i!"data_field", i!"u32"), (i!"sensor_time_tag", i!"u32")]

/-- `ublox/src/ubx_packets/packets.rs:3178-3236` -/
def packetsRs_EsfRawDataIter_decl : Decl := .struct i!"EsfRawDataIter" [(i!"0", i!"")]

/-- `ublox/src/ubx_packets/packets.rs:3240` -/
def packetsRs_EsfRawDataIter_Iterator_next : Fn where
  name := i!"next"
  params := [i!"self"]
  ret := i!""
  body :=
    .let_
      (.name i!"chunk")
      (.try_
        (.meth
          (.field (.path [i!"self"]) i!"0")
          i!"next"
          .nil))
      (.let_
        (.name i!"data")
        (.call
          [i!"u32", i!"from_le_bytes"]
          (.cons
            (.meth
              (.meth
                (.index
                  (.path [i!"chunk"])
                  (.range (.int 0) (.int 4)))
                i!"try_into"
                .nil)
              i!"unwrap"
              .nil)
            .nil))
        (.let_
          (.name i!"sensor_time_tag")
          (.call
            [i!"u32", i!"from_le_bytes"]
            (.cons
              (.meth
                (.meth
                  (.index
                    (.path [i!"chunk"])
                    (.range (.int 4) (.int 8)))
                  i!"try_into"
                  .nil)
                i!"unwrap"
                .nil)
              .nil))
          (.last
            (.call
              [i!"Some"]
              (.cons
                (.struct
                  [i!"EsfRawData"]
                  (.cons
                    i!"data_type"
                    (.meth
                      (.meth
                        (.bin
                          .bitAnd
                          (.bin
                            .shr
                            (.path [i!"data"])
                            (.int 24))
                          (.int 255))
                        i!"try_into"
                        .nil)
                      i!"unwrap"
                      .nil)
                    (.cons
                      i!"data_field"
                      (.bin
                        .bitAnd
                        (.path [i!"data"])
                        (.int 16777215))
                      (.cons
                        i!"sensor_time_tag"
                        (.path [i!"sensor_time_tag"])
                        .nil))))
                .nil)))))

/-- `ublox/src/ubx_packets/packets.rs:3237-3278` -/
def packetsRs_EsfRawDataIter_Iterator_impl : Impl := ⟨[i!"core", i!"iter", i!"Iterator"], i!"EsfRawDataIter", [packetsRs_EsfRawDataIter_Iterator_next]⟩

/-- `ublox/src/ubx_packets/packets.rs:3495` -/
def packetsRs_DwrdIter_new : Fn where
  name := i!"new"
  params := [i!"bytes"]
  ret := i!"Self"
  body :=
    .last
      (.call
        [i!"DwrdIter"]
        (.cons
          (.meth
            (.path [i!"bytes"])
            i!"chunks_exact"
            (.cons (.int 4) .nil))
          .nil))

/-- `ublox/src/ubx_packets/packets.rs:3499` -/
def packetsRs_DwrdIter_is_valid : Fn where
  name := i!"is_valid"
  params := [i!"bytes"]
  ret := i!"bool"
  body :=
    .last
      (.bin
        .eq
        (.bin
          .rem
          (.meth (.path [i!"bytes"]) i!"len" .nil)
          (.int 4))
        (.int 0))

/-- `ublox/src/ubx_packets/packets.rs:3460-3523` -/
def packetsRs_DwrdIter_impl : Impl := ⟨[], i!"DwrdIter", [packetsRs_DwrdIter_new, packetsRs_DwrdIter_is_valid]⟩

/-- `ublox/src/ubx_packets/packets.rs:3507` -/
def packetsRs_DwrdIter_Iterator_next : Fn where
  name := i!"next"
  params := [i!"self"]
  ret := i!""
  body :=
    .last
      (.methFn
        (.meth
          (.field (.path [i!"self"]) i!"0")
          i!"next"
          .nil)
        i!"map"
        i!"bytes"
        (.call
          [i!"u32", i!"from_le_bytes"]
          (.cons
            (.meth
              (.meth
                (.path [i!"bytes"])
                i!"try_into"
                .nil)
              i!"unwrap"
              .nil)
            .nil)))

/-- `ublox/src/ubx_packets/packets.rs:3460-3523` -/
def packetsRs_DwrdIter_Iterator_impl : Impl := ⟨[i!"core", i!"iter", i!"Iterator"], i!"DwrdIter", [packetsRs_DwrdIter_Iterator_next]⟩

/-- `ublox/src/ubx_packets/packets.rs:3460-3523` -/
def packetsRs_DwrdIter_decl : Decl := .struct i!"DwrdIter" [(i!"0", i!"")]

/-- `ublox/src/ubx_packets/packets.rs:3633` -/
def packetsRs_RxmRawxInfoIter_new : Fn where
  name := i!"new"
  params := [i!"data"]
  ret := i!"Self"
  body :=
    .last
      (.call
        [i!"Self"]
        (.cons
          (.meth
            (.path [i!"data"])
            i!"chunks_exact"
            (.cons (.int 32) .nil))
          .nil))

/-- `ublox/src/ubx_packets/packets.rs:3637` -/
def packetsRs_RxmRawxInfoIter_is_valid : Fn where
  name := i!"is_valid"
  params := [i!"bytes"]
  ret := i!"bool"
  body :=
    .last
      (.bin
        .eq
        (.bin
          .rem
          (.meth (.path [i!"bytes"]) i!"len" .nil)
          (.int 32))
        (.int 0))

/-- `ublox/src/ubx_packets/packets.rs:3581-3641` -/
def packetsRs_RxmRawxInfoIter_impl : Impl := ⟨[], i!"RxmRawxInfoIter", [packetsRs_RxmRawxInfoIter_new, packetsRs_RxmRawxInfoIter_is_valid]⟩

/-- `ublox/src/ubx_packets/packets.rs:3581-3641` -/
def packetsRs_RxmRawxInfoIter_decl : Decl := .struct i!"RxmRawxInfoIter" [(i!"0", i!"")]

/-- `ublox/src/ubx_packets/packets.rs:3645` -/
def packetsRs_RxmRawxInfoIter_Iterator_next : Fn where
  name := i!"next"
  params := [i!"self"]
  ret := i!""
  body :=
    .last
      (.meth
        (.meth
          (.field (.path [i!"self"]) i!"0")
          i!"next"
          .nil)
        i!"map"
        (.cons
          (.path [i!"RxmRawxInfoRef"])
          .nil))

/-- `ublox/src/ubx_packets/packets.rs:3642-3741` -/
def packetsRs_RxmRawxInfoIter_Iterator_impl : Impl := ⟨[i!"core", i!"iter", i!"Iterator"], i!"RxmRawxInfoIter", [packetsRs_RxmRawxInfoIter_Iterator_next]⟩

/-- `ublox/src/ubx_packets/packets.rs:1-3741`, all functions -/
def packetsRs_code : List Impl :=
  [packetsRs_SerializeUbxPacketFields_impl, packetsRs_FixStatusInfo_impl, packetsRs_FixStatusInfo_fmt_Debug_impl, packetsRs_NavSatSvFlags_impl, packetsRs_NavSatSvFlags_fmt_Debug_impl, packetsRs_NavSatIter_impl, packetsRs_NavSatIter_Iterator_impl, packetsRs_CfgItfmConfig_impl, packetsRs_CfgItfmConfig_From_u32_impl, packetsRs_CfgItfmBbThreshold_impl, packetsRs_CfgItfmBbThreshold_Default_impl, packetsRs_CfgItfmBbThreshold_From_u32_impl, packetsRs_CfgItfmCwThreshold_impl, packetsRs_CfgItfmCwThreshold_Default_impl, packetsRs_CfgItfmCwThreshold_From_u32_impl, packetsRs_CfgItfmAlgoBits_impl, packetsRs_CfgItfmAlgoBits_Default_impl, packetsRs_CfgItfmAlgoBits_From_u32_impl, packetsRs_CfgItfmConfig2_impl, packetsRs_CfgItfmConfig2_From_u32_impl, packetsRs_CfgItfmGeneralBits_impl, packetsRs_CfgItfmGeneralBits_Default_impl, packetsRs_CfgItfmGeneralBits_From_u32_impl, packetsRs_CfgItfmAntennaSettings_From_u32_impl, packetsRs_inf_impl, packetsRs_AidIniBuilder_impl, packetsRs_AckAckRef_impl, packetsRs_AckNakRef_impl, packetsRs_NavBbrMask_From_NavBbrPredefinedMask_impl, packetsRs_NavBbrPredefinedMask_impl, packetsRs_ResetMode_impl, packetsRs_CfgValIter_impl, packetsRs_CfgValIter_Iterator_impl, packetsRs_CfgLayer_Default_impl, packetsRs_UartMode_impl, packetsRs_UartMode_From_u32_impl, packetsRs_DataBits_impl, packetsRs_DataBits_From_u32_impl, packetsRs_Parity_impl, packetsRs_Parity_From_u32_impl, packetsRs_StopBits_impl, packetsRs_StopBits_From_u32_impl, packetsRs_AlignmentToReferenceTime_impl, packetsRs_CfgMsgSinglePortBuilder_impl, packetsRs_CfgMsgAllPortsBuilder_impl, packetsRs_ScaleBack_impl, packetsRs_TimTpFlags_impl, packetsRs_TimTpRefInfo_impl, packetsRs_TimTm2Flags_impl, packetsRs_MonVerExtensionIter_impl, packetsRs_MonVerExtensionIter_Iterator_impl, packetsRs_mon_ver_impl, packetsRs_EsfMeas_impl, packetsRs_EsfMeasRef_impl, packetsRs_EsfMeasDataIter_impl, packetsRs_EsfMeasDataIter_Iterator_impl, packetsRs_EsfRawDataIter_impl, packetsRs_EsfRawDataIter_Iterator_impl, packetsRs_DwrdIter_impl, packetsRs_DwrdIter_Iterator_impl, packetsRs_RxmRawxInfoIter_impl, packetsRs_RxmRawxInfoIter_Iterator_impl]

/-- `ublox/src/ubx_packets/packets.rs:1-3741`, all structures and enumerations that no macro is called for -/
def packetsRs_decls : List Decl :=
  [packetsRs_FixStatusInfo_decl, packetsRs_MapMatchingStatus_decl, packetsRs_NavSatSvFlags_decl, packetsRs_NavSatQualityIndicator_decl, packetsRs_NavSatSvHealth_decl, packetsRs_NavSatOrbitSource_decl, packetsRs_NavSatIter_decl, packetsRs_CfgItfmConfig_decl, packetsRs_CfgItfmBbThreshold_decl, packetsRs_CfgItfmCwThreshold_decl, packetsRs_CfgItfmAlgoBits_decl, packetsRs_CfgItfmConfig2_decl, packetsRs_CfgItfmGeneralBits_decl, packetsRs_NavBbrPredefinedMask_decl, packetsRs_ResetMode_decl, packetsRs_CfgValIter_decl, packetsRs_UartMode_decl, packetsRs_DataBits_decl, packetsRs_Parity_decl, packetsRs_StopBits_decl, packetsRs_AlignmentToReferenceTime_decl, packetsRs_ScaleBack_decl, packetsRs_TimTpFlags_decl, packetsRs_TimTpTimeBase_decl, packetsRs_TimTpRefInfo_decl, packetsRs_TimTpRefInfoTimeRefGnss_decl, packetsRs_TimTpRefInfoUtcStandard_decl, packetsRs_TimTm2Flags_decl, packetsRs_TimTm2Mode_decl, packetsRs_TimTm2Run_decl, packetsRs_TimTm2TimeBase_decl, packetsRs_MonVerExtensionIter_decl, packetsRs_EsfMeasData_decl, packetsRs_EsfMeasDataIter_decl, packetsRs_EsfRawData_decl, packetsRs_EsfRawDataIter_decl, packetsRs_DwrdIter_decl, packetsRs_RxmRawxInfoIter_decl]

end Ublox.Gen
