import Verif.Model.Input

/-! Generated by `tools/gen.py` from the text of `/repo`; do not edit. -/

namespace Ublox.Gen
open Syn

/-- A line of documentation (`///`) as attribute; the text is left out. -/
def doc : Attr := ⟨.doc, .eq (.str [.other])⟩

/-- `ublox/src/ubx_packets/packets.rs:38-67` -/
def navPosLlh_decl : StructDecl :=
  { kind := .recv, name := "NavPosLlh",
    attrs := [doc, ⟨.ubx, .paren [.word .class_, .punct '=', .lit (.int 1), .punct ',', .word .id, .punct '=', .lit (.int 2), .punct ',', .word .fixedPayloadLen, .punct '=', .lit (.int 28)]⟩],
    fields := some [
      ⟨"itow", [doc], .path [.u32]⟩,
      ⟨"lon", [doc, ⟨.ubx, .paren [.word .mapType, .punct '=', .word .f64, .punct ',', .word .scale, .punct '=', .lit (.float (mkRat 1 10000000)), .punct ',', .word .alias, .punct '=', .word (.name "lon_degrees")]⟩], .path [.i32]⟩,
      ⟨"lat", [doc, ⟨.ubx, .paren [.word .mapType, .punct '=', .word .f64, .punct ',', .word .scale, .punct '=', .lit (.float (mkRat 1 10000000)), .punct ',', .word .alias, .punct '=', .word (.name "lat_degrees")]⟩], .path [.i32]⟩,
      ⟨"height_meters", [doc, ⟨.ubx, .paren [.word .mapType, .punct '=', .word .f64, .punct ',', .word .scale, .punct '=', .lit (.float (mkRat 1 1000))]⟩], .path [.i32]⟩,
      ⟨"height_msl", [doc, ⟨.ubx, .paren [.word .mapType, .punct '=', .word .f64, .punct ',', .word .scale, .punct '=', .lit (.float (mkRat 1 1000))]⟩], .path [.i32]⟩,
      ⟨"h_ack", [doc, ⟨.ubx, .paren [.word .mapType, .punct '=', .word .f64, .punct ',', .word .scale, .punct '=', .lit (.float (mkRat 1 1000))]⟩], .path [.u32]⟩,
      ⟨"v_acc", [doc, ⟨.ubx, .paren [.word .mapType, .punct '=', .word .f64, .punct ',', .word .scale, .punct '=', .lit (.float (mkRat 1 1000))]⟩], .path [.u32]⟩] }

/-- `ublox/src/ubx_packets/packets.rs:70-107` -/
def navVelNed_decl : StructDecl :=
  { kind := .recv, name := "NavVelNed",
    attrs := [doc, ⟨.ubx, .paren [.word .class_, .punct '=', .lit (.int 1), .punct ',', .word .id, .punct '=', .lit (.int 18), .punct ',', .word .fixedPayloadLen, .punct '=', .lit (.int 36)]⟩],
    fields := some [
      ⟨"itow", [doc], .path [.u32]⟩,
      ⟨"vel_north", [doc, ⟨.ubx, .paren [.word .mapType, .punct '=', .word .f64, .punct ',', .word .scale, .punct '=', .lit (.float (mkRat 1 100))]⟩], .path [.i32]⟩,
      ⟨"vel_east", [doc, ⟨.ubx, .paren [.word .mapType, .punct '=', .word .f64, .punct ',', .word .scale, .punct '=', .lit (.float (mkRat 1 100))]⟩], .path [.i32]⟩,
      ⟨"vel_down", [doc, ⟨.ubx, .paren [.word .mapType, .punct '=', .word .f64, .punct ',', .word .scale, .punct '=', .lit (.float (mkRat 1 100))]⟩], .path [.i32]⟩,
      ⟨"speed_3d", [doc, ⟨.ubx, .paren [.word .mapType, .punct '=', .word .f64, .punct ',', .word .scale, .punct '=', .lit (.float (mkRat 1 100))]⟩], .path [.u32]⟩,
      ⟨"ground_speed", [doc, ⟨.ubx, .paren [.word .mapType, .punct '=', .word .f64, .punct ',', .word .scale, .punct '=', .lit (.float (mkRat 1 100))]⟩], .path [.u32]⟩,
      ⟨"heading", [doc, ⟨.ubx, .paren [.word .mapType, .punct '=', .word .f64, .punct ',', .word .scale, .punct '=', .lit (.float (mkRat 1 100000)), .punct ',', .word .alias, .punct '=', .word (.name "heading_degrees")]⟩], .path [.i32]⟩,
      ⟨"speed_accuracy_estimate", [doc, ⟨.ubx, .paren [.word .mapType, .punct '=', .word .f64, .punct ',', .word .scale, .punct '=', .lit (.float (mkRat 1 100))]⟩], .path [.u32]⟩,
      ⟨"course_heading_accuracy_estimate", [doc, ⟨.ubx, .paren [.word .mapType, .punct '=', .word .f64, .punct ',', .word .scale, .punct '=', .lit (.float (mkRat 1 100000))]⟩], .path [.u32]⟩] }

/-- `ublox/src/ubx_packets/packets.rs:110-168` -/
def navHpPosLlh_decl : StructDecl :=
  { kind := .recv, name := "NavHpPosLlh",
    attrs := [doc, ⟨.ubx, .paren [.word .class_, .punct '=', .lit (.int 1), .punct ',', .word .id, .punct '=', .lit (.int 20), .punct ',', .word .fixedPayloadLen, .punct '=', .lit (.int 36)]⟩],
    fields := some [
      ⟨"version", [doc], .path [.u8]⟩,
      ⟨"reserved1", [], .array (.path [.u8]) (.int 3)⟩,
      ⟨"itow", [doc], .path [.u32]⟩,
      ⟨"lon", [doc, ⟨.ubx, .paren [.word .mapType, .punct '=', .word .f64, .punct ',', .word .scale, .punct '=', .lit (.float (mkRat 1 10000000)), .punct ',', .word .alias, .punct '=', .word (.name "lon_degrees")]⟩], .path [.i32]⟩,
      ⟨"lat", [doc, ⟨.ubx, .paren [.word .mapType, .punct '=', .word .f64, .punct ',', .word .scale, .punct '=', .lit (.float (mkRat 1 10000000)), .punct ',', .word .alias, .punct '=', .word (.name "lat_degrees")]⟩], .path [.i32]⟩,
      ⟨"height_meters", [doc, ⟨.ubx, .paren [.word .mapType, .punct '=', .word .f64, .punct ',', .word .scale, .punct '=', .lit (.float (mkRat 1 1000))]⟩], .path [.i32]⟩,
      ⟨"height_msl", [doc, ⟨.ubx, .paren [.word .mapType, .punct '=', .word .f64, .punct ',', .word .scale, .punct '=', .lit (.float (mkRat 1 1000))]⟩], .path [.i32]⟩,
      ⟨"lon_hp", [doc, doc, doc, ⟨.ubx, .paren [.word .mapType, .punct '=', .word .f64, .punct ',', .word .scale, .punct '=', .lit (.float (mkRat 1 1000000000)), .punct ',', .word .alias, .punct '=', .word (.name "lon_hp_degrees")]⟩], .path [.i8]⟩,
      ⟨"lat_hp", [doc, doc, doc, ⟨.ubx, .paren [.word .mapType, .punct '=', .word .f64, .punct ',', .word .scale, .punct '=', .lit (.float (mkRat 1 1000000000)), .punct ',', .word .alias, .punct '=', .word (.name "lat_hp_degrees")]⟩], .path [.i8]⟩,
      ⟨"height_hp_meters", [doc, doc, doc, ⟨.ubx, .paren [.word .mapType, .punct '=', .word .f64, .punct ',', .word .scale, .punct '=', .lit (.float (mkRat 1 10))]⟩], .path [.i8]⟩,
      ⟨"height_hp_msl", [doc, doc, doc, ⟨.ubx, .paren [.word .mapType, .punct '=', .word .f64, .punct ',', .word .scale, .punct '=', .lit (.float (mkRat 1 10))]⟩], .path [.i8]⟩,
      ⟨"horizontal_accuracy", [doc, ⟨.ubx, .paren [.word .mapType, .punct '=', .word .f64, .punct ',', .word .scale, .punct '=', .lit (.float (mkRat 1 10))]⟩], .path [.u32]⟩,
      ⟨"vertical_accuracy", [doc, ⟨.ubx, .paren [.word .mapType, .punct '=', .word .f64, .punct ',', .word .scale, .punct '=', .lit (.float (mkRat 1 10))]⟩], .path [.u32]⟩] }

/-- `ublox/src/ubx_packets/packets.rs:181-228` -/
def navHpPosEcef_decl : StructDecl :=
  { kind := .recv, name := "NavHpPosEcef",
    attrs := [doc, ⟨.ubx, .paren [.word .class_, .punct '=', .lit (.int 1), .punct ',', .word .id, .punct '=', .lit (.int 19), .punct ',', .word .fixedPayloadLen, .punct '=', .lit (.int 28)]⟩],
    fields := some [
      ⟨"version", [doc], .path [.u8]⟩,
      ⟨"reserved1", [], .array (.path [.u8]) (.int 3)⟩,
      ⟨"itow", [doc], .path [.u32]⟩,
      ⟨"ecef_x", [doc, ⟨.ubx, .paren [.word .mapType, .punct '=', .word .f64, .punct ',', .word .alias, .punct '=', .word (.name "ecef_x_cm")]⟩], .path [.i32]⟩,
      ⟨"ecef_y", [doc, ⟨.ubx, .paren [.word .mapType, .punct '=', .word .f64, .punct ',', .word .alias, .punct '=', .word (.name "ecef_y_cm")]⟩], .path [.i32]⟩,
      ⟨"ecef_z", [doc, ⟨.ubx, .paren [.word .mapType, .punct '=', .word .f64, .punct ',', .word .alias, .punct '=', .word (.name "ecef_z_cm")]⟩], .path [.i32]⟩,
      ⟨"ecef_x_hp", [doc, doc, doc, ⟨.ubx, .paren [.word .mapType, .punct '=', .word .f64, .punct ',', .word .scale, .punct '=', .lit (.float (mkRat 1 10)), .punct ',', .word .alias, .punct '=', .word (.name "ecef_x_hp_mm")]⟩], .path [.i8]⟩,
      ⟨"ecef_y_hp", [doc, doc, doc, ⟨.ubx, .paren [.word .mapType, .punct '=', .word .f64, .punct ',', .word .scale, .punct '=', .lit (.float (mkRat 1 10)), .punct ',', .word .alias, .punct '=', .word (.name "ecef_y_hp_mm")]⟩], .path [.i8]⟩,
      ⟨"ecef_z_hp", [doc, doc, doc, ⟨.ubx, .paren [.word .mapType, .punct '=', .word .f64, .punct ',', .word .scale, .punct '=', .lit (.float (mkRat 1 10)), .punct ',', .word .alias, .punct '=', .word (.name "ecef_z_hp_mm")]⟩], .path [.i8]⟩,
      ⟨"flags", [⟨.ubx, .paren [.word .mapType, .punct '=', .word (.name "NavHpPosEcefFlags")]⟩], .path [.u8]⟩,
      ⟨"p_acc", [doc, ⟨.ubx, .paren [.word .mapType, .punct '=', .word .f64, .punct ',', .word .scale, .punct '=', .lit (.float (mkRat 1 10))]⟩], .path [.u32]⟩] }

/-- `ublox/src/ubx_packets/packets.rs:231-306` -/
def navPvt_decl : StructDecl :=
  { kind := .recv, name := "NavPvt",
    attrs := [doc, ⟨.ubx, .paren [.word .class_, .punct '=', .lit (.int 1), .punct ',', .word .id, .punct '=', .lit (.int 7), .punct ',', .word .fixedPayloadLen, .punct '=', .lit (.int 92)]⟩],
    fields := some [
      ⟨"itow", [doc], .path [.u32]⟩,
      ⟨"year", [], .path [.u16]⟩,
      ⟨"month", [], .path [.u8]⟩,
      ⟨"day", [], .path [.u8]⟩,
      ⟨"hour", [], .path [.u8]⟩,
      ⟨"min", [], .path [.u8]⟩,
      ⟨"sec", [], .path [.u8]⟩,
      ⟨"valid", [], .path [.u8]⟩,
      ⟨"time_accuracy", [], .path [.u32]⟩,
      ⟨"nanosecond", [], .path [.i32]⟩,
      ⟨"fix_type", [doc, ⟨.ubx, .paren [.word .mapType, .punct '=', .word (.name "GpsFix")]⟩], .path [.u8]⟩,
      ⟨"flags", [⟨.ubx, .paren [.word .mapType, .punct '=', .word (.name "NavPvtFlags")]⟩], .path [.u8]⟩,
      ⟨"flags2", [⟨.ubx, .paren [.word .mapType, .punct '=', .word (.name "NavPvtFlags2")]⟩], .path [.u8]⟩,
      ⟨"num_satellites", [], .path [.u8]⟩,
      ⟨"lon", [⟨.ubx, .paren [.word .mapType, .punct '=', .word .f64, .punct ',', .word .scale, .punct '=', .lit (.float (mkRat 1 10000000)), .punct ',', .word .alias, .punct '=', .word (.name "lon_degrees")]⟩], .path [.i32]⟩,
      ⟨"lat", [⟨.ubx, .paren [.word .mapType, .punct '=', .word .f64, .punct ',', .word .scale, .punct '=', .lit (.float (mkRat 1 10000000)), .punct ',', .word .alias, .punct '=', .word (.name "lat_degrees")]⟩], .path [.i32]⟩,
      ⟨"height_meters", [doc, ⟨.ubx, .paren [.word .mapType, .punct '=', .word .f64, .punct ',', .word .scale, .punct '=', .lit (.float (mkRat 1 1000))]⟩], .path [.i32]⟩,
      ⟨"height_msl", [doc, ⟨.ubx, .paren [.word .mapType, .punct '=', .word .f64, .punct ',', .word .scale, .punct '=', .lit (.float (mkRat 1 1000))]⟩], .path [.i32]⟩,
      ⟨"horiz_accuracy", [], .path [.u32]⟩,
      ⟨"vert_accuracy", [], .path [.u32]⟩,
      ⟨"vel_north", [doc, ⟨.ubx, .paren [.word .mapType, .punct '=', .word .f64, .punct ',', .word .scale, .punct '=', .lit (.float (mkRat 1 1000))]⟩], .path [.i32]⟩,
      ⟨"vel_east", [doc, ⟨.ubx, .paren [.word .mapType, .punct '=', .word .f64, .punct ',', .word .scale, .punct '=', .lit (.float (mkRat 1 1000))]⟩], .path [.i32]⟩,
      ⟨"vel_down", [doc, ⟨.ubx, .paren [.word .mapType, .punct '=', .word .f64, .punct ',', .word .scale, .punct '=', .lit (.float (mkRat 1 1000))]⟩], .path [.i32]⟩,
      ⟨"ground_speed", [doc, ⟨.ubx, .paren [.word .mapType, .punct '=', .word .f64, .punct ',', .word .scale, .punct '=', .lit (.float (mkRat 1 1000))]⟩], .path [.u32]⟩,
      ⟨"heading", [doc, ⟨.ubx, .paren [.word .mapType, .punct '=', .word .f64, .punct ',', .word .scale, .punct '=', .lit (.float (mkRat 1 100000)), .punct ',', .word .alias, .punct '=', .word (.name "heading_degrees")]⟩], .path [.i32]⟩,
      ⟨"speed_accuracy_estimate", [doc, ⟨.ubx, .paren [.word .mapType, .punct '=', .word .f64, .punct ',', .word .scale, .punct '=', .lit (.float (mkRat 1 1000))]⟩], .path [.u32]⟩,
      ⟨"heading_accuracy_estimate", [doc, ⟨.ubx, .paren [.word .mapType, .punct '=', .word .f64, .punct ',', .word .scale, .punct '=', .lit (.float (mkRat 1 100000))]⟩], .path [.u32]⟩,
      ⟨"pdop", [doc], .path [.u16]⟩,
      ⟨"reserved1", [], .array (.path [.u8]) (.int 6)⟩,
      ⟨"heading_of_vehicle", [⟨.ubx, .paren [.word .mapType, .punct '=', .word .f64, .punct ',', .word .scale, .punct '=', .lit (.float (mkRat 1 100000)), .punct ',', .word .alias, .punct '=', .word (.name "heading_of_vehicle_degrees")]⟩], .path [.i32]⟩,
      ⟨"magnetic_declination", [⟨.ubx, .paren [.word .mapType, .punct '=', .word .f64, .punct ',', .word .scale, .punct '=', .lit (.float (mkRat 1 100)), .punct ',', .word .alias, .punct '=', .word (.name "magnetic_declination_degrees")]⟩], .path [.i16]⟩,
      ⟨"magnetic_declination_accuracy", [⟨.ubx, .paren [.word .mapType, .punct '=', .word .f64, .punct ',', .word .scale, .punct '=', .lit (.float (mkRat 1 100)), .punct ',', .word .alias, .punct '=', .word (.name "magnetic_declination_accuracy_degrees")]⟩], .path [.u16]⟩] }

/-- `ublox/src/ubx_packets/packets.rs:345-374` -/
def navStatus_decl : StructDecl :=
  { kind := .recv, name := "NavStatus",
    attrs := [doc, ⟨.ubx, .paren [.word .class_, .punct '=', .lit (.int 1), .punct ',', .word .id, .punct '=', .lit (.int 3), .punct ',', .word .fixedPayloadLen, .punct '=', .lit (.int 16)]⟩],
    fields := some [
      ⟨"itow", [doc], .path [.u32]⟩,
      ⟨"fix_type", [doc, doc, ⟨.ubx, .paren [.word .mapType, .punct '=', .word (.name "GpsFix")]⟩], .path [.u8]⟩,
      ⟨"flags", [doc, ⟨.ubx, .paren [.word .mapType, .punct '=', .word (.name "NavStatusFlags")]⟩], .path [.u8]⟩,
      ⟨"fix_stat", [doc, ⟨.ubx, .paren [.word .mapType, .punct '=', .word (.name "FixStatusInfo")]⟩], .path [.u8]⟩,
      ⟨"flags2", [doc, ⟨.ubx, .paren [.word .mapType, .punct '=', .word (.name "NavStatusFlags2")]⟩], .path [.u8]⟩,
      ⟨"time_to_first_fix", [doc], .path [.u32]⟩,
      ⟨"uptime_ms", [doc], .path [.u32]⟩] }

/-- `ublox/src/ubx_packets/packets.rs:377-396` -/
def navDop_decl : StructDecl :=
  { kind := .recv, name := "NavDop",
    attrs := [doc, ⟨.ubx, .paren [.word .class_, .punct '=', .lit (.int 1), .punct ',', .word .id, .punct '=', .lit (.int 4), .punct ',', .word .fixedPayloadLen, .punct '=', .lit (.int 18)]⟩],
    fields := some [
      ⟨"itow", [doc], .path [.u32]⟩,
      ⟨"geometric_dop", [⟨.ubx, .paren [.word .mapType, .punct '=', .word .f32, .punct ',', .word .scale, .punct '=', .lit (.float (mkRat 1 100))]⟩], .path [.u16]⟩,
      ⟨"position_dop", [⟨.ubx, .paren [.word .mapType, .punct '=', .word .f32, .punct ',', .word .scale, .punct '=', .lit (.float (mkRat 1 100))]⟩], .path [.u16]⟩,
      ⟨"time_dop", [⟨.ubx, .paren [.word .mapType, .punct '=', .word .f32, .punct ',', .word .scale, .punct '=', .lit (.float (mkRat 1 100))]⟩], .path [.u16]⟩,
      ⟨"vertical_dop", [⟨.ubx, .paren [.word .mapType, .punct '=', .word .f32, .punct ',', .word .scale, .punct '=', .lit (.float (mkRat 1 100))]⟩], .path [.u16]⟩,
      ⟨"horizontal_dop", [⟨.ubx, .paren [.word .mapType, .punct '=', .word .f32, .punct ',', .word .scale, .punct '=', .lit (.float (mkRat 1 100))]⟩], .path [.u16]⟩,
      ⟨"northing_dop", [⟨.ubx, .paren [.word .mapType, .punct '=', .word .f32, .punct ',', .word .scale, .punct '=', .lit (.float (mkRat 1 100))]⟩], .path [.u16]⟩,
      ⟨"easting_dop", [⟨.ubx, .paren [.word .mapType, .punct '=', .word .f32, .punct ',', .word .scale, .punct '=', .lit (.float (mkRat 1 100))]⟩], .path [.u16]⟩] }

/-- `ublox/src/ubx_packets/packets.rs:399-404` -/
def navEoe_decl : StructDecl :=
  { kind := .recv, name := "NavEoe",
    attrs := [doc, ⟨.ubx, .paren [.word .class_, .punct '=', .lit (.int 1), .punct ',', .word .id, .punct '=', .lit (.int 97), .punct ',', .word .fixedPayloadLen, .punct '=', .lit (.int 4)]⟩],
    fields := some [
      ⟨"itow", [doc], .path [.u32]⟩] }

/-- `ublox/src/ubx_packets/packets.rs:407-467` -/
def navSolution_decl : StructDecl :=
  { kind := .recv, name := "NavSolution",
    attrs := [doc, ⟨.ubx, .paren [.word .class_, .punct '=', .lit (.int 1), .punct ',', .word .id, .punct '=', .lit (.int 6), .punct ',', .word .fixedPayloadLen, .punct '=', .lit (.int 52)]⟩],
    fields := some [
      ⟨"itow", [doc], .path [.u32]⟩,
      ⟨"ftow_ns", [doc], .path [.i32]⟩,
      ⟨"week", [doc], .path [.i16]⟩,
      ⟨"fix_type", [doc, ⟨.ubx, .paren [.word .mapType, .punct '=', .word (.name "GpsFix")]⟩], .path [.u8]⟩,
      ⟨"flags", [doc, ⟨.ubx, .paren [.word .mapType, .punct '=', .word (.name "NavStatusFlags")]⟩], .path [.u8]⟩,
      ⟨"ecef_x", [doc, ⟨.ubx, .paren [.word .mapType, .punct '=', .word .f64, .punct ',', .word .scale, .punct '=', .lit (.float (mkRat 1 100))]⟩], .path [.i32]⟩,
      ⟨"ecef_y", [doc, ⟨.ubx, .paren [.word .mapType, .punct '=', .word .f64, .punct ',', .word .scale, .punct '=', .lit (.float (mkRat 1 100))]⟩], .path [.i32]⟩,
      ⟨"ecef_z", [doc, ⟨.ubx, .paren [.word .mapType, .punct '=', .word .f64, .punct ',', .word .scale, .punct '=', .lit (.float (mkRat 1 100))]⟩], .path [.i32]⟩,
      ⟨"position_accuracy_estimate", [doc, ⟨.ubx, .paren [.word .mapType, .punct '=', .word .f64, .punct ',', .word .scale, .punct '=', .lit (.float (mkRat 1 100))]⟩], .path [.u32]⟩,
      ⟨"ecef_vx", [doc, ⟨.ubx, .paren [.word .mapType, .punct '=', .word .f64, .punct ',', .word .scale, .punct '=', .lit (.float (mkRat 1 100))]⟩], .path [.i32]⟩,
      ⟨"ecef_vy", [doc, ⟨.ubx, .paren [.word .mapType, .punct '=', .word .f64, .punct ',', .word .scale, .punct '=', .lit (.float (mkRat 1 100))]⟩], .path [.i32]⟩,
      ⟨"ecef_vz", [doc, ⟨.ubx, .paren [.word .mapType, .punct '=', .word .f64, .punct ',', .word .scale, .punct '=', .lit (.float (mkRat 1 100))]⟩], .path [.i32]⟩,
      ⟨"speed_accuracy_estimate", [doc, ⟨.ubx, .paren [.word .mapType, .punct '=', .word .f64, .punct ',', .word .scale, .punct '=', .lit (.float (mkRat 1 100))]⟩], .path [.u32]⟩,
      ⟨"pdop", [doc, ⟨.ubx, .paren [.word .mapType, .punct '=', .word .f32, .punct ',', .word .scale, .punct '=', .lit (.float (mkRat 1 100))]⟩], .path [.u16]⟩,
      ⟨"reserved1", [], .path [.u8]⟩,
      ⟨"num_sv", [doc], .path [.u8]⟩,
      ⟨"reserved2", [], .array (.path [.u8]) (.int 4)⟩] }

/-- `ublox/src/ubx_packets/packets.rs:720-732` -/
def navSatSvInfo_decl : StructDecl :=
  { kind := .recv, name := "NavSatSvInfo",
    attrs := [⟨.ubx, .paren [.word .class_, .punct '=', .lit (.int 1), .punct ',', .word .id, .punct '=', .lit (.int 53), .punct ',', .word .fixedPayloadLen, .punct '=', .lit (.int 12)]⟩],
    fields := some [
      ⟨"gnss_id", [], .path [.u8]⟩,
      ⟨"sv_id", [], .path [.u8]⟩,
      ⟨"cno", [], .path [.u8]⟩,
      ⟨"elev", [], .path [.i8]⟩,
      ⟨"azim", [], .path [.i16]⟩,
      ⟨"pr_res", [], .path [.i16]⟩,
      ⟨"flags", [⟨.ubx, .paren [.word .mapType, .punct '=', .word (.name "NavSatSvFlags")]⟩], .path [.u32]⟩] }

/-- `ublox/src/ubx_packets/packets.rs:764-785` -/
def navSat_decl : StructDecl :=
  { kind := .recv, name := "NavSat",
    attrs := [⟨.ubx, .paren [.word .class_, .punct '=', .lit (.int 1), .punct ',', .word .id, .punct '=', .lit (.int 53), .punct ',', .word .maxPayloadLen, .punct '=', .lit (.int 1240)]⟩],
    fields := some [
      ⟨"itow", [doc], .path [.u32]⟩,
      ⟨"version", [doc], .path [.u8]⟩,
      ⟨"num_svs", [], .path [.u8]⟩,
      ⟨"reserved", [], .array (.path [.u8]) (.int 2)⟩,
      ⟨"svs", [⟨.ubx, .paren [.word .mapType, .punct '=', .word (.name "NavSatIter"), .punct ',', .word .from_, .punct '=', .word (.name "NavSatIter"), .punct ':', .punct ':', .word (.name "new"), .punct ',', .word .isValid, .punct '=', .word (.name "NavSatIter"), .punct ':', .punct ':', .word .isValid, .punct ',', .word .mayFail, .punct ',', .word .getAsRef, .punct ',']⟩], .array (.path [.u8]) (.int 0)⟩] }

/-- `ublox/src/ubx_packets/packets.rs:788-797` -/
def navOdo_decl : StructDecl :=
  { kind := .recv, name := "NavOdo",
    attrs := [doc, ⟨.ubx, .paren [.word .class_, .punct '=', .lit (.int 1), .punct ',', .word .id, .punct '=', .lit (.int 9), .punct ',', .word .fixedPayloadLen, .punct '=', .lit (.int 20)]⟩],
    fields := some [
      ⟨"version", [], .path [.u8]⟩,
      ⟨"reserved", [], .array (.path [.u8]) (.int 3)⟩,
      ⟨"itow", [], .path [.u32]⟩,
      ⟨"distance", [], .path [.u32]⟩,
      ⟨"total_distance", [], .path [.u32]⟩,
      ⟨"distance_std", [], .path [.u32]⟩] }

/-- `ublox/src/ubx_packets/packets.rs:800-802` -/
def navResetOdo_decl : StructDecl :=
  { kind := .send, name := "NavResetOdo",
    attrs := [doc, ⟨.ubx, .paren [.word .class_, .punct '=', .lit (.int 1), .punct ',', .word .id, .punct '=', .lit (.int 16), .punct ',', .word .fixedPayloadLen, .punct '=', .lit (.int 0)]⟩],
    fields := some [
      ] }

/-- `ublox/src/ubx_packets/packets.rs:805-827` -/
def cfgOdo_decl : StructDecl :=
  { kind := .recvSend, name := "CfgOdo",
    attrs := [doc, ⟨.ubx, .paren [.word .class_, .punct '=', .lit (.int 6), .punct ',', .word .id, .punct '=', .lit (.int 30), .punct ',', .word .fixedPayloadLen, .punct '=', .lit (.int 20), .punct ',', .word .flags, .punct '=', .lit (.str [.word .defaultForBuilder])]⟩],
    fields := some [
      ⟨"version", [], .path [.u8]⟩,
      ⟨"reserved", [], .array (.path [.u8]) (.int 3)⟩,
      ⟨"flags", [doc, ⟨.ubx, .paren [.word .mapType, .punct '=', .word (.name "OdoCogFilterFlags")]⟩], .path [.u8]⟩,
      ⟨"odo_cfg", [⟨.ubx, .paren [.word .mapType, .punct '=', .word (.name "OdoProfile"), .punct ',', .word .mayFail]⟩], .path [.u8]⟩,
      ⟨"reserved2", [], .array (.path [.u8]) (.int 6)⟩,
      ⟨"cog_max_speed", [], .path [.u8]⟩,
      ⟨"cog_max_pos_acc", [], .path [.u8]⟩,
      ⟨"reserved3", [], .array (.path [.u8]) (.int 2)⟩,
      ⟨"vel_lp_gain", [], .path [.u8]⟩,
      ⟨"cog_lp_gain", [], .path [.u8]⟩,
      ⟨"reserved4", [], .array (.path [.u8]) (.int 2)⟩] }

/-- `ublox/src/ubx_packets/packets.rs:861-870` -/
def cfgItfm_decl : StructDecl :=
  { kind := .recvSend, name := "CfgItfm",
    attrs := [doc, ⟨.ubx, .paren [.word .class_, .punct '=', .lit (.int 6), .punct ',', .word .id, .punct '=', .lit (.int 57), .punct ',', .word .fixedPayloadLen, .punct '=', .lit (.int 8)]⟩],
    fields := some [
      ⟨"config", [doc, ⟨.ubx, .paren [.word .mapType, .punct '=', .word (.name "CfgItfmConfig")]⟩], .path [.u32]⟩,
      ⟨"config2", [doc, ⟨.ubx, .paren [.word .mapType, .punct '=', .word (.name "CfgItfmConfig2")]⟩], .path [.u32]⟩] }

/-- `ublox/src/ubx_packets/packets.rs:1092-1114` -/
def cfgInf_decl : StructDecl :=
  { kind := .recvSend, name := "CfgInf",
    attrs := [doc, ⟨.ubx, .paren [.word .class_, .punct '=', .lit (.int 6), .punct ',', .word .id, .punct '=', .lit (.int 2), .punct ',', .word .fixedPayloadLen, .punct '=', .lit (.int 10), .punct ',', .word .flags, .punct '=', .lit (.str [.word .defaultForBuilder])]⟩],
    fields := some [
      ⟨"protocol_id", [], .path [.u8]⟩,
      ⟨"reserved", [], .array (.path [.u8]) (.int 3)⟩,
      ⟨"inf_msg_mask_0", [⟨.ubx, .paren [.word .mapType, .punct '=', .word (.name "CfgInfMask")]⟩], .path [.u8]⟩,
      ⟨"inf_msg_mask_1", [⟨.ubx, .paren [.word .mapType, .punct '=', .word (.name "CfgInfMask")]⟩], .path [.u8]⟩,
      ⟨"inf_msg_mask_2", [⟨.ubx, .paren [.word .mapType, .punct '=', .word (.name "CfgInfMask")]⟩], .path [.u8]⟩,
      ⟨"inf_msg_mask_3", [⟨.ubx, .paren [.word .mapType, .punct '=', .word (.name "CfgInfMask")]⟩], .path [.u8]⟩,
      ⟨"inf_msg_mask_4", [⟨.ubx, .paren [.word .mapType, .punct '=', .word (.name "CfgInfMask")]⟩], .path [.u8]⟩,
      ⟨"inf_msg_mask_5", [⟨.ubx, .paren [.word .mapType, .punct '=', .word (.name "CfgInfMask")]⟩], .path [.u8]⟩] }

/-- `ublox/src/ubx_packets/packets.rs:1130-1144` -/
def infError_decl : StructDecl :=
  { kind := .recv, name := "InfError",
    attrs := [⟨.ubx, .paren [.word .class_, .punct '=', .lit (.int 4), .punct ',', .word .id, .punct '=', .lit (.int 0), .punct ',', .word .maxPayloadLen, .punct '=', .lit (.int 1240), .punct ',', .word .flags, .punct '=', .lit (.str [.word .defaultForBuilder])]⟩],
    fields := some [
      ⟨"message", [⟨.ubx, .paren [.word .mapType, .punct '=', .word .option, .punct '<', .punct '&', .word (.name "str"), .punct '>', .punct ',', .word .mayFail, .punct ',', .word .isValid, .punct '=', .word (.name "inf"), .punct ':', .punct ':', .word .isValid, .punct ',', .word .from_, .punct '=', .word (.name "inf"), .punct ':', .punct ':', .word (.name "convert_to_str"), .punct ',', .word .getAsRef]⟩], .array (.path [.u8]) (.int 0)⟩] }

/-- `ublox/src/ubx_packets/packets.rs:1146-1160` -/
def infNotice_decl : StructDecl :=
  { kind := .recv, name := "InfNotice",
    attrs := [⟨.ubx, .paren [.word .class_, .punct '=', .lit (.int 4), .punct ',', .word .id, .punct '=', .lit (.int 2), .punct ',', .word .maxPayloadLen, .punct '=', .lit (.int 1240), .punct ',', .word .flags, .punct '=', .lit (.str [.word .defaultForBuilder])]⟩],
    fields := some [
      ⟨"message", [⟨.ubx, .paren [.word .mapType, .punct '=', .word .option, .punct '<', .punct '&', .word (.name "str"), .punct '>', .punct ',', .word .mayFail, .punct ',', .word .isValid, .punct '=', .word (.name "inf"), .punct ':', .punct ':', .word .isValid, .punct ',', .word .from_, .punct '=', .word (.name "inf"), .punct ':', .punct ':', .word (.name "convert_to_str"), .punct ',', .word .getAsRef]⟩], .array (.path [.u8]) (.int 0)⟩] }

/-- `ublox/src/ubx_packets/packets.rs:1162-1176` -/
def infTest_decl : StructDecl :=
  { kind := .recv, name := "InfTest",
    attrs := [⟨.ubx, .paren [.word .class_, .punct '=', .lit (.int 4), .punct ',', .word .id, .punct '=', .lit (.int 3), .punct ',', .word .maxPayloadLen, .punct '=', .lit (.int 1240), .punct ',', .word .flags, .punct '=', .lit (.str [.word .defaultForBuilder])]⟩],
    fields := some [
      ⟨"message", [⟨.ubx, .paren [.word .mapType, .punct '=', .word .option, .punct '<', .punct '&', .word (.name "str"), .punct '>', .punct ',', .word .mayFail, .punct ',', .word .isValid, .punct '=', .word (.name "inf"), .punct ':', .punct ':', .word .isValid, .punct ',', .word .from_, .punct '=', .word (.name "inf"), .punct ':', .punct ':', .word (.name "convert_to_str"), .punct ',', .word .getAsRef]⟩], .array (.path [.u8]) (.int 0)⟩] }

/-- `ublox/src/ubx_packets/packets.rs:1178-1192` -/
def infWarning_decl : StructDecl :=
  { kind := .recv, name := "InfWarning",
    attrs := [⟨.ubx, .paren [.word .class_, .punct '=', .lit (.int 4), .punct ',', .word .id, .punct '=', .lit (.int 1), .punct ',', .word .maxPayloadLen, .punct '=', .lit (.int 1240), .punct ',', .word .flags, .punct '=', .lit (.str [.word .defaultForBuilder])]⟩],
    fields := some [
      ⟨"message", [⟨.ubx, .paren [.word .mapType, .punct '=', .word .option, .punct '<', .punct '&', .word (.name "str"), .punct '>', .punct ',', .word .mayFail, .punct ',', .word .isValid, .punct '=', .word (.name "inf"), .punct ':', .punct ':', .word .isValid, .punct ',', .word .from_, .punct '=', .word (.name "inf"), .punct ':', .punct ':', .word (.name "convert_to_str"), .punct ',', .word .getAsRef]⟩], .array (.path [.u8]) (.int 0)⟩] }

/-- `ublox/src/ubx_packets/packets.rs:1194-1208` -/
def infDebug_decl : StructDecl :=
  { kind := .recv, name := "InfDebug",
    attrs := [⟨.ubx, .paren [.word .class_, .punct '=', .lit (.int 4), .punct ',', .word .id, .punct '=', .lit (.int 4), .punct ',', .word .maxPayloadLen, .punct '=', .lit (.int 1240), .punct ',', .word .flags, .punct '=', .lit (.str [.word .defaultForBuilder])]⟩],
    fields := some [
      ⟨"message", [⟨.ubx, .paren [.word .mapType, .punct '=', .word .option, .punct '<', .punct '&', .word (.name "str"), .punct '>', .punct ',', .word .mayFail, .punct ',', .word .isValid, .punct '=', .word (.name "inf"), .punct ':', .punct ':', .word .isValid, .punct ',', .word .from_, .punct '=', .word (.name "inf"), .punct ':', .punct ':', .word (.name "convert_to_str"), .punct ',', .word .getAsRef]⟩], .array (.path [.u8]) (.int 0)⟩] }

/-- `ublox/src/ubx_packets/packets.rs:1224-1245` -/
def aidIni_decl : StructDecl :=
  { kind := .send, name := "AidIni",
    attrs := [⟨.ubx, .paren [.word .class_, .punct '=', .lit (.int 11), .punct ',', .word .id, .punct '=', .lit (.int 1), .punct ',', .word .fixedPayloadLen, .punct '=', .lit (.int 48), .punct ',', .word .flags, .punct '=', .lit (.str [.word .defaultForBuilder])]⟩],
    fields := some [
      ⟨"ecef_x_or_lat", [], .path [.i32]⟩,
      ⟨"ecef_y_or_lon", [], .path [.i32]⟩,
      ⟨"ecef_z_or_alt", [], .path [.i32]⟩,
      ⟨"pos_accuracy", [], .path [.u32]⟩,
      ⟨"time_cfg", [], .path [.u16]⟩,
      ⟨"week_or_ym", [], .path [.u16]⟩,
      ⟨"tow_or_hms", [], .path [.u32]⟩,
      ⟨"tow_ns", [], .path [.i32]⟩,
      ⟨"tm_accuracy_ms", [], .path [.u32]⟩,
      ⟨"tm_accuracy_ns", [], .path [.u32]⟩,
      ⟨"clk_drift_or_freq", [], .path [.i32]⟩,
      ⟨"clk_drift_or_freq_accuracy", [], .path [.u32]⟩,
      ⟨"flags", [], .path [.u32]⟩] }

/-- `ublox/src/ubx_packets/packets.rs:1272-1284` -/
def alpSrv_decl : StructDecl :=
  { kind := .recv, name := "AlpSrv",
    attrs := [doc, ⟨.ubx, .paren [.word .class_, .punct '=', .lit (.int 11), .punct ',', .word .id, .punct '=', .lit (.int 50), .punct ',', .word .fixedPayloadLen, .punct '=', .lit (.int 16)]⟩],
    fields := some [
      ⟨"id_size", [], .path [.u8]⟩,
      ⟨"data_type", [], .path [.u8]⟩,
      ⟨"offset", [], .path [.u16]⟩,
      ⟨"size", [], .path [.u16]⟩,
      ⟨"file_id", [], .path [.u16]⟩,
      ⟨"data_size", [], .path [.u16]⟩,
      ⟨"id1", [], .path [.u8]⟩,
      ⟨"id2", [], .path [.u8]⟩,
      ⟨"id3", [], .path [.u32]⟩] }

/-- `ublox/src/ubx_packets/packets.rs:1288-1296` -/
def ackAck_decl : StructDecl :=
  { kind := .recv, name := "AckAck",
    attrs := [doc, doc, ⟨.ubx, .paren [.word .class_, .punct '=', .lit (.int 5), .punct ',', .word .id, .punct '=', .lit (.int 1), .punct ',', .word .fixedPayloadLen, .punct '=', .lit (.int 2)]⟩],
    fields := some [
      ⟨"class", [doc], .path [.u8]⟩,
      ⟨"msg_id", [doc], .path [.u8]⟩] }

/-- `ublox/src/ubx_packets/packets.rs:1305-1313` -/
def ackNak_decl : StructDecl :=
  { kind := .recv, name := "AckNak",
    attrs := [doc, ⟨.ubx, .paren [.word .class_, .punct '=', .lit (.int 5), .punct ',', .word .id, .punct '=', .lit (.int 0), .punct ',', .word .fixedPayloadLen, .punct '=', .lit (.int 2)]⟩],
    fields := some [
      ⟨"class", [doc], .path [.u8]⟩,
      ⟨"msg_id", [doc], .path [.u8]⟩] }

/-- `ublox/src/ubx_packets/packets.rs:1322-1333` -/
def cfgRst_decl : StructDecl :=
  { kind := .send, name := "CfgRst",
    attrs := [doc, ⟨.ubx, .paren [.word .class_, .punct '=', .lit (.int 6), .punct ',', .word .id, .punct '=', .lit (.int 4), .punct ',', .word .fixedPayloadLen, .punct '=', .lit (.int 4)]⟩],
    fields := some [
      ⟨"nav_bbr_mask", [doc, ⟨.ubx, .paren [.word .mapType, .punct '=', .word (.name "NavBbrMask")]⟩], .path [.u16]⟩,
      ⟨"reset_mode", [doc, ⟨.ubx, .paren [.word .mapType, .punct '=', .word (.name "ResetMode")]⟩], .path [.u8]⟩,
      ⟨"reserved1", [], .path [.u8]⟩] }

/-- `ublox/src/ubx_packets/packets.rs:1336-1344` -/
def cfgAnt_decl : StructDecl :=
  { kind := .recvSend, name := "CfgAnt",
    attrs := [doc, ⟨.ubx, .paren [.word .class_, .punct '=', .lit (.int 6), .punct ',', .word .id, .punct '=', .lit (.int 19), .punct ',', .word .fixedPayloadLen, .punct '=', .lit (.int 4)]⟩],
    fields := some [
      ⟨"flags", [doc, ⟨.ubx, .paren [.word .mapType, .punct '=', .word (.name "AntFlags")]⟩], .path [.u16]⟩,
      ⟨"pins", [doc], .path [.u16]⟩] }

/-- `ublox/src/ubx_packets/packets.rs:1365-1407` -/
def cfgTp5_decl : StructDecl :=
  { kind := .recvSend, name := "CfgTp5",
    attrs := [doc, ⟨.ubx, .paren [.word .class_, .punct '=', .lit (.int 6), .punct ',', .word .id, .punct '=', .lit (.int 49), .punct ',', .word .fixedPayloadLen, .punct '=', .lit (.int 32), .punct ',', .word .flags, .punct '=', .lit (.str [.word .defaultForBuilder])]⟩],
    fields := some [
      ⟨"tp_idx", [⟨.ubx, .paren [.word .mapType, .punct '=', .word (.name "CfgTp5TimePulseMode"), .punct ',', .word .mayFail]⟩], .path [.u8]⟩,
      ⟨"version", [], .path [.u8]⟩,
      ⟨"reserved1", [], .array (.path [.u8]) (.int 2)⟩,
      ⟨"ant_cable_delay", [doc, ⟨.ubx, .paren [.word .mapType, .punct '=', .word .f32, .punct ',', .word .scale, .punct '=', .lit (.float (mkRat 1 1))]⟩], .path [.i16]⟩,
      ⟨"rf_group_delay", [doc, ⟨.ubx, .paren [.word .mapType, .punct '=', .word .f32, .punct ',', .word .scale, .punct '=', .lit (.float (mkRat 1 1))]⟩], .path [.i16]⟩,
      ⟨"freq_period", [doc, doc, ⟨.ubx, .paren [.word .mapType, .punct '=', .word .f64, .punct ',', .word .scale, .punct '=', .lit (.float (mkRat 1 1))]⟩], .path [.u32]⟩,
      ⟨"freq_period_lock", [doc, doc, doc, ⟨.ubx, .paren [.word .mapType, .punct '=', .word .f64, .punct ',', .word .scale, .punct '=', .lit (.float (mkRat 1 1))]⟩], .path [.u32]⟩,
      ⟨"pulse_len_ratio", [doc, doc, ⟨.ubx, .paren [.word .mapType, .punct '=', .word .f64, .punct ',', .word .scale, .punct '=', .lit (.float (mkRat 1 1))]⟩], .path [.u32]⟩,
      ⟨"pulse_len_ratio_lock", [doc, doc, doc, ⟨.ubx, .paren [.word .mapType, .punct '=', .word .f64, .punct ',', .word .scale, .punct '=', .lit (.float (mkRat 1 1))]⟩], .path [.u32]⟩,
      ⟨"user_delay", [doc, ⟨.ubx, .paren [.word .mapType, .punct '=', .word .f64, .punct ',', .word .scale, .punct '=', .lit (.float (mkRat 1 1))]⟩], .path [.i32]⟩,
      ⟨"flags", [doc, ⟨.ubx, .paren [.word .mapType, .punct '=', .word (.name "CfgTp5Flags")]⟩], .path [.u32]⟩] }

/-- `ublox/src/ubx_packets/packets.rs:1423-1457` -/
def cfgTmode2_decl : StructDecl :=
  { kind := .recvSend, name := "CfgTmode2",
    attrs := [doc, doc, ⟨.ubx, .paren [.word .class_, .punct '=', .lit (.int 6), .punct ',', .word .id, .punct '=', .lit (.int 61), .punct ',', .word .fixedPayloadLen, .punct '=', .lit (.int 28), .punct ',', .word .flags, .punct '=', .lit (.str [.word .defaultForBuilder])]⟩],
    fields := some [
      ⟨"time_transfer_mode", [doc, ⟨.ubx, .paren [.word .mapType, .punct '=', .word (.name "CfgTmode2TimeXferModes"), .punct ',', .word .mayFail]⟩], .path [.u8]⟩,
      ⟨"reserved1", [], .path [.u8]⟩,
      ⟨"flags", [⟨.ubx, .paren [.word .mapType, .punct '=', .word (.name "CfgTmode2Flags")]⟩], .path [.u16]⟩,
      ⟨"ecef_x_or_lat", [doc, doc, ⟨.ubx, .paren [.word .mapType, .punct '=', .word .f64, .punct ',', .word .scale, .punct '=', .lit (.float (mkRat 1 100))]⟩], .path [.i32]⟩,
      ⟨"ecef_y_or_lon", [doc, doc, ⟨.ubx, .paren [.word .mapType, .punct '=', .word .f64, .punct ',', .word .scale, .punct '=', .lit (.float (mkRat 1 100))]⟩], .path [.i32]⟩,
      ⟨"ecef_z_or_alt", [doc, doc, ⟨.ubx, .paren [.word .mapType, .punct '=', .word .f64, .punct ',', .word .scale, .punct '=', .lit (.float (mkRat 1 100))]⟩], .path [.i32]⟩,
      ⟨"fixed_pos_acc", [doc, ⟨.ubx, .paren [.word .mapType, .punct '=', .word .f64, .punct ',', .word .scale, .punct '=', .lit (.float (mkRat 1 1000))]⟩], .path [.u32]⟩,
      ⟨"survey_in_min_duration", [doc], .path [.u32]⟩,
      ⟨"survery_in_accur_limit", [doc, ⟨.ubx, .paren [.word .mapType, .punct '=', .word .f64, .punct ',', .word .scale, .punct '=', .lit (.float (mkRat 1 1000))]⟩], .path [.u32]⟩] }

/-- `ublox/src/ubx_packets/packets.rs:1488-1509` -/
def timSvin_decl : StructDecl :=
  { kind := .recv, name := "TimSvin",
    attrs := [doc, ⟨.ubx, .paren [.word .class_, .punct '=', .lit (.int 13), .punct ',', .word .id, .punct '=', .lit (.int 4), .punct ',', .word .fixedPayloadLen, .punct '=', .lit (.int 28)]⟩],
    fields := some [
      ⟨"dur", [doc, doc], .path [.u32]⟩,
      ⟨"mean_x", [doc], .path [.i32]⟩,
      ⟨"mean_y", [doc], .path [.i32]⟩,
      ⟨"mean_z", [doc], .path [.i32]⟩,
      ⟨"mean_v", [doc], .path [.i32]⟩,
      ⟨"obs", [doc], .path [.u32]⟩,
      ⟨"valid", [doc], .path [.u8]⟩,
      ⟨"active", [doc], .path [.u8]⟩,
      ⟨"reserved", [], .array (.path [.u8]) (.int 2)⟩] }

/-- `ublox/src/ubx_packets/packets.rs:1512-1560` -/
def navTimeLs_decl : StructDecl :=
  { kind := .recv, name := "NavTimeLs",
    attrs := [doc, ⟨.ubx, .paren [.word .class_, .punct '=', .lit (.int 1), .punct ',', .word .id, .punct '=', .lit (.int 38), .punct ',', .word .fixedPayloadLen, .punct '=', .lit (.int 24)]⟩],
    fields := some [
      ⟨"itow", [doc], .path [.u32]⟩,
      ⟨"version", [doc], .path [.u8]⟩,
      ⟨"reserved_1", [], .array (.path [.u8]) (.int 3)⟩,
      ⟨"src_of_curr_ls", [doc, doc, doc, doc, doc, doc, doc, doc, doc], .path [.u8]⟩,
      ⟨"current_ls", [doc, doc, doc], .path [.i8]⟩,
      ⟨"src_of_ls_change", [doc, doc, doc, doc, doc, doc, doc], .path [.u8]⟩,
      ⟨"ls_change", [doc, doc], .path [.i8]⟩,
      ⟨"time_to_ls_event", [doc, doc, doc], .path [.i32]⟩,
      ⟨"date_of_ls_gps_wn", [doc, doc], .path [.u16]⟩,
      ⟨"date_of_ls_gps_dn", [doc, doc, doc], .path [.u16]⟩,
      ⟨"reserved_2", [], .array (.path [.u8]) (.int 3)⟩,
      ⟨"valid", [doc, ⟨.ubx, .paren [.word .mapType, .punct '=', .word (.name "NavTimeLsFlags")]⟩], .path [.u8]⟩] }

/-- `ublox/src/ubx_packets/packets.rs:1578-1630` -/
def cfgTmode3_decl : StructDecl :=
  { kind := .recvSend, name := "CfgTmode3",
    attrs := [doc, doc, ⟨.ubx, .paren [.word .class_, .punct '=', .lit (.int 6), .punct ',', .word .id, .punct '=', .lit (.int 113), .punct ',', .word .fixedPayloadLen, .punct '=', .lit (.int 40), .punct ',', .word .flags, .punct '=', .lit (.str [.word .defaultForBuilder])]⟩],
    fields := some [
      ⟨"version", [], .path [.u8]⟩,
      ⟨"reserved1", [], .path [.u8]⟩,
      ⟨"rcvr_mode", [doc, ⟨.ubx, .paren [.word .mapType, .punct '=', .word (.name "CfgTmode3RcvrMode")]⟩], .path [.u8]⟩,
      ⟨"flags", [⟨.ubx, .paren [.word .mapType, .punct '=', .word (.name "CfgTmode3Flags")]⟩], .path [.u8]⟩,
      ⟨"ecef_x_or_lat", [doc, doc, ⟨.ubx, .paren [.word .mapType, .punct '=', .word .f64, .punct ',', .word .scale, .punct '=', .lit (.float (mkRat 1 100))]⟩], .path [.i32]⟩,
      ⟨"ecef_y_or_lon", [doc, doc, ⟨.ubx, .paren [.word .mapType, .punct '=', .word .f64, .punct ',', .word .scale, .punct '=', .lit (.float (mkRat 1 100))]⟩], .path [.i32]⟩,
      ⟨"ecef_z_or_alt", [doc, doc, ⟨.ubx, .paren [.word .mapType, .punct '=', .word .f64, .punct ',', .word .scale, .punct '=', .lit (.float (mkRat 1 100))]⟩], .path [.i32]⟩,
      ⟨"ecef_x_or_lat_hp", [doc, doc, doc, ⟨.ubx, .paren [.word .mapType, .punct '=', .word .f32, .punct ',', .word .scale, .punct '=', .lit (.float (mkRat 1 1))]⟩], .path [.i8]⟩,
      ⟨"ecef_y_or_lon_hp", [doc, doc, doc, ⟨.ubx, .paren [.word .mapType, .punct '=', .word .f32, .punct ',', .word .scale, .punct '=', .lit (.float (mkRat 1 1))]⟩], .path [.i8]⟩,
      ⟨"ecef_z_or_alt_hp", [doc, doc, doc, ⟨.ubx, .paren [.word .mapType, .punct '=', .word .f32, .punct ',', .word .scale, .punct '=', .lit (.float (mkRat 1 1))]⟩], .path [.i8]⟩,
      ⟨"reserved2", [], .path [.u8]⟩,
      ⟨"fixed_pos_acc", [doc, ⟨.ubx, .paren [.word .mapType, .punct '=', .word .f64, .punct ',', .word .scale, .punct '=', .lit (.float (mkRat 1 10000))]⟩], .path [.u32]⟩,
      ⟨"sv_in_min_duration", [doc], .path [.u32]⟩,
      ⟨"sv_in_accur_limit", [doc, ⟨.ubx, .paren [.word .mapType, .punct '=', .word .f64, .punct ',', .word .scale, .punct '=', .lit (.float (mkRat 1 10000))]⟩], .path [.u32]⟩,
      ⟨"reserved3", [], .array (.path [.u8]) (.int 8)⟩] }

/-- `ublox/src/ubx_packets/packets.rs:1765-1779` -/
def cfgValSet_decl : StructDecl :=
  { kind := .send, name := "CfgValSet",
    attrs := [⟨.ubx, .paren [.word .class_, .punct '=', .lit (.int 6), .punct ',', .word .id, .punct '=', .lit (.int 138), .punct ',', .word .maxPayloadLen, .punct '=', .lit (.int 772), .punct ',']⟩],
    fields := some [
      ⟨"version", [doc], .path [.u8]⟩,
      ⟨"layers", [doc, ⟨.ubx, .paren [.word .mapType, .punct '=', .word (.name "CfgLayer")]⟩], .path [.u8]⟩,
      ⟨"reserved1", [], .path [.u16]⟩,
      ⟨"cfg_data", [], .ref (.slice (.path [(.name "CfgVal")]))⟩] }

/-- `ublox/src/ubx_packets/packets.rs:1836-1858` -/
def cfgPrtI2c_decl : StructDecl :=
  { kind := .recvSend, name := "CfgPrtI2c",
    attrs := [doc, ⟨.ubx, .paren [.word .class_, .punct '=', .lit (.int 6), .punct ',', .word .id, .punct '=', .lit (.int 0), .punct ',', .word .fixedPayloadLen, .punct '=', .lit (.int 20), .punct ',', .word .flags, .punct '=', .lit (.str [.word .defaultForBuilder])]⟩],
    fields := some [
      ⟨"portid", [⟨.ubx, .paren [.word .mapType, .punct '=', .word (.name "I2cPortId"), .punct ',', .word .mayFail]⟩], .path [.u8]⟩,
      ⟨"reserved1", [], .path [.u8]⟩,
      ⟨"tx_ready", [doc], .path [.u16]⟩,
      ⟨"mode", [doc], .path [.u32]⟩,
      ⟨"reserved2", [], .path [.u32]⟩,
      ⟨"in_proto_mask", [⟨.ubx, .paren [.word .mapType, .punct '=', .word (.name "InProtoMask")]⟩], .path [.u16]⟩,
      ⟨"out_proto_mask", [⟨.ubx, .paren [.word .mapType, .punct '=', .word (.name "OutProtoMask")]⟩], .path [.u16]⟩,
      ⟨"flags", [], .path [.u16]⟩,
      ⟨"reserved3", [], .path [.u16]⟩] }

/-- `ublox/src/ubx_packets/packets.rs:1872-1888` -/
def cfgPrtUart_decl : StructDecl :=
  { kind := .recvSend, name := "CfgPrtUart",
    attrs := [doc, ⟨.ubx, .paren [.word .class_, .punct '=', .lit (.int 6), .punct ',', .word .id, .punct '=', .lit (.int 0), .punct ',', .word .fixedPayloadLen, .punct '=', .lit (.int 20)]⟩],
    fields := some [
      ⟨"portid", [⟨.ubx, .paren [.word .mapType, .punct '=', .word (.name "UartPortId"), .punct ',', .word .mayFail]⟩], .path [.u8]⟩,
      ⟨"reserved0", [], .path [.u8]⟩,
      ⟨"tx_ready", [], .path [.u16]⟩,
      ⟨"mode", [⟨.ubx, .paren [.word .mapType, .punct '=', .word (.name "UartMode")]⟩], .path [.u32]⟩,
      ⟨"baud_rate", [], .path [.u32]⟩,
      ⟨"in_proto_mask", [⟨.ubx, .paren [.word .mapType, .punct '=', .word (.name "InProtoMask")]⟩], .path [.u16]⟩,
      ⟨"out_proto_mask", [⟨.ubx, .paren [.word .mapType, .punct '=', .word (.name "OutProtoMask")]⟩], .path [.u16]⟩,
      ⟨"flags", [], .path [.u16]⟩,
      ⟨"reserved5", [], .path [.u16]⟩] }

/-- `ublox/src/ubx_packets/packets.rs:2037-2059` -/
def cfgPrtSpi_decl : StructDecl :=
  { kind := .recvSend, name := "CfgPrtSpi",
    attrs := [doc, ⟨.ubx, .paren [.word .class_, .punct '=', .lit (.int 6), .punct ',', .word .id, .punct '=', .lit (.int 0), .punct ',', .word .fixedPayloadLen, .punct '=', .lit (.int 20), .punct ',', .word .flags, .punct '=', .lit (.str [.word .defaultForBuilder])]⟩],
    fields := some [
      ⟨"portid", [⟨.ubx, .paren [.word .mapType, .punct '=', .word (.name "SpiPortId"), .punct ',', .word .mayFail]⟩], .path [.u8]⟩,
      ⟨"reserved0", [], .path [.u8]⟩,
      ⟨"tx_ready", [doc], .path [.u16]⟩,
      ⟨"mode", [doc], .path [.u32]⟩,
      ⟨"reserved3", [], .path [.u32]⟩,
      ⟨"in_proto_mask", [⟨.ubx, .paren [.word .mapType, .punct '=', .word (.name "InProtoMask")]⟩], .path [.u16]⟩,
      ⟨"out_proto_mask", [⟨.ubx, .paren [.word .mapType, .punct '=', .word (.name "OutProtoMask")]⟩], .path [.u16]⟩,
      ⟨"flags", [], .path [.u16]⟩,
      ⟨"reserved5", [], .path [.u16]⟩] }

/-- `ublox/src/ubx_packets/packets.rs:2108-2139` -/
def navTimeUTC_decl : StructDecl :=
  { kind := .recv, name := "NavTimeUTC",
    attrs := [doc, ⟨.ubx, .paren [.word .class_, .punct '=', .lit (.int 1), .punct ',', .word .id, .punct '=', .lit (.int 33), .punct ',', .word .fixedPayloadLen, .punct '=', .lit (.int 20)]⟩],
    fields := some [
      ⟨"itow", [doc], .path [.u32]⟩,
      ⟨"time_accuracy_estimate_ns", [], .path [.u32]⟩,
      ⟨"nanos", [doc], .path [.i32]⟩,
      ⟨"year", [doc], .path [.u16]⟩,
      ⟨"month", [doc], .path [.u8]⟩,
      ⟨"day", [doc], .path [.u8]⟩,
      ⟨"hour", [doc], .path [.u8]⟩,
      ⟨"min", [doc], .path [.u8]⟩,
      ⟨"sec", [doc], .path [.u8]⟩,
      ⟨"valid", [doc, ⟨.ubx, .paren [.word .mapType, .punct '=', .word (.name "NavTimeUtcFlags")]⟩], .path [.u8]⟩] }

/-- `ublox/src/ubx_packets/packets.rs:2157-2171` -/
def cfgRate_decl : StructDecl :=
  { kind := .send, name := "CfgRate",
    attrs := [doc, ⟨.ubx, .paren [.word .class_, .punct '=', .lit (.int 6), .punct ',', .word .id, .punct '=', .lit (.int 8), .punct ',', .word .fixedPayloadLen, .punct '=', .lit (.int 6)]⟩],
    fields := some [
      ⟨"measure_rate_ms", [doc], .path [.u16]⟩,
      ⟨"nav_rate", [doc, doc], .path [.u16]⟩,
      ⟨"time_ref", [doc, ⟨.ubx, .paren [.word .mapType, .punct '=', .word (.name "AlignmentToReferenceTime")]⟩], .path [.u16]⟩] }

/-- `ublox/src/ubx_packets/packets.rs:2191-2199` -/
def cfgMsgSinglePort_decl : StructDecl :=
  { kind := .send, name := "CfgMsgSinglePort",
    attrs := [doc, ⟨.ubx, .paren [.word .class_, .punct '=', .lit (.int 6), .punct ',', .word .id, .punct '=', .lit (.int 1), .punct ',', .word .fixedPayloadLen, .punct '=', .lit (.int 3)]⟩],
    fields := some [
      ⟨"msg_class", [], .path [.u8]⟩,
      ⟨"msg_id", [], .path [.u8]⟩,
      ⟨"rate", [doc], .path [.u8]⟩] }

/-- `ublox/src/ubx_packets/packets.rs:2216-2224` -/
def cfgMsgAllPorts_decl : StructDecl :=
  { kind := .send, name := "CfgMsgAllPorts",
    attrs := [doc, doc, doc, doc, ⟨.ubx, .paren [.word .class_, .punct '=', .lit (.int 6), .punct ',', .word .id, .punct '=', .lit (.int 1), .punct ',', .word .fixedPayloadLen, .punct '=', .lit (.int 8)]⟩],
    fields := some [
      ⟨"msg_class", [], .path [.u8]⟩,
      ⟨"msg_id", [], .path [.u8]⟩,
      ⟨"rates", [doc], .array (.path [.u8]) (.int 6)⟩] }

/-- `ublox/src/ubx_packets/packets.rs:2238-2305` -/
def cfgNav5_decl : StructDecl :=
  { kind := .recvSend, name := "CfgNav5",
    attrs := [doc, ⟨.ubx, .paren [.word .class_, .punct '=', .lit (.int 6), .punct ',', .word .id, .punct '=', .lit (.int 36), .punct ',', .word .fixedPayloadLen, .punct '=', .lit (.int 36), .punct ',', .word .flags, .punct '=', .lit (.str [.word .defaultForBuilder])]⟩],
    fields := some [
      ⟨"mask", [doc, ⟨.ubx, .paren [.word .mapType, .punct '=', .word (.name "CfgNav5Params")]⟩], .path [.u16]⟩,
      ⟨"dyn_model", [⟨.ubx, .paren [.word .mapType, .punct '=', .word (.name "CfgNav5DynModel"), .punct ',', .word .mayFail]⟩], .path [.u8]⟩,
      ⟨"fix_mode", [⟨.ubx, .paren [.word .mapType, .punct '=', .word (.name "CfgNav5FixMode"), .punct ',', .word .mayFail]⟩], .path [.u8]⟩,
      ⟨"fixed_alt", [doc, ⟨.ubx, .paren [.word .mapType, .punct '=', .word .f64, .punct ',', .word .scale, .punct '=', .lit (.float (mkRat 1 100))]⟩], .path [.i32]⟩,
      ⟨"fixed_alt_var", [doc, ⟨.ubx, .paren [.word .mapType, .punct '=', .word .f64, .punct ',', .word .scale, .punct '=', .lit (.float (mkRat 1 10000))]⟩], .path [.u32]⟩,
      ⟨"min_elev_degrees", [doc], .path [.i8]⟩,
      ⟨"dr_limit", [doc], .path [.u8]⟩,
      ⟨"pdop", [doc, ⟨.ubx, .paren [.word .mapType, .punct '=', .word .f32, .punct ',', .word .scale, .punct '=', .lit (.float (mkRat 1 10))]⟩], .path [.u16]⟩,
      ⟨"tdop", [doc, ⟨.ubx, .paren [.word .mapType, .punct '=', .word .f32, .punct ',', .word .scale, .punct '=', .lit (.float (mkRat 1 10))]⟩], .path [.u16]⟩,
      ⟨"pacc", [doc], .path [.u16]⟩,
      ⟨"tacc", [doc, doc], .path [.u16]⟩,
      ⟨"static_hold_thresh", [doc, ⟨.ubx, .paren [.word .mapType, .punct '=', .word .f32, .punct ',', .word .scale, .punct '=', .lit (.float (mkRat 1 100))]⟩], .path [.u8]⟩,
      ⟨"dgps_time_out", [doc], .path [.u8]⟩,
      ⟨"cno_thresh_num_svs", [doc, doc], .path [.u8]⟩,
      ⟨"cno_thresh", [doc], .path [.u8]⟩,
      ⟨"reserved1", [], .array (.path [.u8]) (.int 2)⟩,
      ⟨"static_hold_max_dist", [doc], .path [.u16]⟩,
      ⟨"utc_standard", [doc, ⟨.ubx, .paren [.word .mapType, .punct '=', .word (.name "CfgNav5UtcStandard"), .punct ',', .word .mayFail]⟩], .path [.u8]⟩,
      ⟨"reserved2", [], .array (.path [.u8]) (.int 5)⟩] }

/-- `ublox/src/ubx_packets/packets.rs:2470-2541` -/
def cfgNavX5_decl : StructDecl :=
  { kind := .recvSend, name := "CfgNavX5",
    attrs := [doc, ⟨.ubx, .paren [.word .class_, .punct '=', .lit (.int 6), .punct ',', .word .id, .punct '=', .lit (.int 35), .punct ',', .word .fixedPayloadLen, .punct '=', .lit (.int 40), .punct ',', .word .flags, .punct '=', .lit (.str [.word .defaultForBuilder])]⟩],
    fields := some [
      ⟨"version", [doc], .path [.u16]⟩,
      ⟨"mask1", [doc, ⟨.ubx, .paren [.word .mapType, .punct '=', .word (.name "CfgNavX5Params1")]⟩], .path [.u16]⟩,
      ⟨"mask2", [⟨.ubx, .paren [.word .mapType, .punct '=', .word (.name "CfgNavX5Params2")]⟩], .path [.u32]⟩,
      ⟨"reserved1", [doc], .array (.path [.u8]) (.int 2)⟩,
      ⟨"min_svs", [doc], .path [.u8]⟩,
      ⟨"max_svs", [doc], .path [.u8]⟩,
      ⟨"min_cno_dbhz", [doc], .path [.u8]⟩,
      ⟨"reserved2", [doc], .path [.u8]⟩,
      ⟨"ini_fix_3d", [doc], .path [.u8]⟩,
      ⟨"reserved3", [doc], .array (.path [.u8]) (.int 2)⟩,
      ⟨"ack_aiding", [doc], .path [.u8]⟩,
      ⟨"wkn_rollover", [doc], .path [.u16]⟩,
      ⟨"sig_atten_comp_mode", [doc], .path [.u8]⟩,
      ⟨"reserved4", [doc], .path [.u8]⟩,
      ⟨"reserved5", [], .array (.path [.u8]) (.int 2)⟩,
      ⟨"reserved6", [], .array (.path [.u8]) (.int 2)⟩,
      ⟨"use_ppp", [doc], .path [.u8]⟩,
      ⟨"aop_cfg", [doc], .path [.u8]⟩,
      ⟨"reserved7", [doc], .array (.path [.u8]) (.int 2)⟩,
      ⟨"aop_orb_max_err", [doc], .path [.u16]⟩,
      ⟨"reserved8", [doc], .array (.path [.u8]) (.int 4)⟩,
      ⟨"reserved9", [], .array (.path [.u8]) (.int 3)⟩,
      ⟨"use_adr", [doc], .path [.u8]⟩] }

/-- `ublox/src/ubx_packets/packets.rs:2580-2599` -/
def mgaAck_decl : StructDecl :=
  { kind := .recv, name := "MgaAck",
    attrs := [doc, ⟨.ubx, .paren [.word .class_, .punct '=', .lit (.int 19), .punct ',', .word .id, .punct '=', .lit (.int 96), .punct ',', .word .fixedPayloadLen, .punct '=', .lit (.int 8)]⟩],
    fields := some [
      ⟨"ack_type", [doc], .path [.u8]⟩,
      ⟨"version", [doc], .path [.u8]⟩,
      ⟨"info_code", [doc, doc, ⟨.ubx, .paren [.word .mapType, .punct '=', .word (.name "MsgAckInfoCode")]⟩], .path [.u8]⟩,
      ⟨"msg_id", [doc], .path [.u8]⟩,
      ⟨"msg_payload_start", [doc], .array (.path [.u8]) (.int 4)⟩] }

/-- `ublox/src/ubx_packets/packets.rs:2615-2641` -/
def mgaGloEph_decl : StructDecl :=
  { kind := .recv, name := "MgaGloEph",
    attrs := [⟨.ubx, .paren [.word .class_, .punct '=', .lit (.int 19), .punct ',', .word .id, .punct '=', .lit (.int 6), .punct ',', .word .fixedPayloadLen, .punct '=', .lit (.int 48)]⟩],
    fields := some [
      ⟨"msg_type", [], .path [.u8]⟩,
      ⟨"version", [], .path [.u8]⟩,
      ⟨"sv_id", [], .path [.u8]⟩,
      ⟨"reserved1", [], .path [.u8]⟩,
      ⟨"ft", [], .path [.u8]⟩,
      ⟨"b", [], .path [.u8]⟩,
      ⟨"m", [], .path [.u8]⟩,
      ⟨"h", [], .path [.i8]⟩,
      ⟨"x", [], .path [.i32]⟩,
      ⟨"y", [], .path [.i32]⟩,
      ⟨"z", [], .path [.i32]⟩,
      ⟨"dx", [], .path [.i32]⟩,
      ⟨"dy", [], .path [.i32]⟩,
      ⟨"dz", [], .path [.i32]⟩,
      ⟨"ddx", [], .path [.i8]⟩,
      ⟨"ddy", [], .path [.i8]⟩,
      ⟨"ddz", [], .path [.i8]⟩,
      ⟨"tb", [], .path [.u8]⟩,
      ⟨"gamma", [], .path [.u16]⟩,
      ⟨"e", [], .path [.u8]⟩,
      ⟨"delta_tau", [], .path [.u8]⟩,
      ⟨"tau", [], .path [.i32]⟩,
      ⟨"reserved2", [], .array (.path [.u8]) (.int 4)⟩] }

/-- `ublox/src/ubx_packets/packets.rs:2643-2676` -/
def mgaGpsIono_decl : StructDecl :=
  { kind := .recv, name := "MgaGpsIono",
    attrs := [⟨.ubx, .paren [.word .class_, .punct '=', .lit (.int 19), .punct ',', .word .id, .punct '=', .lit (.int 0), .punct ',', .word .fixedPayloadLen, .punct '=', .lit (.int 16)]⟩],
    fields := some [
      ⟨"msg_type", [doc], .path [.u8]⟩,
      ⟨"version", [doc], .path [.u8]⟩,
      ⟨"reserved1", [], .array (.path [.u8]) (.int 2)⟩,
      ⟨"alpha0", [doc, ⟨.ubx, .paren [.word .mapType, .punct '=', .word .f64, .punct ',', .word .scale, .punct '=', .lit (.float (mkRat 1 1))]⟩], .path [.i8]⟩,
      ⟨"alpha1", [doc, ⟨.ubx, .paren [.word .mapType, .punct '=', .word .f64, .punct ',', .word .scale, .punct '=', .lit (.float (mkRat 1 1))]⟩], .path [.i8]⟩,
      ⟨"alpha2", [doc, ⟨.ubx, .paren [.word .mapType, .punct '=', .word .f64, .punct ',', .word .scale, .punct '=', .lit (.float (mkRat 1 1))]⟩], .path [.i8]⟩,
      ⟨"alpha3", [doc, ⟨.ubx, .paren [.word .mapType, .punct '=', .word .f64, .punct ',', .word .scale, .punct '=', .lit (.float (mkRat 1 1))]⟩], .path [.i8]⟩,
      ⟨"beta0", [doc, ⟨.ubx, .paren [.word .mapType, .punct '=', .word .f64, .punct ',', .word .scale, .punct '=', .lit (.float (mkRat 1 1))]⟩], .path [.i8]⟩,
      ⟨"beta1", [doc, ⟨.ubx, .paren [.word .mapType, .punct '=', .word .f64, .punct ',', .word .scale, .punct '=', .lit (.float (mkRat 1 1))]⟩], .path [.i8]⟩,
      ⟨"beta2", [doc, ⟨.ubx, .paren [.word .mapType, .punct '=', .word .f64, .punct ',', .word .scale, .punct '=', .lit (.float (mkRat 1 1))]⟩], .path [.i8]⟩,
      ⟨"beta3", [doc, ⟨.ubx, .paren [.word .mapType, .punct '=', .word .f64, .punct ',', .word .scale, .punct '=', .lit (.float (mkRat 1 1))]⟩], .path [.i8]⟩,
      ⟨"reserved2", [], .array (.path [.u8]) (.int 4)⟩] }

/-- `ublox/src/ubx_packets/packets.rs:2678-2712` -/
def mgaGpsEph_decl : StructDecl :=
  { kind := .recv, name := "MgaGpsEph",
    attrs := [⟨.ubx, .paren [.word .class_, .punct '=', .lit (.int 19), .punct ',', .word .id, .punct '=', .lit (.int 0), .punct ',', .word .fixedPayloadLen, .punct '=', .lit (.int 68)]⟩],
    fields := some [
      ⟨"msg_type", [], .path [.u8]⟩,
      ⟨"version", [], .path [.u8]⟩,
      ⟨"sv_id", [], .path [.u8]⟩,
      ⟨"reserved1", [], .path [.u8]⟩,
      ⟨"fit_interval", [], .path [.u8]⟩,
      ⟨"ura_index", [], .path [.u8]⟩,
      ⟨"sv_health", [], .path [.u8]⟩,
      ⟨"tgd", [], .path [.i8]⟩,
      ⟨"iodc", [], .path [.u16]⟩,
      ⟨"toc", [], .path [.u16]⟩,
      ⟨"reserved2", [], .path [.u8]⟩,
      ⟨"af2", [], .path [.i8]⟩,
      ⟨"af1", [], .path [.i16]⟩,
      ⟨"af0", [], .path [.i32]⟩,
      ⟨"crs", [], .path [.i16]⟩,
      ⟨"delta_n", [], .path [.i16]⟩,
      ⟨"m0", [], .path [.i32]⟩,
      ⟨"cuc", [], .path [.i16]⟩,
      ⟨"cus", [], .path [.i16]⟩,
      ⟨"e", [], .path [.u32]⟩,
      ⟨"sqrt_a", [], .path [.u32]⟩,
      ⟨"toe", [], .path [.u16]⟩,
      ⟨"cic", [], .path [.i16]⟩,
      ⟨"omega0", [], .path [.i32]⟩,
      ⟨"cis", [], .path [.i16]⟩,
      ⟨"crc", [], .path [.i16]⟩,
      ⟨"i0", [], .path [.i32]⟩,
      ⟨"omega", [], .path [.i32]⟩,
      ⟨"omega_dot", [], .path [.i32]⟩,
      ⟨"idot", [], .path [.i16]⟩,
      ⟨"reserved3", [], .array (.path [.u8]) (.int 2)⟩] }

/-- `ublox/src/ubx_packets/packets.rs:2715-2732` -/
def timTp_decl : StructDecl :=
  { kind := .recv, name := "TimTp",
    attrs := [doc, ⟨.ubx, .paren [.word .class_, .punct '=', .lit (.int 13), .punct ',', .word .id, .punct '=', .lit (.int 1), .punct ',', .word .fixedPayloadLen, .punct '=', .lit (.int 16)]⟩],
    fields := some [
      ⟨"tow_ms", [doc], .path [.u32]⟩,
      ⟨"tow_sub_ms", [doc], .path [.u32]⟩,
      ⟨"q_err", [doc], .path [.i32]⟩,
      ⟨"week", [doc], .path [.u16]⟩,
      ⟨"flags", [doc, ⟨.ubx, .paren [.word .mapType, .punct '=', .word (.name "TimTpFlags"), .punct ',', .word .from_, .punct '=', .word (.name "TimTpFlags")]⟩], .path [.u8]⟩,
      ⟨"ref_info", [doc, ⟨.ubx, .paren [.word .mapType, .punct '=', .word (.name "TimTpRefInfo"), .punct ',', .word .from_, .punct '=', .word (.name "TimTpRefInfo")]⟩], .path [.u8]⟩] }

/-- `ublox/src/ubx_packets/packets.rs:2834-2858` -/
def timTm2_decl : StructDecl :=
  { kind := .recv, name := "TimTm2",
    attrs := [doc, ⟨.ubx, .paren [.word .class_, .punct '=', .lit (.int 13), .punct ',', .word .id, .punct '=', .lit (.int 3), .punct ',', .word .fixedPayloadLen, .punct '=', .lit (.int 28)]⟩],
    fields := some [
      ⟨"ch", [doc], .path [.u8]⟩,
      ⟨"flags", [doc, ⟨.ubx, .paren [.word .mapType, .punct '=', .word (.name "TimTm2Flags"), .punct ',', .word .from_, .punct '=', .word (.name "TimTm2Flags")]⟩], .path [.u8]⟩,
      ⟨"count", [doc], .path [.u16]⟩,
      ⟨"wn_r", [doc], .path [.u16]⟩,
      ⟨"wn_f", [doc], .path [.u16]⟩,
      ⟨"tow_ms_r", [doc], .path [.u32]⟩,
      ⟨"tow_sub_ms_r", [doc], .path [.u32]⟩,
      ⟨"tow_ms_f", [doc], .path [.u32]⟩,
      ⟨"tow_sub_ms_f", [doc], .path [.u32]⟩,
      ⟨"acc_est", [doc], .path [.u32]⟩] }

/-- `ublox/src/ubx_packets/packets.rs:2924-2949` -/
def rxmRawx_decl : StructDecl :=
  { kind := .recv, name := "RxmRawx",
    attrs := [⟨.ubx, .paren [.word .class_, .punct '=', .lit (.int 2), .punct ',', .word .id, .punct '=', .lit (.int 21), .punct ',', .word .maxPayloadLen, .punct '=', .lit (.int 8176)]⟩],
    fields := some [
      ⟨"rcv_tow", [doc], .path [.f64]⟩,
      ⟨"week", [doc], .path [.u16]⟩,
      ⟨"leap_s", [doc], .path [.i8]⟩,
      ⟨"num_meas", [doc], .path [.u8]⟩,
      ⟨"rec_stat", [doc, ⟨.ubx, .paren [.word .mapType, .punct '=', .word (.name "RecStatFlags")]⟩], .path [.u8]⟩,
      ⟨"version", [doc], .path [.u8]⟩,
      ⟨"reserved1", [], .array (.path [.u8]) (.int 2)⟩,
      ⟨"measurements", [doc, ⟨.ubx, .paren [.word .mapType, .punct '=', .word (.name "RxmRawxInfoIter"), .punct ',', .word .from_, .punct '=', .word (.name "RxmRawxInfoIter"), .punct ':', .punct ':', .word (.name "new"), .punct ',', .word .mayFail, .punct ',', .word .isValid, .punct '=', .word (.name "RxmRawxInfoIter"), .punct ':', .punct ':', .word .isValid, .punct ',']⟩], .array (.path [.u8]) (.int 0)⟩] }

/-- `ublox/src/ubx_packets/packets.rs:2965-2987` -/
def monHw_decl : StructDecl :=
  { kind := .recv, name := "MonHw",
    attrs := [doc, ⟨.ubx, .paren [.word .class_, .punct '=', .lit (.int 10), .punct ',', .word .id, .punct '=', .lit (.int 9), .punct ',', .word .fixedPayloadLen, .punct '=', .lit (.int 60)]⟩],
    fields := some [
      ⟨"pin_sel", [], .path [.u32]⟩,
      ⟨"pin_bank", [], .path [.u32]⟩,
      ⟨"pin_dir", [], .path [.u32]⟩,
      ⟨"pin_val", [], .path [.u32]⟩,
      ⟨"noise_per_ms", [], .path [.u16]⟩,
      ⟨"agc_cnt", [], .path [.u16]⟩,
      ⟨"a_status", [⟨.ubx, .paren [.word .mapType, .punct '=', .word (.name "AntennaStatus")]⟩], .path [.u8]⟩,
      ⟨"a_power", [⟨.ubx, .paren [.word .mapType, .punct '=', .word (.name "AntennaPower")]⟩], .path [.u8]⟩,
      ⟨"flags", [], .path [.u8]⟩,
      ⟨"reserved1", [], .path [.u8]⟩,
      ⟨"used_mask", [], .path [.u32]⟩,
      ⟨"vp", [], .array (.path [.u8]) (.int 17)⟩,
      ⟨"jam_ind", [], .path [.u8]⟩,
      ⟨"reserved2", [], .array (.path [.u8]) (.int 2)⟩,
      ⟨"pin_irq", [], .path [.u32]⟩,
      ⟨"pull_h", [], .path [.u32]⟩,
      ⟨"pull_l", [], .path [.u32]⟩] }

/-- `ublox/src/ubx_packets/packets.rs:3003-3021` -/
def monGnss_decl : StructDecl :=
  { kind := .recv, name := "MonGnss",
    attrs := [doc, doc, ⟨.ubx, .paren [.word .class_, .punct '=', .lit (.int 10), .punct ',', .word .id, .punct '=', .lit (.int 40), .punct ',', .word .fixedPayloadLen, .punct '=', .lit (.int 8)]⟩],
    fields := some [
      ⟨"version", [doc], .path [.u8]⟩,
      ⟨"supported", [doc, ⟨.ubx, .paren [.word .mapType, .punct '=', .word (.name "MonGnssConstellMask")]⟩], .path [.u8]⟩,
      ⟨"default", [doc, ⟨.ubx, .paren [.word .mapType, .punct '=', .word (.name "MonGnssConstellMask")]⟩], .path [.u8]⟩,
      ⟨"enabled", [doc, ⟨.ubx, .paren [.word .mapType, .punct '=', .word (.name "MonGnssConstellMask")]⟩], .path [.u8]⟩,
      ⟨"simultaneous", [doc, doc], .path [.u8]⟩,
      ⟨"reserved1", [], .array (.path [.u8]) (.int 3)⟩] }

/-- `ublox/src/ubx_packets/packets.rs:3081-3096` -/
def monVer_decl : StructDecl :=
  { kind := .recv, name := "MonVer",
    attrs := [doc, ⟨.ubx, .paren [.word .class_, .punct '=', .lit (.int 10), .punct ',', .word .id, .punct '=', .lit (.int 4), .punct ',', .word .maxPayloadLen, .punct '=', .lit (.int 1240)]⟩],
    fields := some [
      ⟨"software_version", [⟨.ubx, .paren [.word .mapType, .punct '=', .punct '&', .word (.name "str"), .punct ',', .word .mayFail, .punct ',', .word .from_, .punct '=', .word (.name "mon_ver"), .punct ':', .punct ':', .word (.name "convert_to_str_unchecked"), .punct ',', .word .isValid, .punct '=', .word (.name "mon_ver"), .punct ':', .punct ':', .word (.name "is_cstr_valid"), .punct ',', .word .getAsRef]⟩], .array (.path [.u8]) (.int 30)⟩,
      ⟨"hardware_version", [⟨.ubx, .paren [.word .mapType, .punct '=', .punct '&', .word (.name "str"), .punct ',', .word .mayFail, .punct ',', .word .from_, .punct '=', .word (.name "mon_ver"), .punct ':', .punct ':', .word (.name "convert_to_str_unchecked"), .punct ',', .word .isValid, .punct '=', .word (.name "mon_ver"), .punct ':', .punct ':', .word (.name "is_cstr_valid"), .punct ',', .word .getAsRef]⟩], .array (.path [.u8]) (.int 10)⟩,
      ⟨"extension", [doc, ⟨.ubx, .paren [.word .mapType, .punct '=', .word (.name "MonVerExtensionIter"), .punct ',', .word .mayFail, .punct ',', .word .from_, .punct '=', .word (.name "MonVerExtensionIter"), .punct ':', .punct ':', .word (.name "new"), .punct ',', .word .isValid, .punct '=', .word (.name "MonVerExtensionIter"), .punct ':', .punct ':', .word .isValid]⟩], .array (.path [.u8]) (.int 0)⟩] }

/-- `ublox/src/ubx_packets/packets.rs:3119-3127` -/
def rxmRtcm_decl : StructDecl :=
  { kind := .recv, name := "RxmRtcm",
    attrs := [⟨.ubx, .paren [.word .class_, .punct '=', .lit (.int 2), .punct ',', .word .id, .punct '=', .lit (.int 50), .punct ',', .word .fixedPayloadLen, .punct '=', .lit (.int 8)]⟩],
    fields := some [
      ⟨"version", [], .path [.u8]⟩,
      ⟨"flags", [], .path [.u8]⟩,
      ⟨"sub_type", [], .path [.u16]⟩,
      ⟨"ref_station", [], .path [.u16]⟩,
      ⟨"msg_type", [], .path [.u16]⟩] }

/-- `ublox/src/ubx_packets/packets.rs:3129-3149` -/
def esfMeas_decl : StructDecl :=
  { kind := .recv, name := "EsfMeas",
    attrs := [⟨.ubx, .paren [.word .class_, .punct '=', .lit (.int 16), .punct ',', .word .id, .punct '=', .lit (.int 2), .punct ',', .word .maxPayloadLen, .punct '=', .lit (.int 1240)]⟩],
    fields := some [
      ⟨"time_tag", [], .path [.u32]⟩,
      ⟨"flags", [], .path [.u16]⟩,
      ⟨"id", [], .path [.u16]⟩,
      ⟨"data", [⟨.ubx, .paren [.word .mapType, .punct '=', .word (.name "EsfMeasDataIter"), .punct ',', .word .from_, .punct '=', .word (.name "EsfMeasDataIter"), .punct ':', .punct ':', .word (.name "new"), .punct ',', .word .sizeFn, .punct '=', .word (.name "data_len"), .punct ',', .word .isValid, .punct '=', .word (.name "EsfMeasDataIter"), .punct ':', .punct ':', .word .isValid, .punct ',', .word .mayFail, .punct ',']⟩], .array (.path [.u8]) (.int 0)⟩,
      ⟨"calib_tag", [⟨.ubx, .paren [.word .mapType, .punct '=', .word .option, .punct '<', .word .u32, .punct '>', .punct ',', .word .from_, .punct '=', .word (.name "EsfMeas"), .punct ':', .punct ':', .word (.name "calib_tag"), .punct ',', .word .sizeFn, .punct '=', .word (.name "calib_tag_len"), .punct ',']⟩], .array (.path [.u8]) (.int 0)⟩] }

/-- `ublox/src/ubx_packets/packets.rs:3203-3214` -/
def esfRaw_decl : StructDecl :=
  { kind := .recv, name := "EsfRaw",
    attrs := [⟨.ubx, .paren [.word .class_, .punct '=', .lit (.int 16), .punct ',', .word .id, .punct '=', .lit (.int 3), .punct ',', .word .maxPayloadLen, .punct '=', .lit (.int 1240)]⟩],
    fields := some [
      ⟨"msss", [], .path [.u32]⟩,
      ⟨"data", [⟨.ubx, .paren [.word .mapType, .punct '=', .word (.name "EsfRawDataIter"), .punct ',', .word .from_, .punct '=', .word (.name "EsfRawDataIter"), .punct ':', .punct ':', .word (.name "new"), .punct ',', .word .isValid, .punct '=', .word (.name "EsfRawDataIter"), .punct ':', .punct ':', .word .isValid, .punct ',', .word .mayFail, .punct ',']⟩], .array (.path [.u8]) (.int 0)⟩] }

/-- `ublox/src/ubx_packets/packets.rs:3252-3277` -/
def esfIns_decl : StructDecl :=
  { kind := .recv, name := "EsfIns",
    attrs := [⟨.ubx, .paren [.word .class_, .punct '=', .lit (.int 16), .punct ',', .word .id, .punct '=', .lit (.int 21), .punct ',', .word .fixedPayloadLen, .punct '=', .lit (.int 36)]⟩],
    fields := some [
      ⟨"bit_field", [⟨.ubx, .paren [.word .mapType, .punct '=', .word (.name "EsfInsBitFlags")]⟩], .path [.u32]⟩,
      ⟨"reserved", [], .array (.path [.u8]) (.int 4)⟩,
      ⟨"itow", [], .path [.u32]⟩,
      ⟨"x_ang_rate", [⟨.ubx, .paren [.word .mapType, .punct '=', .word .f64, .punct ',', .word .scale, .punct '=', .lit (.float (mkRat 1 1000)), .punct ',', .word .alias, .punct '=', .word (.name "x_angular_rate")]⟩], .path [.i32]⟩,
      ⟨"y_ang_rate", [⟨.ubx, .paren [.word .mapType, .punct '=', .word .f64, .punct ',', .word .scale, .punct '=', .lit (.float (mkRat 1 1000)), .punct ',', .word .alias, .punct '=', .word (.name "y_angular_rate")]⟩], .path [.i32]⟩,
      ⟨"z_ang_rate", [⟨.ubx, .paren [.word .mapType, .punct '=', .word .f64, .punct ',', .word .scale, .punct '=', .lit (.float (mkRat 1 1000)), .punct ',', .word .alias, .punct '=', .word (.name "z_angular_rate")]⟩], .path [.i32]⟩,
      ⟨"x_accel", [⟨.ubx, .paren [.word .mapType, .punct '=', .word .f64, .punct ',', .word .scale, .punct '=', .lit (.float (mkRat 1 100)), .punct ',', .word .alias, .punct '=', .word (.name "x_acceleration")]⟩], .path [.i32]⟩,
      ⟨"y_accel", [⟨.ubx, .paren [.word .mapType, .punct '=', .word .f64, .punct ',', .word .scale, .punct '=', .lit (.float (mkRat 1 100)), .punct ',', .word .alias, .punct '=', .word (.name "y_acceleration")]⟩], .path [.i32]⟩,
      ⟨"z_accel", [⟨.ubx, .paren [.word .mapType, .punct '=', .word .f64, .punct ',', .word .scale, .punct '=', .lit (.float (mkRat 1 100)), .punct ',', .word .alias, .punct '=', .word (.name "z_acceleration")]⟩], .path [.i32]⟩] }

/-- `ublox/src/ubx_packets/packets.rs:3294-3312` -/
def hnrAtt_decl : StructDecl :=
  { kind := .recv, name := "HnrAtt",
    attrs := [⟨.ubx, .paren [.word .class_, .punct '=', .lit (.int 40), .punct ',', .word .id, .punct '=', .lit (.int 1), .punct ',', .word .fixedPayloadLen, .punct '=', .lit (.int 32)]⟩],
    fields := some [
      ⟨"itow", [], .path [.u32]⟩,
      ⟨"version", [], .path [.u8]⟩,
      ⟨"reserved1", [], .array (.path [.u8]) (.int 3)⟩,
      ⟨"roll", [⟨.ubx, .paren [.word .mapType, .punct '=', .word .f64, .punct ',', .word .scale, .punct '=', .lit (.float (mkRat 1 100000)), .punct ',', .word .alias, .punct '=', .word (.name "vehicle_roll")]⟩], .path [.i32]⟩,
      ⟨"pitch", [⟨.ubx, .paren [.word .mapType, .punct '=', .word .f64, .punct ',', .word .scale, .punct '=', .lit (.float (mkRat 1 100000)), .punct ',', .word .alias, .punct '=', .word (.name "vehicle_pitch")]⟩], .path [.i32]⟩,
      ⟨"heading", [⟨.ubx, .paren [.word .mapType, .punct '=', .word .f64, .punct ',', .word .scale, .punct '=', .lit (.float (mkRat 1 100000)), .punct ',', .word .alias, .punct '=', .word (.name "vehicle_heading")]⟩], .path [.i32]⟩,
      ⟨"acc_roll", [⟨.ubx, .paren [.word .mapType, .punct '=', .word .f64, .punct ',', .word .scale, .punct '=', .lit (.float (mkRat 1 100000)), .punct ',', .word .alias, .punct '=', .word (.name "vehicle_roll_accuracy")]⟩], .path [.u32]⟩,
      ⟨"acc_pitch", [⟨.ubx, .paren [.word .mapType, .punct '=', .word .f64, .punct ',', .word .scale, .punct '=', .lit (.float (mkRat 1 100000)), .punct ',', .word .alias, .punct '=', .word (.name "vehicle_pitch_accuracy")]⟩], .path [.u32]⟩,
      ⟨"acc_heading", [⟨.ubx, .paren [.word .mapType, .punct '=', .word .f64, .punct ',', .word .scale, .punct '=', .lit (.float (mkRat 1 100000)), .punct ',', .word .alias, .punct '=', .word (.name "vehicle_heading_accuracy")]⟩], .path [.u32]⟩] }

/-- `ublox/src/ubx_packets/packets.rs:3314-3339` -/
def hnrIns_decl : StructDecl :=
  { kind := .recv, name := "HnrIns",
    attrs := [⟨.ubx, .paren [.word .class_, .punct '=', .lit (.int 40), .punct ',', .word .id, .punct '=', .lit (.int 2), .punct ',', .word .fixedPayloadLen, .punct '=', .lit (.int 36)]⟩],
    fields := some [
      ⟨"bit_field", [⟨.ubx, .paren [.word .mapType, .punct '=', .word (.name "HnrInsBitFlags")]⟩], .path [.u32]⟩,
      ⟨"reserved", [], .array (.path [.u8]) (.int 4)⟩,
      ⟨"itow", [], .path [.u32]⟩,
      ⟨"x_ang_rate", [⟨.ubx, .paren [.word .mapType, .punct '=', .word .f64, .punct ',', .word .scale, .punct '=', .lit (.float (mkRat 1 1000)), .punct ',', .word .alias, .punct '=', .word (.name "x_angular_rate")]⟩], .path [.i32]⟩,
      ⟨"y_ang_rate", [⟨.ubx, .paren [.word .mapType, .punct '=', .word .f64, .punct ',', .word .scale, .punct '=', .lit (.float (mkRat 1 1000)), .punct ',', .word .alias, .punct '=', .word (.name "y_angular_rate")]⟩], .path [.i32]⟩,
      ⟨"z_ang_rate", [⟨.ubx, .paren [.word .mapType, .punct '=', .word .f64, .punct ',', .word .scale, .punct '=', .lit (.float (mkRat 1 1000)), .punct ',', .word .alias, .punct '=', .word (.name "z_angular_rate")]⟩], .path [.i32]⟩,
      ⟨"x_accel", [⟨.ubx, .paren [.word .mapType, .punct '=', .word .f64, .punct ',', .word .scale, .punct '=', .lit (.float (mkRat 1 100)), .punct ',', .word .alias, .punct '=', .word (.name "x_acceleration")]⟩], .path [.i32]⟩,
      ⟨"y_accel", [⟨.ubx, .paren [.word .mapType, .punct '=', .word .f64, .punct ',', .word .scale, .punct '=', .lit (.float (mkRat 1 100)), .punct ',', .word .alias, .punct '=', .word (.name "y_acceleration")]⟩], .path [.i32]⟩,
      ⟨"z_accel", [⟨.ubx, .paren [.word .mapType, .punct '=', .word .f64, .punct ',', .word .scale, .punct '=', .lit (.float (mkRat 1 100)), .punct ',', .word .alias, .punct '=', .word (.name "z_acceleration")]⟩], .path [.i32]⟩] }

/-- `ublox/src/ubx_packets/packets.rs:3356-3411` -/
def hnrPvt_decl : StructDecl :=
  { kind := .recv, name := "HnrPvt",
    attrs := [⟨.ubx, .paren [.word .class_, .punct '=', .lit (.int 40), .punct ',', .word .id, .punct '=', .lit (.int 0), .punct ',', .word .fixedPayloadLen, .punct '=', .lit (.int 72)]⟩, ⟨(.name "derive"), .other⟩],
    fields := some [
      ⟨"itow", [], .path [.u32]⟩,
      ⟨"year", [], .path [.u16]⟩,
      ⟨"month", [], .path [.u8]⟩,
      ⟨"day", [], .path [.u8]⟩,
      ⟨"hour", [], .path [.u8]⟩,
      ⟨"min", [], .path [.u8]⟩,
      ⟨"sec", [], .path [.u8]⟩,
      ⟨"valid", [⟨.ubx, .paren [.word .mapType, .punct '=', .word (.name "HnrPvtValidFlags")]⟩], .path [.u8]⟩,
      ⟨"nano", [], .path [.i32]⟩,
      ⟨"gps_fix", [⟨.ubx, .paren [.word .mapType, .punct '=', .word (.name "GpsFix")]⟩], .path [.u8]⟩,
      ⟨"flags", [⟨.ubx, .paren [.word .mapType, .punct '=', .word (.name "HnrPvtFlags")]⟩], .path [.u8]⟩,
      ⟨"reserved1", [], .array (.path [.u8]) (.int 2)⟩,
      ⟨"lon", [⟨.ubx, .paren [.word .mapType, .punct '=', .word .f64, .punct ',', .word .scale, .punct '=', .lit (.float (mkRat 1 10000000)), .punct ',', .word .alias, .punct '=', .word (.name "longitude")]⟩], .path [.i32]⟩,
      ⟨"lat", [⟨.ubx, .paren [.word .mapType, .punct '=', .word .f64, .punct ',', .word .scale, .punct '=', .lit (.float (mkRat 1 10000000)), .punct ',', .word .alias, .punct '=', .word (.name "latitude")]⟩], .path [.i32]⟩,
      ⟨"height", [⟨.ubx, .paren [.word .mapType, .punct '=', .word .f64, .punct ',', .word .scale, .punct '=', .lit (.float (mkRat 1 1000)), .punct ',', .word .alias, .punct '=', .word (.name "height_above_ellipsoid")]⟩], .path [.i32]⟩,
      ⟨"height_msl", [⟨.ubx, .paren [.word .mapType, .punct '=', .word .f64, .punct ',', .word .scale, .punct '=', .lit (.float (mkRat 1 1000)), .punct ',', .word .alias, .punct '=', .word (.name "height_msl")]⟩], .path [.i32]⟩,
      ⟨"g_speed", [⟨.ubx, .paren [.word .mapType, .punct '=', .word .f64, .punct ',', .word .scale, .punct '=', .lit (.float (mkRat 1 1000)), .punct ',', .word .alias, .punct '=', .word (.name "ground_speed_2d")]⟩], .path [.i32]⟩,
      ⟨"speed", [⟨.ubx, .paren [.word .mapType, .punct '=', .word .f64, .punct ',', .word .scale, .punct '=', .lit (.float (mkRat 1 1000)), .punct ',', .word .alias, .punct '=', .word (.name "speed_3d")]⟩], .path [.i32]⟩,
      ⟨"head_mot", [⟨.ubx, .paren [.word .mapType, .punct '=', .word .f64, .punct ',', .word .scale, .punct '=', .lit (.float (mkRat 1 100000)), .punct ',', .word .alias, .punct '=', .word (.name "heading_motion")]⟩], .path [.i32]⟩,
      ⟨"head_veh", [⟨.ubx, .paren [.word .mapType, .punct '=', .word .f64, .punct ',', .word .scale, .punct '=', .lit (.float (mkRat 1 100000)), .punct ',', .word .alias, .punct '=', .word (.name "heading_vehicle")]⟩], .path [.i32]⟩,
      ⟨"h_acc", [], .path [.u32]⟩,
      ⟨"v_acc", [], .path [.u32]⟩,
      ⟨"s_acc", [], .path [.u32]⟩,
      ⟨"head_acc", [⟨.ubx, .paren [.word .mapType, .punct '=', .word .f64, .punct ',', .word .scale, .punct '=', .lit (.float (mkRat 1 100000)), .punct ',', .word .alias, .punct '=', .word (.name "heading_accurracy")]⟩], .path [.u32]⟩,
      ⟨"reserved2", [], .array (.path [.u8]) (.int 4)⟩] }

/-- `ublox/src/ubx_packets/packets.rs:3413-3431` -/
def navAtt_decl : StructDecl :=
  { kind := .recv, name := "NavAtt",
    attrs := [⟨.ubx, .paren [.word .class_, .punct '=', .lit (.int 1), .punct ',', .word .id, .punct '=', .lit (.int 5), .punct ',', .word .fixedPayloadLen, .punct '=', .lit (.int 32)]⟩],
    fields := some [
      ⟨"itow", [], .path [.u32]⟩,
      ⟨"version", [], .path [.u8]⟩,
      ⟨"reserved1", [], .array (.path [.u8]) (.int 3)⟩,
      ⟨"roll", [⟨.ubx, .paren [.word .mapType, .punct '=', .word .f64, .punct ',', .word .scale, .punct '=', .lit (.float (mkRat 1 100000)), .punct ',', .word .alias, .punct '=', .word (.name "vehicle_roll")]⟩], .path [.i32]⟩,
      ⟨"pitch", [⟨.ubx, .paren [.word .mapType, .punct '=', .word .f64, .punct ',', .word .scale, .punct '=', .lit (.float (mkRat 1 100000)), .punct ',', .word .alias, .punct '=', .word (.name "vehicle_pitch")]⟩], .path [.i32]⟩,
      ⟨"heading", [⟨.ubx, .paren [.word .mapType, .punct '=', .word .f64, .punct ',', .word .scale, .punct '=', .lit (.float (mkRat 1 100000)), .punct ',', .word .alias, .punct '=', .word (.name "vehicle_heading")]⟩], .path [.i32]⟩,
      ⟨"acc_roll", [⟨.ubx, .paren [.word .mapType, .punct '=', .word .f64, .punct ',', .word .scale, .punct '=', .lit (.float (mkRat 1 100000)), .punct ',', .word .alias, .punct '=', .word (.name "vehicle_roll_accuracy")]⟩], .path [.u32]⟩,
      ⟨"acc_pitch", [⟨.ubx, .paren [.word .mapType, .punct '=', .word .f64, .punct ',', .word .scale, .punct '=', .lit (.float (mkRat 1 100000)), .punct ',', .word .alias, .punct '=', .word (.name "vehicle_pitch_accuracy")]⟩], .path [.u32]⟩,
      ⟨"acc_heading", [⟨.ubx, .paren [.word .mapType, .punct '=', .word .f64, .punct ',', .word .scale, .punct '=', .lit (.float (mkRat 1 100000)), .punct ',', .word .alias, .punct '=', .word (.name "vehicle_heading_accuracy")]⟩], .path [.u32]⟩] }

/-- `ublox/src/ubx_packets/packets.rs:3433-3441` -/
def navClock_decl : StructDecl :=
  { kind := .recv, name := "NavClock",
    attrs := [⟨.ubx, .paren [.word .class_, .punct '=', .lit (.int 1), .punct ',', .word .id, .punct '=', .lit (.int 34), .punct ',', .word .fixedPayloadLen, .punct '=', .lit (.int 20)]⟩],
    fields := some [
      ⟨"itow", [], .path [.u32]⟩,
      ⟨"clk_b", [], .path [.i32]⟩,
      ⟨"clk_d", [], .path [.i32]⟩,
      ⟨"t_acc", [], .path [.u32]⟩,
      ⟨"f_acc", [], .path [.u32]⟩] }

/-- `ublox/src/ubx_packets/packets.rs:3471-3489` -/
def rxmSfrbx_decl : StructDecl :=
  { kind := .recv, name := "RxmSfrbx",
    attrs := [⟨.ubx, .paren [.word .class_, .punct '=', .lit (.int 2), .punct ',', .word .id, .punct '=', .lit (.int 19), .punct ',', .word .maxPayloadLen, .punct '=', .lit (.int 72)]⟩],
    fields := some [
      ⟨"gnss_id", [], .path [.u8]⟩,
      ⟨"sv_id", [], .path [.u8]⟩,
      ⟨"reserved1", [], .path [.u8]⟩,
      ⟨"freq_id", [], .path [.u8]⟩,
      ⟨"num_words", [], .path [.u8]⟩,
      ⟨"reserved2", [], .path [.u8]⟩,
      ⟨"version", [], .path [.u8]⟩,
      ⟨"reserved3", [], .path [.u8]⟩,
      ⟨"dwrd", [⟨.ubx, .paren [.word .mapType, .punct '=', .word (.name "DwrdIter"), .punct ',', .word .from_, .punct '=', .word (.name "DwrdIter"), .punct ':', .punct ':', .word (.name "new"), .punct ',', .word .isValid, .punct '=', .word (.name "DwrdIter"), .punct ':', .punct ':', .word .isValid, .punct ',', .word .mayFail, .punct ',']⟩], .array (.path [.u8]) (.int 0)⟩] }

/-- `ublox/src/ubx_packets/packets.rs:3514-3522` -/
def navVelECEF_decl : StructDecl :=
  { kind := .recv, name := "NavVelECEF",
    attrs := [⟨.ubx, .paren [.word .class_, .punct '=', .lit (.int 1), .punct ',', .word .id, .punct '=', .lit (.int 17), .punct ',', .word .fixedPayloadLen, .punct '=', .lit (.int 20)]⟩],
    fields := some [
      ⟨"itow", [], .path [.u32]⟩,
      ⟨"ecef_vx", [], .path [.i32]⟩,
      ⟨"ecef_vy", [], .path [.i32]⟩,
      ⟨"ecef_vz", [], .path [.u32]⟩,
      ⟨"s_acc", [], .path [.u32]⟩] }

/-- `ublox/src/ubx_packets/packets.rs:3524-3579` -/
def mgaGpsEPH_decl : StructDecl :=
  { kind := .recv, name := "MgaGpsEPH",
    attrs := [⟨.ubx, .paren [.word .class_, .punct '=', .lit (.int 19), .punct ',', .word .id, .punct '=', .lit (.int 0), .punct ',', .word .fixedPayloadLen, .punct '=', .lit (.int 68)]⟩],
    fields := some [
      ⟨"msg_type", [], .path [.u8]⟩,
      ⟨"version", [], .path [.u8]⟩,
      ⟨"sv_id", [], .path [.u8]⟩,
      ⟨"reserved1", [], .path [.u8]⟩,
      ⟨"fit_interval", [], .path [.u8]⟩,
      ⟨"ura_index", [], .path [.u8]⟩,
      ⟨"sv_health", [], .path [.u8]⟩,
      ⟨"tgd", [⟨.ubx, .paren [.word .mapType, .punct '=', .word .f64, .punct ',', .word .scale, .punct '=', .lit (.float (mkRat 1 5000000000000000000000000000000))]⟩], .path [.i8]⟩,
      ⟨"iodc", [], .path [.u16]⟩,
      ⟨"toc", [⟨.ubx, .paren [.word .mapType, .punct '=', .word .f64, .punct ',', .word .scale, .punct '=', .lit (.float (mkRat 20000 1))]⟩], .path [.u16]⟩,
      ⟨"reserved2", [], .path [.u8]⟩,
      ⟨"af2", [⟨.ubx, .paren [.word .mapType, .punct '=', .word .f64, .punct ',', .word .scale, .punct '=', .lit (.float (mkRat 1 5000000000000000000000000000000000000000000000000000000))]⟩], .path [.i8]⟩,
      ⟨"afl", [⟨.ubx, .paren [.word .mapType, .punct '=', .word .f64, .punct ',', .word .scale, .punct '=', .lit (.float (mkRat 1 5000000000000000000000000000000000000000000))]⟩], .path [.i16]⟩,
      ⟨"af0", [⟨.ubx, .paren [.word .mapType, .punct '=', .word .f64, .punct ',', .word .scale, .punct '=', .lit (.float (mkRat 1 5000000000000000000000000000000))]⟩], .path [.i32]⟩,
      ⟨"crs", [⟨.ubx, .paren [.word .mapType, .punct '=', .word .f64, .punct ',', .word .scale, .punct '=', .lit (.float (mkRat 1 50000))]⟩], .path [.i16]⟩,
      ⟨"delta_n", [⟨.ubx, .paren [.word .mapType, .punct '=', .word .f64, .punct ',', .word .scale, .punct '=', .lit (.float (mkRat 1 5000000000000000000000000000000000000000000))]⟩], .path [.i16]⟩,
      ⟨"m0", [⟨.ubx, .paren [.word .mapType, .punct '=', .word .f64, .punct ',', .word .scale, .punct '=', .lit (.float (mkRat 1 5000000000000000000000000000000))]⟩], .path [.i32]⟩,
      ⟨"cuc", [⟨.ubx, .paren [.word .mapType, .punct '=', .word .f64, .punct ',', .word .scale, .punct '=', .lit (.float (mkRat 1 50000000000000000000000000000))]⟩], .path [.i16]⟩,
      ⟨"cus", [⟨.ubx, .paren [.word .mapType, .punct '=', .word .f64, .punct ',', .word .scale, .punct '=', .lit (.float (mkRat 1 50000000000000000000000000000))]⟩], .path [.i16]⟩,
      ⟨"e", [⟨.ubx, .paren [.word .mapType, .punct '=', .word .f64, .punct ',', .word .scale, .punct '=', .lit (.float (mkRat 1 500000000000000000000000000000000))]⟩], .path [.u32]⟩,
      ⟨"sqrt_a", [⟨.ubx, .paren [.word .mapType, .punct '=', .word .f64, .punct ',', .word .scale, .punct '=', .lit (.float (mkRat 1 5000000000000000000))]⟩], .path [.u32]⟩,
      ⟨"toe", [⟨.ubx, .paren [.word .mapType, .punct '=', .word .f64, .punct ',', .word .scale, .punct '=', .lit (.float (mkRat 20000 1))]⟩], .path [.u16]⟩,
      ⟨"cic", [⟨.ubx, .paren [.word .mapType, .punct '=', .word .f64, .punct ',', .word .scale, .punct '=', .lit (.float (mkRat 1 50000000000000000000000000000))]⟩], .path [.i16]⟩,
      ⟨"omega0", [⟨.ubx, .paren [.word .mapType, .punct '=', .word .f64, .punct ',', .word .scale, .punct '=', .lit (.float (mkRat 1 5000000000000000000000000000000))]⟩], .path [.i32]⟩,
      ⟨"cis", [⟨.ubx, .paren [.word .mapType, .punct '=', .word .f64, .punct ',', .word .scale, .punct '=', .lit (.float (mkRat 1 50000000000000000000000000000))]⟩], .path [.i16]⟩,
      ⟨"crc", [⟨.ubx, .paren [.word .mapType, .punct '=', .word .f64, .punct ',', .word .scale, .punct '=', .lit (.float (mkRat 1 50000))]⟩], .path [.i16]⟩,
      ⟨"i0", [⟨.ubx, .paren [.word .mapType, .punct '=', .word .f64, .punct ',', .word .scale, .punct '=', .lit (.float (mkRat 1 5000000000000000000000000000000))]⟩], .path [.i32]⟩,
      ⟨"omega", [⟨.ubx, .paren [.word .mapType, .punct '=', .word .f64, .punct ',', .word .scale, .punct '=', .lit (.float (mkRat 1 5000000000000000000000000000000))]⟩], .path [.i32]⟩,
      ⟨"omega_dot", [⟨.ubx, .paren [.word .mapType, .punct '=', .word .f64, .punct ',', .word .scale, .punct '=', .lit (.float (mkRat 1 5000000000000000000000000000000000000000000))]⟩], .path [.i32]⟩,
      ⟨"idot", [⟨.ubx, .paren [.word .mapType, .punct '=', .word .f64, .punct ',', .word .scale, .punct '=', .lit (.float (mkRat 1 5000000000000000000000000000000000000000000))]⟩], .path [.i16]⟩,
      ⟨"reserved3", [], .array (.path [.u8]) (.int 2)⟩] }

/-- `ublox/src/ubx_packets/packets.rs:3581-3603` -/
def rxmRawxInfo_decl : StructDecl :=
  { kind := .recv, name := "RxmRawxInfo",
    attrs := [⟨.ubx, .paren [.word .class_, .punct '=', .lit (.int 2), .punct ',', .word .id, .punct '=', .lit (.int 21), .punct ',', .word .fixedPayloadLen, .punct '=', .lit (.int 32)]⟩, ⟨(.name "derive"), .other⟩],
    fields := some [
      ⟨"pr_mes", [], .path [.f64]⟩,
      ⟨"cp_mes", [], .path [.f64]⟩,
      ⟨"do_mes", [], .path [.f32]⟩,
      ⟨"gnss_id", [], .path [.u8]⟩,
      ⟨"sv_id", [], .path [.u8]⟩,
      ⟨"reserved2", [], .path [.u8]⟩,
      ⟨"freq_id", [], .path [.u8]⟩,
      ⟨"lock_time", [], .path [.u16]⟩,
      ⟨"cno", [], .path [.u8]⟩,
      ⟨"pr_stdev", [⟨.ubx, .paren [.word .mapType, .punct '=', .word (.name "StdevFlags")]⟩], .path [.u8]⟩,
      ⟨"cp_stdev", [⟨.ubx, .paren [.word .mapType, .punct '=', .word (.name "StdevFlags")]⟩], .path [.u8]⟩,
      ⟨"do_stdev", [⟨.ubx, .paren [.word .mapType, .punct '=', .word (.name "StdevFlags")]⟩], .path [.u8]⟩,
      ⟨"trk_stat", [⟨.ubx, .paren [.word .mapType, .punct '=', .word (.name "TrkStatFlags")]⟩], .path [.u8]⟩,
      ⟨"reserved3", [], .path [.u8]⟩] }

/-- `ublox/src/ubx_packets/packets.rs:3651-3657` -/
def secUniqId_decl : StructDecl :=
  { kind := .recv, name := "SecUniqId",
    attrs := [doc, ⟨.ubx, .paren [.word .class_, .punct '=', .lit (.int 39), .punct ',', .word .id, .punct '=', .lit (.int 3), .punct ',', .word .fixedPayloadLen, .punct '=', .lit (.int 9)]⟩],
    fields := some [
      ⟨"version", [], .path [.u8]⟩,
      ⟨"reserved1", [], .array (.path [.u8]) (.int 3)⟩,
      ⟨"unique_id", [], .array (.path [.u8]) (.int 5)⟩] }

/-- `ublox/src/ubx_packets/packets.rs:470-481` -/
def gpsFix_decl : EnumDecl :=
  { name := "GpsFix",
    attrs := [doc, ⟨.ubx, .paren [.word .from_, .punct ',', .word .restReserved]⟩, ⟨.repr, .paren [.word .u8]⟩, ⟨(.name "derive"), .other⟩],
    variants := [
      ⟨"NoFix", true, some (.int 0)⟩,
      ⟨"DeadReckoningOnly", true, some (.int 1)⟩,
      ⟨"Fix2D", true, some (.int 2)⟩,
      ⟨"Fix3D", true, some (.int 3)⟩,
      ⟨"GPSPlusDeadReckoning", true, some (.int 4)⟩,
      ⟨"TimeOnlyFix", true, some (.int 5)⟩] }

/-- `ublox/src/ubx_packets/packets.rs:549-558` -/
def navStatusFlags2_decl : EnumDecl :=
  { name := "NavStatusFlags2",
    attrs := [doc, doc, ⟨.ubx, .paren [.word .from_, .punct ',', .word .restReserved]⟩, ⟨.repr, .paren [.word .u8]⟩, ⟨(.name "derive"), .other⟩],
    variants := [
      ⟨"Acquisition", true, some (.int 0)⟩,
      ⟨"Tracking", true, some (.int 1)⟩,
      ⟨"PowerOptimizedTracking", true, some (.int 2)⟩,
      ⟨"Inactive", true, some (.int 3)⟩] }

/-- `ublox/src/ubx_packets/packets.rs:847-858` -/
def odoProfile_decl : EnumDecl :=
  { name := "OdoProfile",
    attrs := [doc, ⟨(.name "derive"), .other⟩, ⟨.ubx, .paren [.word .fromUnchecked, .punct ',', .word .intoRaw, .punct ',', .word .restError]⟩, ⟨.repr, .paren [.word .u8]⟩, ⟨(.name "derive"), .other⟩],
    variants := [
      ⟨"Running", true, some (.int 0)⟩,
      ⟨"Cycling", true, some (.int 1)⟩,
      ⟨"Swimming", true, some (.int 2)⟩,
      ⟨"Car", true, some (.int 3)⟩,
      ⟨"Custom", true, some (.int 4)⟩] }

/-- `ublox/src/ubx_packets/packets.rs:1065-1078` -/
def cfgItfmAntennaSettings_decl : EnumDecl :=
  { name := "CfgItfmAntennaSettings",
    attrs := [doc, doc, ⟨(.name "derive"), .other⟩, ⟨.ubx, .paren [.word .fromUnchecked, .punct ',', .word .intoRaw, .punct ',', .word .restError]⟩, ⟨.repr, .paren [.word .u8]⟩, ⟨(.name "derive"), .other⟩, ⟨(.name "cfg_attr"), .other⟩],
    variants := [
      ⟨"Unknown", true, some (.int 0)⟩,
      ⟨"Active", true, some (.int 1)⟩,
      ⟨"Passive", true, some (.int 2)⟩] }

/-- `ublox/src/ubx_packets/packets.rs:1411-1419` -/
def cfgTp5TimePulseMode_decl : EnumDecl :=
  { name := "CfgTp5TimePulseMode",
    attrs := [doc, ⟨(.name "derive"), .other⟩, ⟨.ubx, .paren [.word .fromUnchecked, .punct ',', .word .intoRaw, .punct ',', .word .restError]⟩, ⟨.repr, .paren [.word .u8]⟩, ⟨(.name "derive"), .other⟩],
    variants := [
      ⟨"TimePulse", true, some (.int 0)⟩,
      ⟨"TimePulse2", true, some (.int 1)⟩] }

/-- `ublox/src/ubx_packets/packets.rs:1461-1472` -/
def cfgTmode2TimeXferModes_decl : EnumDecl :=
  { name := "CfgTmode2TimeXferModes",
    attrs := [doc, ⟨(.name "derive"), .other⟩, ⟨.ubx, .paren [.word .fromUnchecked, .punct ',', .word .intoRaw, .punct ',', .word .restError]⟩, ⟨.repr, .paren [.word .u8]⟩, ⟨(.name "derive"), .other⟩],
    variants := [
      ⟨"Disabled", true, some (.int 0)⟩,
      ⟨"SurveyIn", true, some (.int 1)⟩,
      ⟨"FixedMode", true, some (.int 2)⟩] }

/-- `ublox/src/ubx_packets/packets.rs:1862-1869` -/
def i2cPortId_decl : EnumDecl :=
  { name := "I2cPortId",
    attrs := [doc, ⟨(.name "derive"), .other⟩, ⟨.ubx, .paren [.word .fromUnchecked, .punct ',', .word .intoRaw, .punct ',', .word .restError]⟩, ⟨.repr, .paren [.word .u8]⟩, ⟨(.name "derive"), .other⟩],
    variants := [
      ⟨"I2c", true, some (.int 0)⟩] }

/-- `ublox/src/ubx_packets/packets.rs:1891-1899` -/
def uartPortId_decl : EnumDecl :=
  { name := "UartPortId",
    attrs := [doc, ⟨.ubx, .paren [.word .fromUnchecked, .punct ',', .word .intoRaw, .punct ',', .word .restError]⟩, ⟨.repr, .paren [.word .u8]⟩, ⟨(.name "derive"), .other⟩],
    variants := [
      ⟨"Uart1", true, some (.int 1)⟩,
      ⟨"Uart2", true, some (.int 2)⟩,
      ⟨"Usb", true, some (.int 3)⟩] }

/-- `ublox/src/ubx_packets/packets.rs:2098-2105` -/
def spiPortId_decl : EnumDecl :=
  { name := "SpiPortId",
    attrs := [doc, ⟨(.name "derive"), .other⟩, ⟨.ubx, .paren [.word .fromUnchecked, .punct ',', .word .intoRaw, .punct ',', .word .restError]⟩, ⟨.repr, .paren [.word .u8]⟩, ⟨(.name "derive"), .other⟩],
    variants := [
      ⟨"Spi", true, some (.int 4)⟩] }

/-- `ublox/src/ubx_packets/packets.rs:2338-2356` -/
def cfgNav5DynModel_decl : EnumDecl :=
  { name := "CfgNav5DynModel",
    attrs := [doc, ⟨(.name "derive"), .other⟩, ⟨.ubx, .paren [.word .fromUnchecked, .punct ',', .word .intoRaw, .punct ',', .word .restError]⟩, ⟨.repr, .paren [.word .u8]⟩, ⟨(.name "derive"), .other⟩],
    variants := [
      ⟨"Portable", true, some (.int 0)⟩,
      ⟨"Stationary", true, some (.int 2)⟩,
      ⟨"Pedestrian", true, some (.int 3)⟩,
      ⟨"Automotive", true, some (.int 4)⟩,
      ⟨"Sea", true, some (.int 5)⟩,
      ⟨"AirborneWithLess1gAcceleration", true, some (.int 6)⟩,
      ⟨"AirborneWithLess2gAcceleration", true, some (.int 7)⟩,
      ⟨"AirborneWith4gAcceleration", true, some (.int 8)⟩,
      ⟨"WristWornWatch", true, some (.int 9)⟩,
      ⟨"Bike", true, some (.int 10)⟩] }

/-- `ublox/src/ubx_packets/packets.rs:2360-2369` -/
def cfgNav5FixMode_decl : EnumDecl :=
  { name := "CfgNav5FixMode",
    attrs := [doc, ⟨(.name "derive"), .other⟩, ⟨.ubx, .paren [.word .fromUnchecked, .punct ',', .word .intoRaw, .punct ',', .word .restError]⟩, ⟨.repr, .paren [.word .u8]⟩, ⟨(.name "derive"), .other⟩],
    variants := [
      ⟨"Only2D", true, some (.int 1)⟩,
      ⟨"Only3D", true, some (.int 2)⟩,
      ⟨"Auto2D3D", true, some (.int 3)⟩] }

/-- `ublox/src/ubx_packets/packets.rs:2373-2389` -/
def cfgNav5UtcStandard_decl : EnumDecl :=
  { name := "CfgNav5UtcStandard",
    attrs := [doc, ⟨(.name "derive"), .other⟩, ⟨.ubx, .paren [.word .fromUnchecked, .punct ',', .word .intoRaw, .punct ',', .word .restError]⟩, ⟨.repr, .paren [.word .u8]⟩, ⟨(.name "derive"), .other⟩],
    variants := [
      ⟨"Automatic", true, some (.int 0)⟩,
      ⟨"Usno", true, some (.int 3)⟩,
      ⟨"UtcSu", true, some (.int 6)⟩,
      ⟨"UtcChina", true, some (.int 7)⟩] }

/-- `ublox/src/ubx_packets/packets.rs:2601-2613` -/
def msgAckInfoCode_decl : EnumDecl :=
  { name := "MsgAckInfoCode",
    attrs := [⟨.ubx, .paren [.word .from_, .punct ',', .word .restReserved]⟩, ⟨.repr, .paren [.word .u8]⟩, ⟨(.name "derive"), .other⟩],
    variants := [
      ⟨"Accepted", true, some (.int 0)⟩,
      ⟨"RejectedNoTime", true, some (.int 1)⟩,
      ⟨"RejectedBadVersion", true, some (.int 2)⟩,
      ⟨"RejectedBadSize", true, some (.int 3)⟩,
      ⟨"RejectedDBStoreFailed", true, some (.int 4)⟩,
      ⟨"RejectedNotReady", true, some (.int 5)⟩,
      ⟨"RejectedUnknownType", true, some (.int 6)⟩] }

/-- `ublox/src/ubx_packets/packets.rs:2989-2999` -/
def antennaStatus_decl : EnumDecl :=
  { name := "AntennaStatus",
    attrs := [⟨.ubx, .paren [.word .from_, .punct ',', .word .restReserved]⟩, ⟨.repr, .paren [.word .u8]⟩, ⟨(.name "derive"), .other⟩],
    variants := [
      ⟨"Init", true, some (.int 0)⟩,
      ⟨"DontKnow", true, some (.int 1)⟩,
      ⟨"Ok", true, some (.int 2)⟩,
      ⟨"Short", true, some (.int 3)⟩,
      ⟨"Open", true, some (.int 4)⟩] }

/-- `ublox/src/ubx_packets/packets.rs:3040-3048` -/
def antennaPower_decl : EnumDecl :=
  { name := "AntennaPower",
    attrs := [⟨.ubx, .paren [.word .from_, .punct ',', .word .restReserved]⟩, ⟨.repr, .paren [.word .u8]⟩, ⟨(.name "derive"), .other⟩],
    variants := [
      ⟨"Off", true, some (.int 0)⟩,
      ⟨"On", true, some (.int 1)⟩,
      ⟨"DontKnow", true, some (.int 2)⟩] }

/-- `ublox/src/ubx_packets/packets.rs:170-178` -/
def navHpPosEcefFlags_decl : FlagsDecl :=
  { attrs := [⟨.ubx, .paren [.word .from_, .punct ',', .word .intoRaw, .punct ',', .word .restReserved]⟩],
    tokens := [.attr, .kw .pub, .kw .struct, .word (.name "NavHpPosEcefFlags"), .punct ':', .word .u8, .punct '{',
      .kw .const, .word (.name "INVALID_ECEF"), .punct '=', .lit (.int 1), .punct ';', .punct '}'] }

/-- `ublox/src/ubx_packets/packets.rs:308-323` -/
def navPvtFlags_decl : FlagsDecl :=
  { attrs := [⟨.ubx, .paren [.word .from_, .punct ',', .word .restReserved]⟩],
    tokens := [.attr, .attr, .kw .pub, .kw .struct, .word (.name "NavPvtFlags"), .punct ':', .word .u8, .punct '{', .attr,
      .kw .const, .word (.name "GPS_FIX_OK"), .punct '=', .lit (.int 1), .punct ';', .attr,
      .kw .const, .word (.name "DIFF_SOLN"), .punct '=', .lit (.int 2), .punct ';', .attr,
      .kw .const, .word (.name "HEAD_VEH_VALID"), .punct '=', .lit (.int 32), .punct ';',
      .kw .const, .word (.name "CARR_SOLN_FLOAT"), .punct '=', .lit (.int 64), .punct ';',
      .kw .const, .word (.name "CARR_SOLN_FIXED"), .punct '=', .lit (.int 128), .punct ';', .punct '}'] }

/-- `ublox/src/ubx_packets/packets.rs:325-342` -/
def navPvtFlags2_decl : FlagsDecl :=
  { attrs := [⟨.ubx, .paren [.word .from_, .punct ',', .word .restReserved]⟩],
    tokens := [.attr, .attr, .kw .pub, .kw .struct, .word (.name "NavPvtFlags2"), .punct ':', .word .u8, .punct '{', .attr, .attr, .attr,
      .kw .const, .word (.name "CONFIRMED_AVAI"), .punct '=', .lit (.int 32), .punct ';', .attr, .attr,
      .kw .const, .word (.name "CONFIRMED_DATE"), .punct '=', .lit (.int 64), .punct ';', .attr, .attr,
      .kw .const, .word (.name "CONFIRMED_TIME"), .punct '=', .lit (.int 128), .punct ';', .punct '}'] }

/-- `ublox/src/ubx_packets/packets.rs:483-498` -/
def navStatusFlags_decl : FlagsDecl :=
  { attrs := [⟨.ubx, .paren [.word .from_, .punct ',', .word .restReserved]⟩],
    tokens := [.attr, .attr, .kw .pub, .kw .struct, .word (.name "NavStatusFlags"), .punct ':', .word .u8, .punct '{', .attr,
      .kw .const, .word (.name "GPS_FIX_OK"), .punct '=', .lit (.int 1), .punct ';', .attr,
      .kw .const, .word (.name "DIFF_SOLN"), .punct '=', .lit (.int 2), .punct ';', .attr,
      .kw .const, .word (.name "WKN_SET"), .punct '=', .lit (.int 4), .punct ';', .attr,
      .kw .const, .word (.name "TOW_SET"), .punct '=', .lit (.int 8), .punct ';', .punct '}'] }

/-- `ublox/src/ubx_packets/packets.rs:829-843` -/
def odoCogFilterFlags_decl : FlagsDecl :=
  { attrs := [⟨.ubx, .paren [.word .from_, .punct ',', .word .intoRaw, .punct ',', .word .restReserved]⟩],
    tokens := [.attr, .kw .pub, .kw .struct, .word (.name "OdoCogFilterFlags"), .punct ':', .word .u8, .punct '{', .attr,
      .kw .const, .word (.name "USE_ODO"), .punct '=', .lit (.int 1), .punct ';', .attr,
      .kw .const, .word (.name "USE_COG"), .punct '=', .lit (.int 2), .punct ';', .attr,
      .kw .const, .word (.name "OUT_LP_VEL"), .punct '=', .lit (.int 4), .punct ';', .attr,
      .kw .const, .word (.name "OUT_LP_COG"), .punct '=', .lit (.int 8), .punct ';', .punct '}'] }

/-- `ublox/src/ubx_packets/packets.rs:1116-1128` -/
def cfgInfMask_decl : FlagsDecl :=
  { attrs := [⟨.ubx, .paren [.word .from_, .punct ',', .word .intoRaw, .punct ',', .word .restReserved]⟩],
    tokens := [.attr, .attr, .kw .pub, .kw .struct, .word (.name "CfgInfMask"), .punct ':', .word .u8, .punct '{',
      .kw .const, .word (.name "ERROR"), .punct '=', .lit (.int 1), .punct ';',
      .kw .const, .word (.name "WARNING"), .punct '=', .lit (.int 2), .punct ';',
      .kw .const, .word (.name "NOTICE"), .punct '=', .lit (.int 4), .punct ';',
      .kw .const, .word (.name "TEST"), .punct '=', .lit (.int 8), .punct ';',
      .kw .const, .word (.name "DEBUG"), .punct '=', .lit (.int 16), .punct ';', .punct '}'] }

/-- `ublox/src/ubx_packets/packets.rs:1346-1362` -/
def antFlags_decl : FlagsDecl :=
  { attrs := [⟨.ubx, .paren [.word .from_, .punct ',', .word .intoRaw, .punct ',', .word .restReserved]⟩],
    tokens := [.attr, .kw .pub, .kw .struct, .word (.name "AntFlags"), .punct ':', .word .u16, .punct '{', .attr,
      .kw .const, .word (.name "SVCS"), .punct '=', .lit (.int 1), .punct ';', .attr,
      .kw .const, .word (.name "SCD"), .punct '=', .lit (.int 2), .punct ';', .attr,
      .kw .const, .word (.name "OCD"), .punct '=', .lit (.int 4), .punct ';', .attr,
      .kw .const, .word (.name "PDWN_ON_SCD"), .punct '=', .lit (.int 8), .punct ';', .attr,
      .kw .const, .word (.name "RECOVERY"), .punct '=', .lit (.int 16), .punct ';', .punct '}'] }

/-- `ublox/src/ubx_packets/packets.rs:1474-1485` -/
def cfgTmode2Flags_decl : FlagsDecl :=
  { attrs := [⟨.ubx, .paren [.word .from_, .punct ',', .word .intoRaw, .punct ',', .word .restReserved]⟩],
    tokens := [.attr, .kw .pub, .kw .struct, .word (.name "CfgTmode2Flags"), .punct ':', .word .u16, .punct '{', .attr, .attr,
      .kw .const, .word (.name "LLA"), .punct '=', .lit (.int 1), .punct ';', .attr,
      .kw .const, .word (.name "ALT_INVALID"), .punct '=', .lit (.int 2), .punct ';', .punct '}'] }

/-- `ublox/src/ubx_packets/packets.rs:1562-1574` -/
def navTimeLsFlags_decl : FlagsDecl :=
  { attrs := [⟨.ubx, .paren [.word .from_, .punct ',', .word .restReserved]⟩],
    tokens := [.attr, .attr, .kw .pub, .kw .struct, .word (.name "NavTimeLsFlags"), .punct ':', .word .u8, .punct '{', .attr,
      .kw .const, .word (.name "VALID_CURR_LS"), .punct '=', .lit (.int 1), .punct ';', .attr, .attr,
      .kw .const, .word (.name "VALID_TIME_TO_LS_EVENT"), .punct '=', .lit (.int 2), .punct ';', .punct '}'] }

/-- `ublox/src/ubx_packets/packets.rs:1632-1642` -/
def cfgTmode3RcvrMode_decl : FlagsDecl :=
  { attrs := [⟨.ubx, .paren [.word .from_, .punct ',', .word .intoRaw, .punct ',', .word .restReserved]⟩],
    tokens := [.attr, .kw .pub, .kw .struct, .word (.name "CfgTmode3RcvrMode"), .punct ':', .word .u8, .punct '{',
      .kw .const, .word (.name "DISABLED"), .punct '=', .lit (.int 1), .punct ';',
      .kw .const, .word (.name "SURVEY_IN"), .punct '=', .lit (.int 2), .punct ';', .attr,
      .kw .const, .word (.name "FIXED_MODE"), .punct '=', .lit (.int 4), .punct ';', .punct '}'] }

/-- `ublox/src/ubx_packets/packets.rs:1644-1693` -/
def cfgTp5Flags_decl : FlagsDecl :=
  { attrs := [⟨.ubx, .paren [.word .from_, .punct ',', .word .intoRaw, .punct ',', .word .restReserved]⟩],
    tokens := [.attr, .kw .pub, .kw .struct, .word (.name "CfgTp5Flags"), .punct ':', .word .u32, .punct '{',
      .kw .const, .word (.name "ACTIVE"), .punct '=', .lit (.int 1), .punct ';', .attr, .attr, .attr,
      .kw .const, .word (.name "LOCK_GNSS_FREQ"), .punct '=', .lit (.int 2), .punct ';', .attr, .attr, .attr,
      .kw .const, .word (.name "LOCKED_OTHER_SET"), .punct '=', .lit (.int 4), .punct ';', .attr, .attr,
      .kw .const, .word (.name "IS_FREQ"), .punct '=', .lit (.int 8), .punct ';', .attr,
      .kw .const, .word (.name "IS_LENGTH"), .punct '=', .lit (.int 16), .punct ';', .attr, .attr, .attr,
      .kw .const, .word (.name "ALIGN_TO_TOW"), .punct '=', .lit (.int 32), .punct ';', .attr, .attr, .attr,
      .kw .const, .word (.name "POLARITY"), .punct '=', .lit (.int 64), .punct ';', .attr,
      .kw .const, .word (.name "UTC_TIME_GRID"), .punct '=', .lit (.int 128), .punct ';', .attr,
      .kw .const, .word (.name "GPS_TIME_GRID"), .punct '=', .lit (.int 256), .punct ';', .attr,
      .kw .const, .word (.name "GLO_TIME_GRID"), .punct '=', .lit (.int 512), .punct ';', .attr,
      .kw .const, .word (.name "BDS_TIME_GRID"), .punct '=', .lit (.int 1024), .punct ';', .attr, .attr,
      .kw .const, .word (.name "GAL_TIME_GRID"), .punct '=', .lit (.int 2048), .punct ';', .attr, .attr, .attr,
      .kw .const, .word (.name "SYNC_MODE_0"), .punct '=', .lit (.int 4096), .punct ';', .attr, .attr, .attr, .attr,
      .kw .const, .word (.name "SYNC_MODE_1"), .punct '=', .lit (.int 8192), .punct ';', .punct '}'] }

/-- `ublox/src/ubx_packets/packets.rs:1695-1704` -/
def cfgTmode3Flags_decl : FlagsDecl :=
  { attrs := [⟨.ubx, .paren [.word .from_, .punct ',', .word .intoRaw, .punct ',', .word .restReserved]⟩],
    tokens := [.attr, .kw .pub, .kw .struct, .word (.name "CfgTmode3Flags"), .punct ':', .word .u8, .punct '{', .attr, .attr,
      .kw .const, .word (.name "LLA"), .punct '=', .lit (.int 1), .punct ';', .punct '}'] }

/-- `ublox/src/ubx_packets/packets.rs:1706-1725` -/
def navBbrMask_decl : FlagsDecl :=
  { attrs := [⟨.ubx, .paren [.word .intoRaw, .punct ',', .word .restReserved]⟩],
    tokens := [.attr, .kw .pub, .kw .struct, .word (.name "NavBbrMask"), .punct ':', .word .u16, .punct '{',
      .kw .const, .word (.name "EPHEMERIS"), .punct '=', .lit (.int 1), .punct ';',
      .kw .const, .word (.name "ALMANACH"), .punct '=', .lit (.int 2), .punct ';',
      .kw .const, .word (.name "HEALTH"), .punct '=', .lit (.int 4), .punct ';',
      .kw .const, .word (.name "KLOBUCHARD"), .punct '=', .lit (.int 8), .punct ';',
      .kw .const, .word (.name "POSITION"), .punct '=', .lit (.int 16), .punct ';',
      .kw .const, .word (.name "CLOCK_DRIFT"), .punct '=', .lit (.int 32), .punct ';',
      .kw .const, .word (.name "OSCILATOR_PARAMETER"), .punct '=', .lit (.int 64), .punct ';',
      .kw .const, .word (.name "UTC_CORRECTION_PARAMETERS"), .punct '=', .lit (.int 128), .punct ';',
      .kw .const, .word (.name "RTC"), .punct '=', .lit (.int 256), .punct ';',
      .kw .const, .word (.name "SFDR_PARAMETERS"), .punct '=', .lit (.int 2048), .punct ';',
      .kw .const, .word (.name "SFDR_VEHICLE_MONITORING_PARAMETERS"), .punct '=', .lit (.int 4096), .punct ';',
      .kw .const, .word (.name "TCT_PARAMETERS"), .punct '=', .lit (.int 8192), .punct ';',
      .kw .const, .word (.name "AUTONOMOUS_ORBIT_PARAMETERS"), .punct '=', .lit (.int 32768), .punct ';', .punct '}'] }

/-- `ublox/src/ubx_packets/packets.rs:1818-1827` -/
def cfgLayer_decl : FlagsDecl :=
  { attrs := [⟨.ubx, .paren [.word .from_, .punct ',', .word .intoRaw, .punct ',', .word .restReserved]⟩],
    tokens := [.attr, .kw .pub, .kw .struct, .word (.name "CfgLayer"), .punct ':', .word .u8, .punct '{',
      .kw .const, .word (.name "RAM"), .punct '=', .lit (.int 1), .punct ';',
      .kw .const, .word (.name "BBR"), .punct '=', .lit (.int 2), .punct ';',
      .kw .const, .word (.name "FLASH"), .punct '=', .lit (.int 4), .punct ';', .punct '}'] }

/-- `ublox/src/ubx_packets/packets.rs:2061-2077` -/
def inProtoMask_decl : FlagsDecl :=
  { attrs := [⟨.ubx, .paren [.word .from_, .punct ',', .word .intoRaw, .punct ',', .word .restReserved]⟩],
    tokens := [.attr, .attr, .attr, .attr, .attr, .kw .pub, .kw .struct, .word (.name "InProtoMask"), .punct ':', .word .u16, .punct '{',
      .kw .const, .word (.name "UBLOX"), .punct '=', .lit (.int 1), .punct ';',
      .kw .const, .word (.name "NMEA"), .punct '=', .lit (.int 2), .punct ';',
      .kw .const, .word (.name "RTCM"), .punct '=', .lit (.int 4), .punct ';', .attr, .attr,
      .kw .const, .word (.name "RTCM3"), .punct '=', .lit (.int 32), .punct ';', .punct '}'] }

/-- `ublox/src/ubx_packets/packets.rs:2079-2094` -/
def outProtoMask_decl : FlagsDecl :=
  { attrs := [⟨.ubx, .paren [.word .from_, .punct ',', .word .intoRaw, .punct ',', .word .restReserved]⟩],
    tokens := [.attr, .attr, .attr, .attr, .attr, .kw .pub, .kw .struct, .word (.name "OutProtoMask"), .punct ':', .word .u16, .punct '{',
      .kw .const, .word (.name "UBLOX"), .punct '=', .lit (.int 1), .punct ';',
      .kw .const, .word (.name "NMEA"), .punct '=', .lit (.int 2), .punct ';', .attr, .attr,
      .kw .const, .word (.name "RTCM3"), .punct '=', .lit (.int 32), .punct ';', .punct '}'] }

/-- `ublox/src/ubx_packets/packets.rs:2141-2154` -/
def navTimeUtcFlags_decl : FlagsDecl :=
  { attrs := [⟨.ubx, .paren [.word .from_, .punct ',', .word .restReserved]⟩],
    tokens := [.attr, .attr, .kw .pub, .kw .struct, .word (.name "NavTimeUtcFlags"), .punct ':', .word .u8, .punct '{', .attr,
      .kw .const, .word (.name "VALID_TOW"), .punct '=', .lit (.int 1), .punct ';', .attr,
      .kw .const, .word (.name "VALID_WKN"), .punct '=', .lit (.int 2), .punct ';', .attr,
      .kw .const, .word (.name "VALID_UTC"), .punct '=', .lit (.int 4), .punct ';', .punct '}'] }

/-- `ublox/src/ubx_packets/packets.rs:2307-2334` -/
def cfgNav5Params_decl : FlagsDecl :=
  { attrs := [⟨.ubx, .paren [.word .from_, .punct ',', .word .intoRaw, .punct ',', .word .restReserved]⟩],
    tokens := [.attr, .attr, .kw .pub, .kw .struct, .word (.name "CfgNav5Params"), .punct ':', .word .u16, .punct '{', .attr,
      .kw .const, .word (.name "DYN"), .punct '=', .lit (.int 1), .punct ';', .attr,
      .kw .const, .word (.name "MIN_EL"), .punct '=', .lit (.int 2), .punct ';', .attr,
      .kw .const, .word (.name "POS_FIX_MODE"), .punct '=', .lit (.int 4), .punct ';', .attr,
      .kw .const, .word (.name "DR_LIM"), .punct '=', .lit (.int 8), .punct ';', .attr,
      .kw .const, .word (.name "POS_MASK_APPLY"), .punct '=', .lit (.int 16), .punct ';', .attr,
      .kw .const, .word (.name "TIME_MASK"), .punct '=', .lit (.int 32), .punct ';', .attr,
      .kw .const, .word (.name "STATIC_HOLD_MASK"), .punct '=', .lit (.int 64), .punct ';', .attr,
      .kw .const, .word (.name "DGPS_MASK"), .punct '=', .lit (.int 128), .punct ';', .attr,
      .kw .const, .word (.name "CNO_THRESHOLD"), .punct '=', .lit (.int 256), .punct ';', .attr,
      .kw .const, .word (.name "UTC"), .punct '=', .lit (.int 1024), .punct ';', .punct '}'] }

/-- `ublox/src/ubx_packets/packets.rs:2543-2564` -/
def cfgNavX5Params1_decl : FlagsDecl :=
  { attrs := [⟨.ubx, .paren [.word .from_, .punct ',', .word .intoRaw, .punct ',', .word .restReserved]⟩],
    tokens := [.attr, .attr, .kw .pub, .kw .struct, .word (.name "CfgNavX5Params1"), .punct ':', .word .u16, .punct '{', .attr,
      .kw .const, .word (.name "MIN_MAX"), .punct '=', .lit (.int 4), .punct ';', .attr,
      .kw .const, .word (.name "MIN_CNO"), .punct '=', .lit (.int 8), .punct ';', .attr,
      .kw .const, .word (.name "INITIAL_3D_FIX"), .punct '=', .lit (.int 64), .punct ';', .attr,
      .kw .const, .word (.name "WKN_ROLL"), .punct '=', .lit (.int 512), .punct ';', .attr,
      .kw .const, .word (.name "AID_ACK"), .punct '=', .lit (.int 1024), .punct ';', .attr,
      .kw .const, .word (.name "USE_PPP"), .punct '=', .lit (.int 8192), .punct ';', .attr,
      .kw .const, .word (.name "AOP_CFG"), .punct '=', .lit (.int 16384), .punct ';', .punct '}'] }

/-- `ublox/src/ubx_packets/packets.rs:2566-2577` -/
def cfgNavX5Params2_decl : FlagsDecl :=
  { attrs := [⟨.ubx, .paren [.word .from_, .punct ',', .word .intoRaw, .punct ',', .word .restReserved]⟩],
    tokens := [.attr, .attr, .kw .pub, .kw .struct, .word (.name "CfgNavX5Params2"), .punct ':', .word .u32, .punct '{', .attr,
      .kw .const, .word (.name "USE_ADR"), .punct '=', .lit (.int 64), .punct ';', .attr,
      .kw .const, .word (.name "USE_SIG_ATTEN_COMP"), .punct '=', .lit (.int 128), .punct ';', .punct '}'] }

/-- `ublox/src/ubx_packets/packets.rs:2951-2962` -/
def recStatFlags_decl : FlagsDecl :=
  { attrs := [⟨.ubx, .paren [.word .from_, .punct ',', .word .intoRaw, .punct ',', .word .restReserved]⟩],
    tokens := [.attr, .attr, .kw .pub, .kw .struct, .word (.name "RecStatFlags"), .punct ':', .word .u8, .punct '{', .attr,
      .kw .const, .word (.name "LEAP_SEC"), .punct '=', .lit (.int 1), .punct ';', .attr,
      .kw .const, .word (.name "CLK_RESET"), .punct '=', .lit (.int 2), .punct ';', .punct '}'] }

/-- `ublox/src/ubx_packets/packets.rs:3023-3038` -/
def monGnssConstellMask_decl : FlagsDecl :=
  { attrs := [⟨.ubx, .paren [.word .from_, .punct ',', .word .intoRaw, .punct ',', .word .restReserved]⟩],
    tokens := [.attr, .attr, .kw .pub, .kw .struct, .word (.name "MonGnssConstellMask"), .punct ':', .word .u8, .punct '{', .attr,
      .kw .const, .word (.name "GPS"), .punct '=', .lit (.int 1), .punct ';', .attr,
      .kw .const, .word (.name "GLO"), .punct '=', .lit (.int 2), .punct ';', .attr,
      .kw .const, .word (.name "BDC"), .punct '=', .lit (.int 4), .punct ';', .attr,
      .kw .const, .word (.name "GAL"), .punct '=', .lit (.int 8), .punct ';', .punct '}'] }

/-- `ublox/src/ubx_packets/packets.rs:3279-3292` -/
def esfInsBitFlags_decl : FlagsDecl :=
  { attrs := [⟨.ubx, .paren [.word .from_, .punct ',', .word .restReserved]⟩],
    tokens := [.attr, .kw .pub, .kw .struct, .word (.name "EsfInsBitFlags"), .punct ':', .word .u32, .punct '{',
      .kw .const, .word (.name "VERSION"), .punct '=', .lit (.int 1), .punct ';',
      .kw .const, .word (.name "X_ANG_RATE_VALID"), .punct '=', .lit (.int 256), .punct ';',
      .kw .const, .word (.name "Y_ANG_RATE_VALID"), .punct '=', .lit (.int 512), .punct ';',
      .kw .const, .word (.name "Z_ANG_RATE_VALID"), .punct '=', .lit (.int 1024), .punct ';',
      .kw .const, .word (.name "X_ACCEL_VALID"), .punct '=', .lit (.int 2048), .punct ';',
      .kw .const, .word (.name "Y_ACCEL_VALID"), .punct '=', .lit (.int 4096), .punct ';',
      .kw .const, .word (.name "Z_ACCEL_VALID"), .punct '=', .lit (.int 8192), .punct ';', .punct '}'] }

/-- `ublox/src/ubx_packets/packets.rs:3341-3354` -/
def hnrInsBitFlags_decl : FlagsDecl :=
  { attrs := [⟨.ubx, .paren [.word .from_, .punct ',', .word .restReserved]⟩],
    tokens := [.attr, .kw .pub, .kw .struct, .word (.name "HnrInsBitFlags"), .punct ':', .word .u32, .punct '{',
      .kw .const, .word (.name "VERSION"), .punct '=', .lit (.int 1), .punct ';',
      .kw .const, .word (.name "X_ANG_RATE_VALID"), .punct '=', .lit (.int 256), .punct ';',
      .kw .const, .word (.name "Y_ANG_RATE_VALID"), .punct '=', .lit (.int 512), .punct ';',
      .kw .const, .word (.name "Z_ANG_RATE_VALID"), .punct '=', .lit (.int 1024), .punct ';',
      .kw .const, .word (.name "X_ACCEL_VALID"), .punct '=', .lit (.int 2048), .punct ';',
      .kw .const, .word (.name "Y_ACCEL_VALID"), .punct '=', .lit (.int 4096), .punct ';',
      .kw .const, .word (.name "Z_ACCEL_VALID"), .punct '=', .lit (.int 8192), .punct ';', .punct '}'] }

/-- `ublox/src/ubx_packets/packets.rs:3443-3458` -/
def hnrPvtFlags_decl : FlagsDecl :=
  { attrs := [⟨.ubx, .paren [.word .from_, .punct ',', .word .restReserved]⟩],
    tokens := [.attr, .attr, .kw .pub, .kw .struct, .word (.name "HnrPvtFlags"), .punct ':', .word .u8, .punct '{', .attr,
      .kw .const, .word (.name "GPS_FIX_OK"), .punct '=', .lit (.int 1), .punct ';', .attr,
      .kw .const, .word (.name "DIFF_SOLN"), .punct '=', .lit (.int 2), .punct ';', .attr,
      .kw .const, .word (.name "WKN_SET"), .punct '=', .lit (.int 4), .punct ';',
      .kw .const, .word (.name "TOW_SET"), .punct '=', .lit (.int 8), .punct ';',
      .kw .const, .word (.name "HEAD_VEH_VALID"), .punct '=', .lit (.int 16), .punct ';', .punct '}'] }

/-- `ublox/src/ubx_packets/packets.rs:3460-3469` -/
def hnrPvtValidFlags_decl : FlagsDecl :=
  { attrs := [⟨.ubx, .paren [.word .from_, .punct ',', .word .restReserved]⟩],
    tokens := [.attr, .kw .pub, .kw .struct, .word (.name "HnrPvtValidFlags"), .punct ':', .word .u8, .punct '{',
      .kw .const, .word (.name "VALID_DATE"), .punct '=', .lit (.int 1), .punct ';',
      .kw .const, .word (.name "VALID_TIME"), .punct '=', .lit (.int 2), .punct ';',
      .kw .const, .word (.name "FULLY_RESOLVED"), .punct '=', .lit (.int 4), .punct ';', .punct '}'] }

/-- `ublox/src/ubx_packets/packets.rs:3605-3615` -/
def stdevFlags_decl : FlagsDecl :=
  { attrs := [⟨.ubx, .paren [.word .from_, .punct ',', .word .restReserved]⟩],
    tokens := [.attr, .kw .pub, .kw .struct, .word (.name "StdevFlags"), .punct ':', .word .u8, .punct '{',
      .kw .const, .word (.name "STD_1"), .punct '=', .lit (.int 1), .punct ';',
      .kw .const, .word (.name "STD_2"), .punct '=', .lit (.int 2), .punct ';',
      .kw .const, .word (.name "STD_3"), .punct '=', .lit (.int 4), .punct ';',
      .kw .const, .word (.name "STD_4"), .punct '=', .lit (.int 8), .punct ';', .punct '}'] }

/-- `ublox/src/ubx_packets/packets.rs:3617-3627` -/
def trkStatFlags_decl : FlagsDecl :=
  { attrs := [⟨.ubx, .paren [.word .from_, .punct ',', .word .restReserved]⟩],
    tokens := [.attr, .kw .pub, .kw .struct, .word (.name "TrkStatFlags"), .punct ':', .word .u8, .punct '{',
      .kw .const, .word (.name "PR_VALID"), .punct '=', .lit (.int 1), .punct ';',
      .kw .const, .word (.name "CP_VALID"), .punct '=', .lit (.int 2), .punct ';',
      .kw .const, .word (.name "HALF_CYCLE"), .punct '=', .lit (.int 4), .punct ';',
      .kw .const, .word (.name "SUB_HALF_CYCLE"), .punct '=', .lit (.int 8), .punct ';', .punct '}'] }

/-- All packet declarations of `ublox/src/ubx_packets/packets.rs`. -/
def packetDecls : List StructDecl :=
  [navPosLlh_decl,
    navVelNed_decl,
    navHpPosLlh_decl,
    navHpPosEcef_decl,
    navPvt_decl,
    navStatus_decl,
    navDop_decl,
    navEoe_decl,
    navSolution_decl,
    navSatSvInfo_decl,
    navSat_decl,
    navOdo_decl,
    navResetOdo_decl,
    cfgOdo_decl,
    cfgItfm_decl,
    cfgInf_decl,
    infError_decl,
    infNotice_decl,
    infTest_decl,
    infWarning_decl,
    infDebug_decl,
    aidIni_decl,
    alpSrv_decl,
    ackAck_decl,
    ackNak_decl,
    cfgRst_decl,
    cfgAnt_decl,
    cfgTp5_decl,
    cfgTmode2_decl,
    timSvin_decl,
    navTimeLs_decl,
    cfgTmode3_decl,
    cfgValSet_decl,
    cfgPrtI2c_decl,
    cfgPrtUart_decl,
    cfgPrtSpi_decl,
    navTimeUTC_decl,
    cfgRate_decl,
    cfgMsgSinglePort_decl,
    cfgMsgAllPorts_decl,
    cfgNav5_decl,
    cfgNavX5_decl,
    mgaAck_decl,
    mgaGloEph_decl,
    mgaGpsIono_decl,
    mgaGpsEph_decl,
    timTp_decl,
    timTm2_decl,
    rxmRawx_decl,
    monHw_decl,
    monGnss_decl,
    monVer_decl,
    rxmRtcm_decl,
    esfMeas_decl,
    esfRaw_decl,
    esfIns_decl,
    hnrAtt_decl,
    hnrIns_decl,
    hnrPvt_decl,
    navAtt_decl,
    navClock_decl,
    rxmSfrbx_decl,
    navVelECEF_decl,
    mgaGpsEPH_decl,
    rxmRawxInfo_decl,
    secUniqId_decl]

/-- All enum declarations of `ublox/src/ubx_packets/packets.rs`. -/
def enumDecls : List EnumDecl :=
  [gpsFix_decl,
    navStatusFlags2_decl,
    odoProfile_decl,
    cfgItfmAntennaSettings_decl,
    cfgTp5TimePulseMode_decl,
    cfgTmode2TimeXferModes_decl,
    i2cPortId_decl,
    uartPortId_decl,
    spiPortId_decl,
    cfgNav5DynModel_decl,
    cfgNav5FixMode_decl,
    cfgNav5UtcStandard_decl,
    msgAckInfoCode_decl,
    antennaStatus_decl,
    antennaPower_decl]

/-- All flags declarations of `ublox/src/ubx_packets/packets.rs`. -/
def flagsDecls : List FlagsDecl :=
  [navHpPosEcefFlags_decl,
    navPvtFlags_decl,
    navPvtFlags2_decl,
    navStatusFlags_decl,
    odoCogFilterFlags_decl,
    cfgInfMask_decl,
    antFlags_decl,
    cfgTmode2Flags_decl,
    navTimeLsFlags_decl,
    cfgTmode3RcvrMode_decl,
    cfgTp5Flags_decl,
    cfgTmode3Flags_decl,
    navBbrMask_decl,
    cfgLayer_decl,
    inProtoMask_decl,
    outProtoMask_decl,
    navTimeUtcFlags_decl,
    cfgNav5Params_decl,
    cfgNavX5Params1_decl,
    cfgNavX5Params2_decl,
    recStatFlags_decl,
    monGnssConstellMask_decl,
    esfInsBitFlags_decl,
    hnrInsBitFlags_decl,
    hnrPvtFlags_decl,
    hnrPvtValidFlags_decl,
    stdevFlags_decl,
    trkStatFlags_decl]

/-- The argument of `define_recv_packets!`, `ublox/src/ubx_packets/packets.rs:3659-3718`. -/
def recvDecl : List Tok :=
  [.kw .enum,
    .word (.name "PacketRef"), .punct '{', .punct '_', .punct '=',
    .word (.name "UbxUnknownPacketRef"), .punct ',',
    .word (.name "NavPosLlh"), .punct ',',
    .word (.name "NavStatus"), .punct ',',
    .word (.name "NavDop"), .punct ',',
    .word (.name "NavPvt"), .punct ',',
    .word (.name "NavSolution"), .punct ',',
    .word (.name "NavVelNed"), .punct ',',
    .word (.name "NavHpPosLlh"), .punct ',',
    .word (.name "NavHpPosEcef"), .punct ',',
    .word (.name "NavTimeUTC"), .punct ',',
    .word (.name "NavTimeLs"), .punct ',',
    .word (.name "NavSat"), .punct ',',
    .word (.name "NavEoe"), .punct ',',
    .word (.name "NavOdo"), .punct ',',
    .word (.name "CfgOdo"), .punct ',',
    .word (.name "MgaAck"), .punct ',',
    .word (.name "MgaGpsIono"), .punct ',',
    .word (.name "MgaGpsEph"), .punct ',',
    .word (.name "MgaGloEph"), .punct ',',
    .word (.name "AlpSrv"), .punct ',',
    .word (.name "AckAck"), .punct ',',
    .word (.name "AckNak"), .punct ',',
    .word (.name "CfgItfm"), .punct ',',
    .word (.name "CfgPrtI2c"), .punct ',',
    .word (.name "CfgPrtSpi"), .punct ',',
    .word (.name "CfgPrtUart"), .punct ',',
    .word (.name "CfgNav5"), .punct ',',
    .word (.name "CfgAnt"), .punct ',',
    .word (.name "CfgTmode2"), .punct ',',
    .word (.name "CfgTmode3"), .punct ',',
    .word (.name "CfgTp5"), .punct ',',
    .word (.name "InfError"), .punct ',',
    .word (.name "InfWarning"), .punct ',',
    .word (.name "InfNotice"), .punct ',',
    .word (.name "InfTest"), .punct ',',
    .word (.name "InfDebug"), .punct ',',
    .word (.name "RxmRawx"), .punct ',',
    .word (.name "TimTp"), .punct ',',
    .word (.name "TimTm2"), .punct ',',
    .word (.name "MonVer"), .punct ',',
    .word (.name "MonGnss"), .punct ',',
    .word (.name "MonHw"), .punct ',',
    .word (.name "RxmRtcm"), .punct ',',
    .word (.name "EsfMeas"), .punct ',',
    .word (.name "EsfIns"), .punct ',',
    .word (.name "HnrAtt"), .punct ',',
    .word (.name "HnrIns"), .punct ',',
    .word (.name "HnrPvt"), .punct ',',
    .word (.name "NavAtt"), .punct ',',
    .word (.name "NavClock"), .punct ',',
    .word (.name "NavVelECEF"), .punct ',',
    .word (.name "MgaGpsEPH"), .punct ',',
    .word (.name "RxmSfrbx"), .punct ',',
    .word (.name "EsfRaw"), .punct ',',
    .word (.name "TimSvin"), .punct ',',
    .word (.name "SecUniqId"), .punct ',', .punct '}']

end Ublox.Gen
