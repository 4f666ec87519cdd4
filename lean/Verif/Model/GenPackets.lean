import Verif.Model.Pack
import Verif.Model.GenTypes

/-! Generated by `tools/gen.py` from the text of `/repo`; do not edit. -/

namespace Ublox.Gen

/-- `ublox/src/ubx_packets/packets.rs:38-67` -/
def navPosLlh_ : PackDesc :=
  { name := "NavPosLlh", kind := .recv, cls := 0x1, id := 0x2, payloadLen := .fixed 28, defaultForBuilder := false,
    fields := [
      { name := "itow", ty := .u32 },
      { name := "lon", ty := .i32, map := some (.f64), scale := some (mkRat 1 10000000), alias := some "lon_degrees" },
      { name := "lat", ty := .i32, map := some (.f64), scale := some (mkRat 1 10000000), alias := some "lat_degrees" },
      { name := "height_meters", ty := .i32, map := some (.f64), scale := some (mkRat 1 1000) },
      { name := "height_msl", ty := .i32, map := some (.f64), scale := some (mkRat 1 1000) },
      { name := "h_ack", ty := .u32, map := some (.f64), scale := some (mkRat 1 1000) },
      { name := "v_acc", ty := .u32, map := some (.f64), scale := some (mkRat 1 1000) }] }

/-- `ublox/src/ubx_packets/packets.rs:70-107` -/
def navVelNed_ : PackDesc :=
  { name := "NavVelNed", kind := .recv, cls := 0x1, id := 0x12, payloadLen := .fixed 36, defaultForBuilder := false,
    fields := [
      { name := "itow", ty := .u32 },
      { name := "vel_north", ty := .i32, map := some (.f64), scale := some (mkRat 1 100) },
      { name := "vel_east", ty := .i32, map := some (.f64), scale := some (mkRat 1 100) },
      { name := "vel_down", ty := .i32, map := some (.f64), scale := some (mkRat 1 100) },
      { name := "speed_3d", ty := .u32, map := some (.f64), scale := some (mkRat 1 100) },
      { name := "ground_speed", ty := .u32, map := some (.f64), scale := some (mkRat 1 100) },
      { name := "heading", ty := .i32, map := some (.f64), scale := some (mkRat 1 100000), alias := some "heading_degrees" },
      { name := "speed_accuracy_estimate", ty := .u32, map := some (.f64), scale := some (mkRat 1 100) },
      { name := "course_heading_accuracy_estimate", ty := .u32, map := some (.f64), scale := some (mkRat 1 100000) }] }

/-- `ublox/src/ubx_packets/packets.rs:110-168` -/
def navHpPosLlh_ : PackDesc :=
  { name := "NavHpPosLlh", kind := .recv, cls := 0x1, id := 0x14, payloadLen := .fixed 36, defaultForBuilder := false,
    fields := [
      { name := "version", ty := .u8 },
      { name := "reserved1", ty := .bytes 3 },
      { name := "itow", ty := .u32 },
      { name := "lon", ty := .i32, map := some (.f64), scale := some (mkRat 1 10000000), alias := some "lon_degrees" },
      { name := "lat", ty := .i32, map := some (.f64), scale := some (mkRat 1 10000000), alias := some "lat_degrees" },
      { name := "height_meters", ty := .i32, map := some (.f64), scale := some (mkRat 1 1000) },
      { name := "height_msl", ty := .i32, map := some (.f64), scale := some (mkRat 1 1000) },
      { name := "lon_hp", ty := .i8, map := some (.f64), scale := some (mkRat 1 1000000000), alias := some "lon_hp_degrees" },
      { name := "lat_hp", ty := .i8, map := some (.f64), scale := some (mkRat 1 1000000000), alias := some "lat_hp_degrees" },
      { name := "height_hp_meters", ty := .i8, map := some (.f64), scale := some (mkRat 1 10) },
      { name := "height_hp_msl", ty := .i8, map := some (.f64), scale := some (mkRat 1 10) },
      { name := "horizontal_accuracy", ty := .u32, map := some (.f64), scale := some (mkRat 1 10) },
      { name := "vertical_accuracy", ty := .u32, map := some (.f64), scale := some (mkRat 1 10) }] }

/-- `ublox/src/ubx_packets/packets.rs:181-228` -/
def navHpPosEcef_ : PackDesc :=
  { name := "NavHpPosEcef", kind := .recv, cls := 0x1, id := 0x13, payloadLen := .fixed 28, defaultForBuilder := false,
    fields := [
      { name := "version", ty := .u8 },
      { name := "reserved1", ty := .bytes 3 },
      { name := "itow", ty := .u32 },
      { name := "ecef_x", ty := .i32, map := some (.f64), alias := some "ecef_x_cm" },
      { name := "ecef_y", ty := .i32, map := some (.f64), alias := some "ecef_y_cm" },
      { name := "ecef_z", ty := .i32, map := some (.f64), alias := some "ecef_z_cm" },
      { name := "ecef_x_hp", ty := .i8, map := some (.f64), scale := some (mkRat 1 10), alias := some "ecef_x_hp_mm" },
      { name := "ecef_y_hp", ty := .i8, map := some (.f64), scale := some (mkRat 1 10), alias := some "ecef_y_hp_mm" },
      { name := "ecef_z_hp", ty := .i8, map := some (.f64), scale := some (mkRat 1 10), alias := some "ecef_z_hp_mm" },
      { name := "flags", ty := .u8, map := some (.flags navHpPosEcefFlags_) },
      { name := "p_acc", ty := .u32, map := some (.f64), scale := some (mkRat 1 10) }] }

/-- `ublox/src/ubx_packets/packets.rs:231-306` -/
def navPvt_ : PackDesc :=
  { name := "NavPvt", kind := .recv, cls := 0x1, id := 0x7, payloadLen := .fixed 92, defaultForBuilder := false,
    fields := [
      { name := "itow", ty := .u32 },
      { name := "year", ty := .u16 },
      { name := "month", ty := .u8 },
      { name := "day", ty := .u8 },
      { name := "hour", ty := .u8 },
      { name := "min", ty := .u8 },
      { name := "sec", ty := .u8 },
      { name := "valid", ty := .u8 },
      { name := "time_accuracy", ty := .u32 },
      { name := "nanosecond", ty := .i32 },
      { name := "fix_type", ty := .u8, map := some (.enum gpsFix_) },
      { name := "flags", ty := .u8, map := some (.flags navPvtFlags_) },
      { name := "flags2", ty := .u8, map := some (.flags navPvtFlags2_) },
      { name := "num_satellites", ty := .u8 },
      { name := "lon", ty := .i32, map := some (.f64), scale := some (mkRat 1 10000000), alias := some "lon_degrees" },
      { name := "lat", ty := .i32, map := some (.f64), scale := some (mkRat 1 10000000), alias := some "lat_degrees" },
      { name := "height_meters", ty := .i32, map := some (.f64), scale := some (mkRat 1 1000) },
      { name := "height_msl", ty := .i32, map := some (.f64), scale := some (mkRat 1 1000) },
      { name := "horiz_accuracy", ty := .u32 },
      { name := "vert_accuracy", ty := .u32 },
      { name := "vel_north", ty := .i32, map := some (.f64), scale := some (mkRat 1 1000) },
      { name := "vel_east", ty := .i32, map := some (.f64), scale := some (mkRat 1 1000) },
      { name := "vel_down", ty := .i32, map := some (.f64), scale := some (mkRat 1 1000) },
      { name := "ground_speed", ty := .u32, map := some (.f64), scale := some (mkRat 1 1000) },
      { name := "heading", ty := .i32, map := some (.f64), scale := some (mkRat 1 100000), alias := some "heading_degrees" },
      { name := "speed_accuracy_estimate", ty := .u32, map := some (.f64), scale := some (mkRat 1 1000) },
      { name := "heading_accuracy_estimate", ty := .u32, map := some (.f64), scale := some (mkRat 1 100000) },
      { name := "pdop", ty := .u16 },
      { name := "reserved1", ty := .bytes 6 },
      { name := "heading_of_vehicle", ty := .i32, map := some (.f64), scale := some (mkRat 1 100000), alias := some "heading_of_vehicle_degrees" },
      { name := "magnetic_declination", ty := .i16, map := some (.f64), scale := some (mkRat 1 100), alias := some "magnetic_declination_degrees" },
      { name := "magnetic_declination_accuracy", ty := .u16, map := some (.f64), scale := some (mkRat 1 100), alias := some "magnetic_declination_accuracy_degrees" }] }

/-- `ublox/src/ubx_packets/packets.rs:345-374` -/
def navStatus_ : PackDesc :=
  { name := "NavStatus", kind := .recv, cls := 0x1, id := 0x3, payloadLen := .fixed 16, defaultForBuilder := false,
    fields := [
      { name := "itow", ty := .u32 },
      { name := "fix_type", ty := .u8, map := some (.enum gpsFix_) },
      { name := "flags", ty := .u8, map := some (.flags navStatusFlags_) },
      { name := "fix_stat", ty := .u8, map := some (.fixStatusInfo) },
      { name := "flags2", ty := .u8, map := some (.enum navStatusFlags2_) },
      { name := "time_to_first_fix", ty := .u32 },
      { name := "uptime_ms", ty := .u32 }] }

/-- `ublox/src/ubx_packets/packets.rs:377-396` -/
def navDop_ : PackDesc :=
  { name := "NavDop", kind := .recv, cls := 0x1, id := 0x4, payloadLen := .fixed 18, defaultForBuilder := false,
    fields := [
      { name := "itow", ty := .u32 },
      { name := "geometric_dop", ty := .u16, map := some (.f32), scale := some (mkRat 1 100) },
      { name := "position_dop", ty := .u16, map := some (.f32), scale := some (mkRat 1 100) },
      { name := "time_dop", ty := .u16, map := some (.f32), scale := some (mkRat 1 100) },
      { name := "vertical_dop", ty := .u16, map := some (.f32), scale := some (mkRat 1 100) },
      { name := "horizontal_dop", ty := .u16, map := some (.f32), scale := some (mkRat 1 100) },
      { name := "northing_dop", ty := .u16, map := some (.f32), scale := some (mkRat 1 100) },
      { name := "easting_dop", ty := .u16, map := some (.f32), scale := some (mkRat 1 100) }] }

/-- `ublox/src/ubx_packets/packets.rs:399-404` -/
def navEoe_ : PackDesc :=
  { name := "NavEoe", kind := .recv, cls := 0x1, id := 0x61, payloadLen := .fixed 4, defaultForBuilder := false,
    fields := [
      { name := "itow", ty := .u32 }] }

/-- `ublox/src/ubx_packets/packets.rs:407-467` -/
def navSolution_ : PackDesc :=
  { name := "NavSolution", kind := .recv, cls := 0x1, id := 0x6, payloadLen := .fixed 52, defaultForBuilder := false,
    fields := [
      { name := "itow", ty := .u32 },
      { name := "ftow_ns", ty := .i32 },
      { name := "week", ty := .i16 },
      { name := "fix_type", ty := .u8, map := some (.enum gpsFix_) },
      { name := "flags", ty := .u8, map := some (.flags navStatusFlags_) },
      { name := "ecef_x", ty := .i32, map := some (.f64), scale := some (mkRat 1 100) },
      { name := "ecef_y", ty := .i32, map := some (.f64), scale := some (mkRat 1 100) },
      { name := "ecef_z", ty := .i32, map := some (.f64), scale := some (mkRat 1 100) },
      { name := "position_accuracy_estimate", ty := .u32, map := some (.f64), scale := some (mkRat 1 100) },
      { name := "ecef_vx", ty := .i32, map := some (.f64), scale := some (mkRat 1 100) },
      { name := "ecef_vy", ty := .i32, map := some (.f64), scale := some (mkRat 1 100) },
      { name := "ecef_vz", ty := .i32, map := some (.f64), scale := some (mkRat 1 100) },
      { name := "speed_accuracy_estimate", ty := .u32, map := some (.f64), scale := some (mkRat 1 100) },
      { name := "pdop", ty := .u16, map := some (.f32), scale := some (mkRat 1 100) },
      { name := "reserved1", ty := .u8 },
      { name := "num_sv", ty := .u8 },
      { name := "reserved2", ty := .bytes 4 }] }

/-- `ublox/src/ubx_packets/packets.rs:720-732` -/
def navSatSvInfo_ : PackDesc :=
  { name := "NavSatSvInfo", kind := .recv, cls := 0x1, id := 0x35, payloadLen := .fixed 12, defaultForBuilder := false,
    fields := [
      { name := "gnss_id", ty := .u8 },
      { name := "sv_id", ty := .u8 },
      { name := "cno", ty := .u8 },
      { name := "elev", ty := .i8 },
      { name := "azim", ty := .i16 },
      { name := "pr_res", ty := .i16 },
      { name := "flags", ty := .u32, map := some (.navSatSvFlags) }] }

/-- `ublox/src/ubx_packets/packets.rs:764-785` -/
def navSat_ : PackDesc :=
  { name := "NavSat", kind := .recv, cls := 0x1, id := 0x35, payloadLen := .max 1240, defaultForBuilder := false,
    fields := [
      { name := "itow", ty := .u32 },
      { name := "version", ty := .u8 },
      { name := "num_svs", ty := .u8 },
      { name := "reserved", ty := .bytes 2 },
      { name := "svs", ty := .tail, map := some (.iter .navSat), mayFail := true, getAsRef := true }] }

/-- `ublox/src/ubx_packets/packets.rs:788-797` -/
def navOdo_ : PackDesc :=
  { name := "NavOdo", kind := .recv, cls := 0x1, id := 0x9, payloadLen := .fixed 20, defaultForBuilder := false,
    fields := [
      { name := "version", ty := .u8 },
      { name := "reserved", ty := .bytes 3 },
      { name := "itow", ty := .u32 },
      { name := "distance", ty := .u32 },
      { name := "total_distance", ty := .u32 },
      { name := "distance_std", ty := .u32 }] }

/-- `ublox/src/ubx_packets/packets.rs:800-802` -/
def navResetOdo_ : PackDesc :=
  { name := "NavResetOdo", kind := .send, cls := 0x1, id := 0x10, payloadLen := .fixed 0, defaultForBuilder := false,
    fields := [
      ] }

/-- `ublox/src/ubx_packets/packets.rs:805-827` -/
def cfgOdo_ : PackDesc :=
  { name := "CfgOdo", kind := .recvSend, cls := 0x6, id := 0x1e, payloadLen := .fixed 20, defaultForBuilder := true,
    fields := [
      { name := "version", ty := .u8 },
      { name := "reserved", ty := .bytes 3 },
      { name := "flags", ty := .u8, map := some (.flags odoCogFilterFlags_) },
      { name := "odo_cfg", ty := .u8, map := some (.enum odoProfile_), mayFail := true },
      { name := "reserved2", ty := .bytes 6 },
      { name := "cog_max_speed", ty := .u8 },
      { name := "cog_max_pos_acc", ty := .u8 },
      { name := "reserved3", ty := .bytes 2 },
      { name := "vel_lp_gain", ty := .u8 },
      { name := "cog_lp_gain", ty := .u8 },
      { name := "reserved4", ty := .bytes 2 }] }

/-- `ublox/src/ubx_packets/packets.rs:861-870` -/
def cfgItfm_ : PackDesc :=
  { name := "CfgItfm", kind := .recvSend, cls := 0x6, id := 0x39, payloadLen := .fixed 8, defaultForBuilder := false,
    fields := [
      { name := "config", ty := .u32, map := some (.itfmConfig) },
      { name := "config2", ty := .u32, map := some (.itfmConfig2) }] }

/-- `ublox/src/ubx_packets/packets.rs:1092-1114` -/
def cfgInf_ : PackDesc :=
  { name := "CfgInf", kind := .recvSend, cls := 0x6, id := 0x2, payloadLen := .fixed 10, defaultForBuilder := true,
    fields := [
      { name := "protocol_id", ty := .u8 },
      { name := "reserved", ty := .bytes 3 },
      { name := "inf_msg_mask_0", ty := .u8, map := some (.flags cfgInfMask_) },
      { name := "inf_msg_mask_1", ty := .u8, map := some (.flags cfgInfMask_) },
      { name := "inf_msg_mask_2", ty := .u8, map := some (.flags cfgInfMask_) },
      { name := "inf_msg_mask_3", ty := .u8, map := some (.flags cfgInfMask_) },
      { name := "inf_msg_mask_4", ty := .u8, map := some (.flags cfgInfMask_) },
      { name := "inf_msg_mask_5", ty := .u8, map := some (.flags cfgInfMask_) }] }

/-- `ublox/src/ubx_packets/packets.rs:1130-1144` -/
def infError_ : PackDesc :=
  { name := "InfError", kind := .recv, cls := 0x4, id := 0x0, payloadLen := .max 1240, defaultForBuilder := true,
    fields := [
      { name := "message", ty := .tail, map := some (.infStr), mayFail := true, getAsRef := true }] }

/-- `ublox/src/ubx_packets/packets.rs:1146-1160` -/
def infNotice_ : PackDesc :=
  { name := "InfNotice", kind := .recv, cls := 0x4, id := 0x2, payloadLen := .max 1240, defaultForBuilder := true,
    fields := [
      { name := "message", ty := .tail, map := some (.infStr), mayFail := true, getAsRef := true }] }

/-- `ublox/src/ubx_packets/packets.rs:1162-1176` -/
def infTest_ : PackDesc :=
  { name := "InfTest", kind := .recv, cls := 0x4, id := 0x3, payloadLen := .max 1240, defaultForBuilder := true,
    fields := [
      { name := "message", ty := .tail, map := some (.infStr), mayFail := true, getAsRef := true }] }

/-- `ublox/src/ubx_packets/packets.rs:1178-1192` -/
def infWarning_ : PackDesc :=
  { name := "InfWarning", kind := .recv, cls := 0x4, id := 0x1, payloadLen := .max 1240, defaultForBuilder := true,
    fields := [
      { name := "message", ty := .tail, map := some (.infStr), mayFail := true, getAsRef := true }] }

/-- `ublox/src/ubx_packets/packets.rs:1194-1208` -/
def infDebug_ : PackDesc :=
  { name := "InfDebug", kind := .recv, cls := 0x4, id := 0x4, payloadLen := .max 1240, defaultForBuilder := true,
    fields := [
      { name := "message", ty := .tail, map := some (.infStr), mayFail := true, getAsRef := true }] }

/-- `ublox/src/ubx_packets/packets.rs:1224-1245` -/
def aidIni_ : PackDesc :=
  { name := "AidIni", kind := .send, cls := 0xb, id := 0x1, payloadLen := .fixed 48, defaultForBuilder := true,
    fields := [
      { name := "ecef_x_or_lat", ty := .i32 },
      { name := "ecef_y_or_lon", ty := .i32 },
      { name := "ecef_z_or_alt", ty := .i32 },
      { name := "pos_accuracy", ty := .u32 },
      { name := "time_cfg", ty := .u16 },
      { name := "week_or_ym", ty := .u16 },
      { name := "tow_or_hms", ty := .u32 },
      { name := "tow_ns", ty := .i32 },
      { name := "tm_accuracy_ms", ty := .u32 },
      { name := "tm_accuracy_ns", ty := .u32 },
      { name := "clk_drift_or_freq", ty := .i32 },
      { name := "clk_drift_or_freq_accuracy", ty := .u32 },
      { name := "flags", ty := .u32 }] }

/-- `ublox/src/ubx_packets/packets.rs:1272-1284` -/
def alpSrv_ : PackDesc :=
  { name := "AlpSrv", kind := .recv, cls := 0xb, id := 0x32, payloadLen := .fixed 16, defaultForBuilder := false,
    fields := [
      { name := "id_size", ty := .u8 },
      { name := "data_type", ty := .u8 },
      { name := "offset", ty := .u16 },
      { name := "size", ty := .u16 },
      { name := "file_id", ty := .u16 },
      { name := "data_size", ty := .u16 },
      { name := "id1", ty := .u8 },
      { name := "id2", ty := .u8 },
      { name := "id3", ty := .u32 }] }

/-- `ublox/src/ubx_packets/packets.rs:1288-1296` -/
def ackAck_ : PackDesc :=
  { name := "AckAck", kind := .recv, cls := 0x5, id := 0x1, payloadLen := .fixed 2, defaultForBuilder := false,
    fields := [
      { name := "class", ty := .u8 },
      { name := "msg_id", ty := .u8 }] }

/-- `ublox/src/ubx_packets/packets.rs:1305-1313` -/
def ackNak_ : PackDesc :=
  { name := "AckNak", kind := .recv, cls := 0x5, id := 0x0, payloadLen := .fixed 2, defaultForBuilder := false,
    fields := [
      { name := "class", ty := .u8 },
      { name := "msg_id", ty := .u8 }] }

/-- `ublox/src/ubx_packets/packets.rs:1322-1333` -/
def cfgRst_ : PackDesc :=
  { name := "CfgRst", kind := .send, cls := 0x6, id := 0x4, payloadLen := .fixed 4, defaultForBuilder := false,
    fields := [
      { name := "nav_bbr_mask", ty := .u16, map := some (.flags navBbrMask_) },
      { name := "reset_mode", ty := .u8, map := some (.resetMode) },
      { name := "reserved1", ty := .u8 }] }

/-- `ublox/src/ubx_packets/packets.rs:1336-1344` -/
def cfgAnt_ : PackDesc :=
  { name := "CfgAnt", kind := .recvSend, cls := 0x6, id := 0x13, payloadLen := .fixed 4, defaultForBuilder := false,
    fields := [
      { name := "flags", ty := .u16, map := some (.flags antFlags_) },
      { name := "pins", ty := .u16 }] }

/-- `ublox/src/ubx_packets/packets.rs:1365-1407` -/
def cfgTp5_ : PackDesc :=
  { name := "CfgTp5", kind := .recvSend, cls := 0x6, id := 0x31, payloadLen := .fixed 32, defaultForBuilder := true,
    fields := [
      { name := "tp_idx", ty := .u8, map := some (.enum cfgTp5TimePulseMode_), mayFail := true },
      { name := "version", ty := .u8 },
      { name := "reserved1", ty := .bytes 2 },
      { name := "ant_cable_delay", ty := .i16, map := some (.f32), scale := some (mkRat 1 1) },
      { name := "rf_group_delay", ty := .i16, map := some (.f32), scale := some (mkRat 1 1) },
      { name := "freq_period", ty := .u32, map := some (.f64), scale := some (mkRat 1 1) },
      { name := "freq_period_lock", ty := .u32, map := some (.f64), scale := some (mkRat 1 1) },
      { name := "pulse_len_ratio", ty := .u32, map := some (.f64), scale := some (mkRat 1 1) },
      { name := "pulse_len_ratio_lock", ty := .u32, map := some (.f64), scale := some (mkRat 1 1) },
      { name := "user_delay", ty := .i32, map := some (.f64), scale := some (mkRat 1 1) },
      { name := "flags", ty := .u32, map := some (.flags cfgTp5Flags_) }] }

/-- `ublox/src/ubx_packets/packets.rs:1423-1457` -/
def cfgTmode2_ : PackDesc :=
  { name := "CfgTmode2", kind := .recvSend, cls := 0x6, id := 0x3d, payloadLen := .fixed 28, defaultForBuilder := true,
    fields := [
      { name := "time_transfer_mode", ty := .u8, map := some (.enum cfgTmode2TimeXferModes_), mayFail := true },
      { name := "reserved1", ty := .u8 },
      { name := "flags", ty := .u16, map := some (.flags cfgTmode2Flags_) },
      { name := "ecef_x_or_lat", ty := .i32, map := some (.f64), scale := some (mkRat 1 100) },
      { name := "ecef_y_or_lon", ty := .i32, map := some (.f64), scale := some (mkRat 1 100) },
      { name := "ecef_z_or_alt", ty := .i32, map := some (.f64), scale := some (mkRat 1 100) },
      { name := "fixed_pos_acc", ty := .u32, map := some (.f64), scale := some (mkRat 1 1000) },
      { name := "survey_in_min_duration", ty := .u32 },
      { name := "survery_in_accur_limit", ty := .u32, map := some (.f64), scale := some (mkRat 1 1000) }] }

/-- `ublox/src/ubx_packets/packets.rs:1488-1509` -/
def timSvin_ : PackDesc :=
  { name := "TimSvin", kind := .recv, cls := 0xd, id := 0x4, payloadLen := .fixed 28, defaultForBuilder := false,
    fields := [
      { name := "dur", ty := .u32 },
      { name := "mean_x", ty := .i32 },
      { name := "mean_y", ty := .i32 },
      { name := "mean_z", ty := .i32 },
      { name := "mean_v", ty := .i32 },
      { name := "obs", ty := .u32 },
      { name := "valid", ty := .u8 },
      { name := "active", ty := .u8 },
      { name := "reserved", ty := .bytes 2 }] }

/-- `ublox/src/ubx_packets/packets.rs:1512-1560` -/
def navTimeLs_ : PackDesc :=
  { name := "NavTimeLs", kind := .recv, cls := 0x1, id := 0x26, payloadLen := .fixed 24, defaultForBuilder := false,
    fields := [
      { name := "itow", ty := .u32 },
      { name := "version", ty := .u8 },
      { name := "reserved_1", ty := .bytes 3 },
      { name := "src_of_curr_ls", ty := .u8 },
      { name := "current_ls", ty := .i8 },
      { name := "src_of_ls_change", ty := .u8 },
      { name := "ls_change", ty := .i8 },
      { name := "time_to_ls_event", ty := .i32 },
      { name := "date_of_ls_gps_wn", ty := .u16 },
      { name := "date_of_ls_gps_dn", ty := .u16 },
      { name := "reserved_2", ty := .bytes 3 },
      { name := "valid", ty := .u8, map := some (.flags navTimeLsFlags_) }] }

/-- `ublox/src/ubx_packets/packets.rs:1578-1630` -/
def cfgTmode3_ : PackDesc :=
  { name := "CfgTmode3", kind := .recvSend, cls := 0x6, id := 0x71, payloadLen := .fixed 40, defaultForBuilder := true,
    fields := [
      { name := "version", ty := .u8 },
      { name := "reserved1", ty := .u8 },
      { name := "rcvr_mode", ty := .u8, map := some (.flags cfgTmode3RcvrMode_) },
      { name := "flags", ty := .u8, map := some (.flags cfgTmode3Flags_) },
      { name := "ecef_x_or_lat", ty := .i32, map := some (.f64), scale := some (mkRat 1 100) },
      { name := "ecef_y_or_lon", ty := .i32, map := some (.f64), scale := some (mkRat 1 100) },
      { name := "ecef_z_or_alt", ty := .i32, map := some (.f64), scale := some (mkRat 1 100) },
      { name := "ecef_x_or_lat_hp", ty := .i8, map := some (.f32), scale := some (mkRat 1 1) },
      { name := "ecef_y_or_lon_hp", ty := .i8, map := some (.f32), scale := some (mkRat 1 1) },
      { name := "ecef_z_or_alt_hp", ty := .i8, map := some (.f32), scale := some (mkRat 1 1) },
      { name := "reserved2", ty := .u8 },
      { name := "fixed_pos_acc", ty := .u32, map := some (.f64), scale := some (mkRat 1 10000) },
      { name := "sv_in_min_duration", ty := .u32 },
      { name := "sv_in_accur_limit", ty := .u32, map := some (.f64), scale := some (mkRat 1 10000) },
      { name := "reserved3", ty := .bytes 8 }] }

/-- `ublox/src/ubx_packets/packets.rs:1765-1779` -/
def cfgValSet_ : PackDesc :=
  { name := "CfgValSet", kind := .send, cls := 0x6, id := 0x8a, payloadLen := .max 772, defaultForBuilder := false,
    fields := [
      { name := "version", ty := .u8 },
      { name := "layers", ty := .u8, map := some (.flags cfgLayer_) },
      { name := "reserved1", ty := .u16 },
      { name := "cfg_data", ty := .tail }] }

/-- `ublox/src/ubx_packets/packets.rs:1836-1858` -/
def cfgPrtI2c_ : PackDesc :=
  { name := "CfgPrtI2c", kind := .recvSend, cls := 0x6, id := 0x0, payloadLen := .fixed 20, defaultForBuilder := true,
    fields := [
      { name := "portid", ty := .u8, map := some (.enum i2cPortId_), mayFail := true },
      { name := "reserved1", ty := .u8 },
      { name := "tx_ready", ty := .u16 },
      { name := "mode", ty := .u32 },
      { name := "reserved2", ty := .u32 },
      { name := "in_proto_mask", ty := .u16, map := some (.flags inProtoMask_) },
      { name := "out_proto_mask", ty := .u16, map := some (.flags outProtoMask_) },
      { name := "flags", ty := .u16 },
      { name := "reserved3", ty := .u16 }] }

/-- `ublox/src/ubx_packets/packets.rs:1872-1888` -/
def cfgPrtUart_ : PackDesc :=
  { name := "CfgPrtUart", kind := .recvSend, cls := 0x6, id := 0x0, payloadLen := .fixed 20, defaultForBuilder := false,
    fields := [
      { name := "portid", ty := .u8, map := some (.enum uartPortId_), mayFail := true },
      { name := "reserved0", ty := .u8 },
      { name := "tx_ready", ty := .u16 },
      { name := "mode", ty := .u32, map := some (.uartMode) },
      { name := "baud_rate", ty := .u32 },
      { name := "in_proto_mask", ty := .u16, map := some (.flags inProtoMask_) },
      { name := "out_proto_mask", ty := .u16, map := some (.flags outProtoMask_) },
      { name := "flags", ty := .u16 },
      { name := "reserved5", ty := .u16 }] }

/-- `ublox/src/ubx_packets/packets.rs:2037-2059` -/
def cfgPrtSpi_ : PackDesc :=
  { name := "CfgPrtSpi", kind := .recvSend, cls := 0x6, id := 0x0, payloadLen := .fixed 20, defaultForBuilder := true,
    fields := [
      { name := "portid", ty := .u8, map := some (.enum spiPortId_), mayFail := true },
      { name := "reserved0", ty := .u8 },
      { name := "tx_ready", ty := .u16 },
      { name := "mode", ty := .u32 },
      { name := "reserved3", ty := .u32 },
      { name := "in_proto_mask", ty := .u16, map := some (.flags inProtoMask_) },
      { name := "out_proto_mask", ty := .u16, map := some (.flags outProtoMask_) },
      { name := "flags", ty := .u16 },
      { name := "reserved5", ty := .u16 }] }

/-- `ublox/src/ubx_packets/packets.rs:2108-2139` -/
def navTimeUTC_ : PackDesc :=
  { name := "NavTimeUTC", kind := .recv, cls := 0x1, id := 0x21, payloadLen := .fixed 20, defaultForBuilder := false,
    fields := [
      { name := "itow", ty := .u32 },
      { name := "time_accuracy_estimate_ns", ty := .u32 },
      { name := "nanos", ty := .i32 },
      { name := "year", ty := .u16 },
      { name := "month", ty := .u8 },
      { name := "day", ty := .u8 },
      { name := "hour", ty := .u8 },
      { name := "min", ty := .u8 },
      { name := "sec", ty := .u8 },
      { name := "valid", ty := .u8, map := some (.flags navTimeUtcFlags_) }] }

/-- `ublox/src/ubx_packets/packets.rs:2157-2171` -/
def cfgRate_ : PackDesc :=
  { name := "CfgRate", kind := .send, cls := 0x6, id := 0x8, payloadLen := .fixed 6, defaultForBuilder := false,
    fields := [
      { name := "measure_rate_ms", ty := .u16 },
      { name := "nav_rate", ty := .u16 },
      { name := "time_ref", ty := .u16, map := some (.alignment) }] }

/-- `ublox/src/ubx_packets/packets.rs:2191-2199` -/
def cfgMsgSinglePort_ : PackDesc :=
  { name := "CfgMsgSinglePort", kind := .send, cls := 0x6, id := 0x1, payloadLen := .fixed 3, defaultForBuilder := false,
    fields := [
      { name := "msg_class", ty := .u8 },
      { name := "msg_id", ty := .u8 },
      { name := "rate", ty := .u8 }] }

/-- `ublox/src/ubx_packets/packets.rs:2216-2224` -/
def cfgMsgAllPorts_ : PackDesc :=
  { name := "CfgMsgAllPorts", kind := .send, cls := 0x6, id := 0x1, payloadLen := .fixed 8, defaultForBuilder := false,
    fields := [
      { name := "msg_class", ty := .u8 },
      { name := "msg_id", ty := .u8 },
      { name := "rates", ty := .bytes 6 }] }

/-- `ublox/src/ubx_packets/packets.rs:2238-2305` -/
def cfgNav5_ : PackDesc :=
  { name := "CfgNav5", kind := .recvSend, cls := 0x6, id := 0x24, payloadLen := .fixed 36, defaultForBuilder := true,
    fields := [
      { name := "mask", ty := .u16, map := some (.flags cfgNav5Params_) },
      { name := "dyn_model", ty := .u8, map := some (.enum cfgNav5DynModel_), mayFail := true },
      { name := "fix_mode", ty := .u8, map := some (.enum cfgNav5FixMode_), mayFail := true },
      { name := "fixed_alt", ty := .i32, map := some (.f64), scale := some (mkRat 1 100) },
      { name := "fixed_alt_var", ty := .u32, map := some (.f64), scale := some (mkRat 1 10000) },
      { name := "min_elev_degrees", ty := .i8 },
      { name := "dr_limit", ty := .u8 },
      { name := "pdop", ty := .u16, map := some (.f32), scale := some (mkRat 1 10) },
      { name := "tdop", ty := .u16, map := some (.f32), scale := some (mkRat 1 10) },
      { name := "pacc", ty := .u16 },
      { name := "tacc", ty := .u16 },
      { name := "static_hold_thresh", ty := .u8, map := some (.f32), scale := some (mkRat 1 100) },
      { name := "dgps_time_out", ty := .u8 },
      { name := "cno_thresh_num_svs", ty := .u8 },
      { name := "cno_thresh", ty := .u8 },
      { name := "reserved1", ty := .bytes 2 },
      { name := "static_hold_max_dist", ty := .u16 },
      { name := "utc_standard", ty := .u8, map := some (.enum cfgNav5UtcStandard_), mayFail := true },
      { name := "reserved2", ty := .bytes 5 }] }

/-- `ublox/src/ubx_packets/packets.rs:2470-2541` -/
def cfgNavX5_ : PackDesc :=
  { name := "CfgNavX5", kind := .recvSend, cls := 0x6, id := 0x23, payloadLen := .fixed 40, defaultForBuilder := true,
    fields := [
      { name := "version", ty := .u16 },
      { name := "mask1", ty := .u16, map := some (.flags cfgNavX5Params1_) },
      { name := "mask2", ty := .u32, map := some (.flags cfgNavX5Params2_) },
      { name := "reserved1", ty := .bytes 2 },
      { name := "min_svs", ty := .u8 },
      { name := "max_svs", ty := .u8 },
      { name := "min_cno_dbhz", ty := .u8 },
      { name := "reserved2", ty := .u8 },
      { name := "ini_fix_3d", ty := .u8 },
      { name := "reserved3", ty := .bytes 2 },
      { name := "ack_aiding", ty := .u8 },
      { name := "wkn_rollover", ty := .u16 },
      { name := "sig_atten_comp_mode", ty := .u8 },
      { name := "reserved4", ty := .u8 },
      { name := "reserved5", ty := .bytes 2 },
      { name := "reserved6", ty := .bytes 2 },
      { name := "use_ppp", ty := .u8 },
      { name := "aop_cfg", ty := .u8 },
      { name := "reserved7", ty := .bytes 2 },
      { name := "aop_orb_max_err", ty := .u16 },
      { name := "reserved8", ty := .bytes 4 },
      { name := "reserved9", ty := .bytes 3 },
      { name := "use_adr", ty := .u8 }] }

/-- `ublox/src/ubx_packets/packets.rs:2580-2599` -/
def mgaAck_ : PackDesc :=
  { name := "MgaAck", kind := .recv, cls := 0x13, id := 0x60, payloadLen := .fixed 8, defaultForBuilder := false,
    fields := [
      { name := "ack_type", ty := .u8 },
      { name := "version", ty := .u8 },
      { name := "info_code", ty := .u8, map := some (.enum msgAckInfoCode_) },
      { name := "msg_id", ty := .u8 },
      { name := "msg_payload_start", ty := .bytes 4 }] }

/-- `ublox/src/ubx_packets/packets.rs:2615-2641` -/
def mgaGloEph_ : PackDesc :=
  { name := "MgaGloEph", kind := .recv, cls := 0x13, id := 0x6, payloadLen := .fixed 48, defaultForBuilder := false,
    fields := [
      { name := "msg_type", ty := .u8 },
      { name := "version", ty := .u8 },
      { name := "sv_id", ty := .u8 },
      { name := "reserved1", ty := .u8 },
      { name := "ft", ty := .u8 },
      { name := "b", ty := .u8 },
      { name := "m", ty := .u8 },
      { name := "h", ty := .i8 },
      { name := "x", ty := .i32 },
      { name := "y", ty := .i32 },
      { name := "z", ty := .i32 },
      { name := "dx", ty := .i32 },
      { name := "dy", ty := .i32 },
      { name := "dz", ty := .i32 },
      { name := "ddx", ty := .i8 },
      { name := "ddy", ty := .i8 },
      { name := "ddz", ty := .i8 },
      { name := "tb", ty := .u8 },
      { name := "gamma", ty := .u16 },
      { name := "e", ty := .u8 },
      { name := "delta_tau", ty := .u8 },
      { name := "tau", ty := .i32 },
      { name := "reserved2", ty := .bytes 4 }] }

/-- `ublox/src/ubx_packets/packets.rs:2643-2676` -/
def mgaGpsIono_ : PackDesc :=
  { name := "MgaGpsIono", kind := .recv, cls := 0x13, id := 0x0, payloadLen := .fixed 16, defaultForBuilder := false,
    fields := [
      { name := "msg_type", ty := .u8 },
      { name := "version", ty := .u8 },
      { name := "reserved1", ty := .bytes 2 },
      { name := "alpha0", ty := .i8, map := some (.f64), scale := some (mkRat 1 1) },
      { name := "alpha1", ty := .i8, map := some (.f64), scale := some (mkRat 1 1) },
      { name := "alpha2", ty := .i8, map := some (.f64), scale := some (mkRat 1 1) },
      { name := "alpha3", ty := .i8, map := some (.f64), scale := some (mkRat 1 1) },
      { name := "beta0", ty := .i8, map := some (.f64), scale := some (mkRat 1 1) },
      { name := "beta1", ty := .i8, map := some (.f64), scale := some (mkRat 1 1) },
      { name := "beta2", ty := .i8, map := some (.f64), scale := some (mkRat 1 1) },
      { name := "beta3", ty := .i8, map := some (.f64), scale := some (mkRat 1 1) },
      { name := "reserved2", ty := .bytes 4 }] }

/-- `ublox/src/ubx_packets/packets.rs:2678-2712` -/
def mgaGpsEph_ : PackDesc :=
  { name := "MgaGpsEph", kind := .recv, cls := 0x13, id := 0x0, payloadLen := .fixed 68, defaultForBuilder := false,
    fields := [
      { name := "msg_type", ty := .u8 },
      { name := "version", ty := .u8 },
      { name := "sv_id", ty := .u8 },
      { name := "reserved1", ty := .u8 },
      { name := "fit_interval", ty := .u8 },
      { name := "ura_index", ty := .u8 },
      { name := "sv_health", ty := .u8 },
      { name := "tgd", ty := .i8 },
      { name := "iodc", ty := .u16 },
      { name := "toc", ty := .u16 },
      { name := "reserved2", ty := .u8 },
      { name := "af2", ty := .i8 },
      { name := "af1", ty := .i16 },
      { name := "af0", ty := .i32 },
      { name := "crs", ty := .i16 },
      { name := "delta_n", ty := .i16 },
      { name := "m0", ty := .i32 },
      { name := "cuc", ty := .i16 },
      { name := "cus", ty := .i16 },
      { name := "e", ty := .u32 },
      { name := "sqrt_a", ty := .u32 },
      { name := "toe", ty := .u16 },
      { name := "cic", ty := .i16 },
      { name := "omega0", ty := .i32 },
      { name := "cis", ty := .i16 },
      { name := "crc", ty := .i16 },
      { name := "i0", ty := .i32 },
      { name := "omega", ty := .i32 },
      { name := "omega_dot", ty := .i32 },
      { name := "idot", ty := .i16 },
      { name := "reserved3", ty := .bytes 2 }] }

/-- `ublox/src/ubx_packets/packets.rs:2715-2732` -/
def timTp_ : PackDesc :=
  { name := "TimTp", kind := .recv, cls := 0xd, id := 0x1, payloadLen := .fixed 16, defaultForBuilder := false,
    fields := [
      { name := "tow_ms", ty := .u32 },
      { name := "tow_sub_ms", ty := .u32 },
      { name := "q_err", ty := .i32 },
      { name := "week", ty := .u16 },
      { name := "flags", ty := .u8, map := some (.timTpFlags) },
      { name := "ref_info", ty := .u8, map := some (.timTpRefInfo) }] }

/-- `ublox/src/ubx_packets/packets.rs:2834-2858` -/
def timTm2_ : PackDesc :=
  { name := "TimTm2", kind := .recv, cls := 0xd, id := 0x3, payloadLen := .fixed 28, defaultForBuilder := false,
    fields := [
      { name := "ch", ty := .u8 },
      { name := "flags", ty := .u8, map := some (.timTm2Flags) },
      { name := "count", ty := .u16 },
      { name := "wn_r", ty := .u16 },
      { name := "wn_f", ty := .u16 },
      { name := "tow_ms_r", ty := .u32 },
      { name := "tow_sub_ms_r", ty := .u32 },
      { name := "tow_ms_f", ty := .u32 },
      { name := "tow_sub_ms_f", ty := .u32 },
      { name := "acc_est", ty := .u32 }] }

/-- `ublox/src/ubx_packets/packets.rs:2924-2949` -/
def rxmRawx_ : PackDesc :=
  { name := "RxmRawx", kind := .recv, cls := 0x2, id := 0x15, payloadLen := .max 8176, defaultForBuilder := false,
    fields := [
      { name := "rcv_tow", ty := .f64 },
      { name := "week", ty := .u16 },
      { name := "leap_s", ty := .i8 },
      { name := "num_meas", ty := .u8 },
      { name := "rec_stat", ty := .u8, map := some (.flags recStatFlags_) },
      { name := "version", ty := .u8 },
      { name := "reserved1", ty := .bytes 2 },
      { name := "measurements", ty := .tail, map := some (.iter .rxmRawx), mayFail := true }] }

/-- `ublox/src/ubx_packets/packets.rs:2965-2987` -/
def monHw_ : PackDesc :=
  { name := "MonHw", kind := .recv, cls := 0xa, id := 0x9, payloadLen := .fixed 60, defaultForBuilder := false,
    fields := [
      { name := "pin_sel", ty := .u32 },
      { name := "pin_bank", ty := .u32 },
      { name := "pin_dir", ty := .u32 },
      { name := "pin_val", ty := .u32 },
      { name := "noise_per_ms", ty := .u16 },
      { name := "agc_cnt", ty := .u16 },
      { name := "a_status", ty := .u8, map := some (.enum antennaStatus_) },
      { name := "a_power", ty := .u8, map := some (.enum antennaPower_) },
      { name := "flags", ty := .u8 },
      { name := "reserved1", ty := .u8 },
      { name := "used_mask", ty := .u32 },
      { name := "vp", ty := .bytes 17 },
      { name := "jam_ind", ty := .u8 },
      { name := "reserved2", ty := .bytes 2 },
      { name := "pin_irq", ty := .u32 },
      { name := "pull_h", ty := .u32 },
      { name := "pull_l", ty := .u32 }] }

/-- `ublox/src/ubx_packets/packets.rs:3003-3021` -/
def monGnss_ : PackDesc :=
  { name := "MonGnss", kind := .recv, cls := 0xa, id := 0x28, payloadLen := .fixed 8, defaultForBuilder := false,
    fields := [
      { name := "version", ty := .u8 },
      { name := "supported", ty := .u8, map := some (.flags monGnssConstellMask_) },
      { name := "default", ty := .u8, map := some (.flags monGnssConstellMask_) },
      { name := "enabled", ty := .u8, map := some (.flags monGnssConstellMask_) },
      { name := "simultaneous", ty := .u8 },
      { name := "reserved1", ty := .bytes 3 }] }

/-- `ublox/src/ubx_packets/packets.rs:3081-3096` -/
def monVer_ : PackDesc :=
  { name := "MonVer", kind := .recv, cls := 0xa, id := 0x4, payloadLen := .max 1240, defaultForBuilder := false,
    fields := [
      { name := "software_version", ty := .bytes 30, map := some (.cstr), mayFail := true, getAsRef := true },
      { name := "hardware_version", ty := .bytes 10, map := some (.cstr), mayFail := true, getAsRef := true },
      { name := "extension", ty := .tail, map := some (.iter .monVerExt), mayFail := true }] }

/-- `ublox/src/ubx_packets/packets.rs:3119-3127` -/
def rxmRtcm_ : PackDesc :=
  { name := "RxmRtcm", kind := .recv, cls := 0x2, id := 0x32, payloadLen := .fixed 8, defaultForBuilder := false,
    fields := [
      { name := "version", ty := .u8 },
      { name := "flags", ty := .u8 },
      { name := "sub_type", ty := .u16 },
      { name := "ref_station", ty := .u16 },
      { name := "msg_type", ty := .u16 }] }

/-- `ublox/src/ubx_packets/packets.rs:3129-3149` -/
def esfMeas_ : PackDesc :=
  { name := "EsfMeas", kind := .recv, cls := 0x10, id := 0x2, payloadLen := .max 1240, defaultForBuilder := false,
    fields := [
      { name := "time_tag", ty := .u32 },
      { name := "flags", ty := .u16 },
      { name := "id", ty := .u16 },
      { name := "data", ty := .tail, map := some (.iter .esfMeas), sizeFn := some .dataLen, mayFail := true },
      { name := "calib_tag", ty := .tail, map := some (.calibTag), sizeFn := some .calibTagLen }] }

/-- `ublox/src/ubx_packets/packets.rs:3203-3214` -/
def esfRaw_ : PackDesc :=
  { name := "EsfRaw", kind := .recv, cls := 0x10, id := 0x3, payloadLen := .max 1240, defaultForBuilder := false,
    fields := [
      { name := "msss", ty := .u32 },
      { name := "data", ty := .tail, map := some (.iter .esfRaw), mayFail := true }] }

/-- `ublox/src/ubx_packets/packets.rs:3252-3277` -/
def esfIns_ : PackDesc :=
  { name := "EsfIns", kind := .recv, cls := 0x10, id := 0x15, payloadLen := .fixed 36, defaultForBuilder := false,
    fields := [
      { name := "bit_field", ty := .u32, map := some (.flags esfInsBitFlags_) },
      { name := "reserved", ty := .bytes 4 },
      { name := "itow", ty := .u32 },
      { name := "x_ang_rate", ty := .i32, map := some (.f64), scale := some (mkRat 1 1000), alias := some "x_angular_rate" },
      { name := "y_ang_rate", ty := .i32, map := some (.f64), scale := some (mkRat 1 1000), alias := some "y_angular_rate" },
      { name := "z_ang_rate", ty := .i32, map := some (.f64), scale := some (mkRat 1 1000), alias := some "z_angular_rate" },
      { name := "x_accel", ty := .i32, map := some (.f64), scale := some (mkRat 1 100), alias := some "x_acceleration" },
      { name := "y_accel", ty := .i32, map := some (.f64), scale := some (mkRat 1 100), alias := some "y_acceleration" },
      { name := "z_accel", ty := .i32, map := some (.f64), scale := some (mkRat 1 100), alias := some "z_acceleration" }] }

/-- `ublox/src/ubx_packets/packets.rs:3294-3312` -/
def hnrAtt_ : PackDesc :=
  { name := "HnrAtt", kind := .recv, cls := 0x28, id := 0x1, payloadLen := .fixed 32, defaultForBuilder := false,
    fields := [
      { name := "itow", ty := .u32 },
      { name := "version", ty := .u8 },
      { name := "reserved1", ty := .bytes 3 },
      { name := "roll", ty := .i32, map := some (.f64), scale := some (mkRat 1 100000), alias := some "vehicle_roll" },
      { name := "pitch", ty := .i32, map := some (.f64), scale := some (mkRat 1 100000), alias := some "vehicle_pitch" },
      { name := "heading", ty := .i32, map := some (.f64), scale := some (mkRat 1 100000), alias := some "vehicle_heading" },
      { name := "acc_roll", ty := .u32, map := some (.f64), scale := some (mkRat 1 100000), alias := some "vehicle_roll_accuracy" },
      { name := "acc_pitch", ty := .u32, map := some (.f64), scale := some (mkRat 1 100000), alias := some "vehicle_pitch_accuracy" },
      { name := "acc_heading", ty := .u32, map := some (.f64), scale := some (mkRat 1 100000), alias := some "vehicle_heading_accuracy" }] }

/-- `ublox/src/ubx_packets/packets.rs:3314-3339` -/
def hnrIns_ : PackDesc :=
  { name := "HnrIns", kind := .recv, cls := 0x28, id := 0x2, payloadLen := .fixed 36, defaultForBuilder := false,
    fields := [
      { name := "bit_field", ty := .u32, map := some (.flags hnrInsBitFlags_) },
      { name := "reserved", ty := .bytes 4 },
      { name := "itow", ty := .u32 },
      { name := "x_ang_rate", ty := .i32, map := some (.f64), scale := some (mkRat 1 1000), alias := some "x_angular_rate" },
      { name := "y_ang_rate", ty := .i32, map := some (.f64), scale := some (mkRat 1 1000), alias := some "y_angular_rate" },
      { name := "z_ang_rate", ty := .i32, map := some (.f64), scale := some (mkRat 1 1000), alias := some "z_angular_rate" },
      { name := "x_accel", ty := .i32, map := some (.f64), scale := some (mkRat 1 100), alias := some "x_acceleration" },
      { name := "y_accel", ty := .i32, map := some (.f64), scale := some (mkRat 1 100), alias := some "y_acceleration" },
      { name := "z_accel", ty := .i32, map := some (.f64), scale := some (mkRat 1 100), alias := some "z_acceleration" }] }

/-- `ublox/src/ubx_packets/packets.rs:3356-3411` -/
def hnrPvt_ : PackDesc :=
  { name := "HnrPvt", kind := .recv, cls := 0x28, id := 0x0, payloadLen := .fixed 72, defaultForBuilder := false,
    fields := [
      { name := "itow", ty := .u32 },
      { name := "year", ty := .u16 },
      { name := "month", ty := .u8 },
      { name := "day", ty := .u8 },
      { name := "hour", ty := .u8 },
      { name := "min", ty := .u8 },
      { name := "sec", ty := .u8 },
      { name := "valid", ty := .u8, map := some (.flags hnrPvtValidFlags_) },
      { name := "nano", ty := .i32 },
      { name := "gps_fix", ty := .u8, map := some (.enum gpsFix_) },
      { name := "flags", ty := .u8, map := some (.flags hnrPvtFlags_) },
      { name := "reserved1", ty := .bytes 2 },
      { name := "lon", ty := .i32, map := some (.f64), scale := some (mkRat 1 10000000), alias := some "longitude" },
      { name := "lat", ty := .i32, map := some (.f64), scale := some (mkRat 1 10000000), alias := some "latitude" },
      { name := "height", ty := .i32, map := some (.f64), scale := some (mkRat 1 1000), alias := some "height_above_ellipsoid" },
      { name := "height_msl", ty := .i32, map := some (.f64), scale := some (mkRat 1 1000), alias := some "height_msl" },
      { name := "g_speed", ty := .i32, map := some (.f64), scale := some (mkRat 1 1000), alias := some "ground_speed_2d" },
      { name := "speed", ty := .i32, map := some (.f64), scale := some (mkRat 1 1000), alias := some "speed_3d" },
      { name := "head_mot", ty := .i32, map := some (.f64), scale := some (mkRat 1 100000), alias := some "heading_motion" },
      { name := "head_veh", ty := .i32, map := some (.f64), scale := some (mkRat 1 100000), alias := some "heading_vehicle" },
      { name := "h_acc", ty := .u32 },
      { name := "v_acc", ty := .u32 },
      { name := "s_acc", ty := .u32 },
      { name := "head_acc", ty := .u32, map := some (.f64), scale := some (mkRat 1 100000), alias := some "heading_accurracy" },
      { name := "reserved2", ty := .bytes 4 }] }

/-- `ublox/src/ubx_packets/packets.rs:3413-3431` -/
def navAtt_ : PackDesc :=
  { name := "NavAtt", kind := .recv, cls := 0x1, id := 0x5, payloadLen := .fixed 32, defaultForBuilder := false,
    fields := [
      { name := "itow", ty := .u32 },
      { name := "version", ty := .u8 },
      { name := "reserved1", ty := .bytes 3 },
      { name := "roll", ty := .i32, map := some (.f64), scale := some (mkRat 1 100000), alias := some "vehicle_roll" },
      { name := "pitch", ty := .i32, map := some (.f64), scale := some (mkRat 1 100000), alias := some "vehicle_pitch" },
      { name := "heading", ty := .i32, map := some (.f64), scale := some (mkRat 1 100000), alias := some "vehicle_heading" },
      { name := "acc_roll", ty := .u32, map := some (.f64), scale := some (mkRat 1 100000), alias := some "vehicle_roll_accuracy" },
      { name := "acc_pitch", ty := .u32, map := some (.f64), scale := some (mkRat 1 100000), alias := some "vehicle_pitch_accuracy" },
      { name := "acc_heading", ty := .u32, map := some (.f64), scale := some (mkRat 1 100000), alias := some "vehicle_heading_accuracy" }] }

/-- `ublox/src/ubx_packets/packets.rs:3433-3441` -/
def navClock_ : PackDesc :=
  { name := "NavClock", kind := .recv, cls := 0x1, id := 0x22, payloadLen := .fixed 20, defaultForBuilder := false,
    fields := [
      { name := "itow", ty := .u32 },
      { name := "clk_b", ty := .i32 },
      { name := "clk_d", ty := .i32 },
      { name := "t_acc", ty := .u32 },
      { name := "f_acc", ty := .u32 }] }

/-- `ublox/src/ubx_packets/packets.rs:3471-3489` -/
def rxmSfrbx_ : PackDesc :=
  { name := "RxmSfrbx", kind := .recv, cls := 0x2, id := 0x13, payloadLen := .max 72, defaultForBuilder := false,
    fields := [
      { name := "gnss_id", ty := .u8 },
      { name := "sv_id", ty := .u8 },
      { name := "reserved1", ty := .u8 },
      { name := "freq_id", ty := .u8 },
      { name := "num_words", ty := .u8 },
      { name := "reserved2", ty := .u8 },
      { name := "version", ty := .u8 },
      { name := "reserved3", ty := .u8 },
      { name := "dwrd", ty := .tail, map := some (.iter .dwrd), mayFail := true }] }

/-- `ublox/src/ubx_packets/packets.rs:3514-3522` -/
def navVelECEF_ : PackDesc :=
  { name := "NavVelECEF", kind := .recv, cls := 0x1, id := 0x11, payloadLen := .fixed 20, defaultForBuilder := false,
    fields := [
      { name := "itow", ty := .u32 },
      { name := "ecef_vx", ty := .i32 },
      { name := "ecef_vy", ty := .i32 },
      { name := "ecef_vz", ty := .u32 },
      { name := "s_acc", ty := .u32 }] }

/-- `ublox/src/ubx_packets/packets.rs:3524-3579` -/
def mgaGpsEPH_ : PackDesc :=
  { name := "MgaGpsEPH", kind := .recv, cls := 0x13, id := 0x0, payloadLen := .fixed 68, defaultForBuilder := false,
    fields := [
      { name := "msg_type", ty := .u8 },
      { name := "version", ty := .u8 },
      { name := "sv_id", ty := .u8 },
      { name := "reserved1", ty := .u8 },
      { name := "fit_interval", ty := .u8 },
      { name := "ura_index", ty := .u8 },
      { name := "sv_health", ty := .u8 },
      { name := "tgd", ty := .i8, map := some (.f64), scale := some (mkRat 1 5000000000000000000000000000000) },
      { name := "iodc", ty := .u16 },
      { name := "toc", ty := .u16, map := some (.f64), scale := some (mkRat 20000 1) },
      { name := "reserved2", ty := .u8 },
      { name := "af2", ty := .i8, map := some (.f64), scale := some (mkRat 1 5000000000000000000000000000000000000000000000000000000) },
      { name := "afl", ty := .i16, map := some (.f64), scale := some (mkRat 1 5000000000000000000000000000000000000000000) },
      { name := "af0", ty := .i32, map := some (.f64), scale := some (mkRat 1 5000000000000000000000000000000) },
      { name := "crs", ty := .i16, map := some (.f64), scale := some (mkRat 1 50000) },
      { name := "delta_n", ty := .i16, map := some (.f64), scale := some (mkRat 1 5000000000000000000000000000000000000000000) },
      { name := "m0", ty := .i32, map := some (.f64), scale := some (mkRat 1 5000000000000000000000000000000) },
      { name := "cuc", ty := .i16, map := some (.f64), scale := some (mkRat 1 50000000000000000000000000000) },
      { name := "cus", ty := .i16, map := some (.f64), scale := some (mkRat 1 50000000000000000000000000000) },
      { name := "e", ty := .u32, map := some (.f64), scale := some (mkRat 1 500000000000000000000000000000000) },
      { name := "sqrt_a", ty := .u32, map := some (.f64), scale := some (mkRat 1 5000000000000000000) },
      { name := "toe", ty := .u16, map := some (.f64), scale := some (mkRat 20000 1) },
      { name := "cic", ty := .i16, map := some (.f64), scale := some (mkRat 1 50000000000000000000000000000) },
      { name := "omega0", ty := .i32, map := some (.f64), scale := some (mkRat 1 5000000000000000000000000000000) },
      { name := "cis", ty := .i16, map := some (.f64), scale := some (mkRat 1 50000000000000000000000000000) },
      { name := "crc", ty := .i16, map := some (.f64), scale := some (mkRat 1 50000) },
      { name := "i0", ty := .i32, map := some (.f64), scale := some (mkRat 1 5000000000000000000000000000000) },
      { name := "omega", ty := .i32, map := some (.f64), scale := some (mkRat 1 5000000000000000000000000000000) },
      { name := "omega_dot", ty := .i32, map := some (.f64), scale := some (mkRat 1 5000000000000000000000000000000000000000000) },
      { name := "idot", ty := .i16, map := some (.f64), scale := some (mkRat 1 5000000000000000000000000000000000000000000) },
      { name := "reserved3", ty := .bytes 2 }] }

/-- `ublox/src/ubx_packets/packets.rs:3581-3603` -/
def rxmRawxInfo_ : PackDesc :=
  { name := "RxmRawxInfo", kind := .recv, cls := 0x2, id := 0x15, payloadLen := .fixed 32, defaultForBuilder := false,
    fields := [
      { name := "pr_mes", ty := .f64 },
      { name := "cp_mes", ty := .f64 },
      { name := "do_mes", ty := .f32 },
      { name := "gnss_id", ty := .u8 },
      { name := "sv_id", ty := .u8 },
      { name := "reserved2", ty := .u8 },
      { name := "freq_id", ty := .u8 },
      { name := "lock_time", ty := .u16 },
      { name := "cno", ty := .u8 },
      { name := "pr_stdev", ty := .u8, map := some (.flags stdevFlags_) },
      { name := "cp_stdev", ty := .u8, map := some (.flags stdevFlags_) },
      { name := "do_stdev", ty := .u8, map := some (.flags stdevFlags_) },
      { name := "trk_stat", ty := .u8, map := some (.flags trkStatFlags_) },
      { name := "reserved3", ty := .u8 }] }

/-- `ublox/src/ubx_packets/packets.rs:3651-3657` -/
def secUniqId_ : PackDesc :=
  { name := "SecUniqId", kind := .recv, cls := 0x27, id := 0x3, payloadLen := .fixed 9, defaultForBuilder := false,
    fields := [
      { name := "version", ty := .u8 },
      { name := "reserved1", ty := .bytes 3 },
      { name := "unique_id", ty := .bytes 5 }] }

/-- All packet declarations of `ublox/src/ubx_packets/packets.rs`. -/
def allPackets : List PackDesc :=
  [navPosLlh_,
    navVelNed_,
    navHpPosLlh_,
    navHpPosEcef_,
    navPvt_,
    navStatus_,
    navDop_,
    navEoe_,
    navSolution_,
    navSatSvInfo_,
    navSat_,
    navOdo_,
    navResetOdo_,
    cfgOdo_,
    cfgItfm_,
    cfgInf_,
    infError_,
    infNotice_,
    infTest_,
    infWarning_,
    infDebug_,
    aidIni_,
    alpSrv_,
    ackAck_,
    ackNak_,
    cfgRst_,
    cfgAnt_,
    cfgTp5_,
    cfgTmode2_,
    timSvin_,
    navTimeLs_,
    cfgTmode3_,
    cfgValSet_,
    cfgPrtI2c_,
    cfgPrtUart_,
    cfgPrtSpi_,
    navTimeUTC_,
    cfgRate_,
    cfgMsgSinglePort_,
    cfgMsgAllPorts_,
    cfgNav5_,
    cfgNavX5_,
    mgaAck_,
    mgaGloEph_,
    mgaGpsIono_,
    mgaGpsEph_,
    timTp_,
    timTm2_,
    rxmRawx_,
    monHw_,
    monGnss_,
    monVer_,
    rxmRtcm_,
    esfMeas_,
    esfRaw_,
    esfIns_,
    hnrAtt_,
    hnrIns_,
    hnrPvt_,
    navAtt_,
    navClock_,
    rxmSfrbx_,
    navVelECEF_,
    mgaGpsEPH_,
    rxmRawxInfo_,
    secUniqId_]

/-- The argument of `define_recv_packets!`, `ublox/src/ubx_packets/packets.rs:3659-3717`. -/
def recvPackets : List PackDesc :=
  [navPosLlh_,
    navStatus_,
    navDop_,
    navPvt_,
    navSolution_,
    navVelNed_,
    navHpPosLlh_,
    navHpPosEcef_,
    navTimeUTC_,
    navTimeLs_,
    navSat_,
    navEoe_,
    navOdo_,
    cfgOdo_,
    mgaAck_,
    mgaGpsIono_,
    mgaGpsEph_,
    mgaGloEph_,
    alpSrv_,
    ackAck_,
    ackNak_,
    cfgItfm_,
    cfgPrtI2c_,
    cfgPrtSpi_,
    cfgPrtUart_,
    cfgNav5_,
    cfgAnt_,
    cfgTmode2_,
    cfgTmode3_,
    cfgTp5_,
    infError_,
    infWarning_,
    infNotice_,
    infTest_,
    infDebug_,
    rxmRawx_,
    timTp_,
    timTm2_,
    monVer_,
    monGnss_,
    monHw_,
    rxmRtcm_,
    esfMeas_,
    esfIns_,
    hnrAtt_,
    hnrIns_,
    hnrPvt_,
    navAtt_,
    navClock_,
    navVelECEF_,
    mgaGpsEPH_,
    rxmSfrbx_,
    esfRaw_,
    timSvin_,
    secUniqId_]

end Ublox.Gen
