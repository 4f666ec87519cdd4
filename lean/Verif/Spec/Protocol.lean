import Verif.Spec.Wire
import Verif.Spec.Scale

/-!
# The interface description

The tables of u-blox 8 / M8 "Receiver Description including Protocol Specification" (and, for
CFG-VALSET, NAV-TIMELS and SEC-UNIQID, of the F9 interface description) for the messages that the
crate implements: class, id and length, and for every field its offset, its number format and the
unit.  They are written down from those documents, not from the code.  The last column of a field is
the factor from the transmitted number to the unit in which the crate's documentation (or the name
of the accessor) promises the value; it is 1 where nothing but the transmitted number is promised.
-/

namespace Ublox.Spec.Protocol

/-- The number formats of the interface description. -/
inductive Ty where
  | U1 | I1 | X1 | U2 | I2 | X2 | U4 | I4 | X4 | R4 | R8
  /-- an array of bytes or characters -/
  | A (n : Nat)
  deriving DecidableEq, Repr

/-- Number of bytes. -/
def Ty.size : Ty → Nat
  | .U1 => 1 | .I1 => 1 | .X1 => 1
  | .U2 => 2 | .I2 => 2 | .X2 => 2
  | .U4 => 4 | .I4 => 4 | .X4 => 4
  | .R4 => 4 | .R8 => 8
  | .A n => n

/-- The number that the bytes of a field stand for: two's complement for the `I` formats, unsigned
otherwise (the bit pattern for the `R` formats). -/
def Ty.number (t : Ty) (bs : Bytes) : Int :=
  match t with
  | .I1 => signedOf 8 (leNat bs)
  | .I2 => signedOf 16 (leNat bs)
  | .I4 => signedOf 32 (leNat bs)
  | _ => leNat bs

/-- What a field is. -/
inductive Kind where
  /-- a number; the factor to the unit of the accessor -/
  | number (factor : Rat)
  /-- an enumeration or a bit field -/
  | code
  /-- an IEEE 754 number -/
  | ieee
  /-- bytes or characters -/
  | array
  deriving DecidableEq, Repr

/-- A field of a message. -/
structure Field where
  offset : Nat
  ty : Ty
  accessor : String
  kind : Kind
  deriving DecidableEq, Repr

/-- The length of a payload. -/
inductive Len where
  | fixed (n : Nat)
  /-- a fixed part, then blocks -/
  | blocks (base size : Nat)
  /-- a fixed part, then something that the message describes itself -/
  | «open» (base : Nat)
  deriving DecidableEq, Repr

/-- The payload length is a possible one. -/
def Len.Ok : Len → Nat → Prop
  | .fixed n, l => l = n
  | .blocks base size, l => ∃ k, l = base + size * k
  | .open base, l => base ≤ l

/-- A message: the name of the packet in the crate, class, id, length and fields. -/
structure Message where
  packet : String
  cls : UInt8
  id : UInt8
  len : Len
  fields : List Field
  deriving DecidableEq, Repr

/-- A number in the unit in which it is transmitted. -/
def num (o : Nat) (t : Ty) (a : String) : Field := ⟨o, t, a, .number 1⟩
/-- A number with a factor. -/
def scaled (o : Nat) (t : Ty) (a : String) (q : Rat) : Field := ⟨o, t, a, .number q⟩
/-- An enumeration or bit field. -/
def code (o : Nat) (t : Ty) (a : String) : Field := ⟨o, t, a, .code⟩
/-- A floating-point number. -/
def ieee (o : Nat) (t : Ty) (a : String) : Field := ⟨o, t, a, .ieee⟩
/-- A byte array. -/
def arr (o n : Nat) (a : String) : Field := ⟨o, .A n, a, .array⟩

/-- 10^-1 ... 10^-9 -/
def e1 : Rat := mkRat 1 10
def e2 : Rat := mkRat 1 100
def e3 : Rat := mkRat 1 1000
def e4 : Rat := mkRat 1 10000
def e5 : Rat := mkRat 1 100000
def e7 : Rat := mkRat 1 10000000
def e9 : Rat := mkRat 1 1000000000
/-- 2^-n -/
def p (n : Nat) : Rat := mkRat 1 (2 ^ n)

/-- Attitude messages, NAV-ATT and HNR-ATT: degrees. -/
def attitude : List Field :=
  [num 0 .U4 "itow", num 4 .U1 "version", scaled 8 .I4 "vehicle_roll" e5,
    scaled 12 .I4 "vehicle_pitch" e5, scaled 16 .I4 "vehicle_heading" e5,
    scaled 20 .U4 "vehicle_roll_accuracy" e5, scaled 24 .U4 "vehicle_pitch_accuracy" e5,
    scaled 28 .U4 "vehicle_heading_accuracy" e5]

/-- Vehicle dynamics, ESF-INS and HNR-INS: deg/s and m/s². -/
def dynamics : List Field :=
  [code 0 .X4 "bit_field", num 8 .U4 "itow", scaled 12 .I4 "x_angular_rate" e3,
    scaled 16 .I4 "y_angular_rate" e3, scaled 20 .I4 "z_angular_rate" e3,
    scaled 24 .I4 "x_acceleration" e2, scaled 28 .I4 "y_acceleration" e2,
    scaled 32 .I4 "z_acceleration" e2]

/-- What CFG-PRT is for all ports. -/
def port : List Field :=
  [code 0 .U1 "portid", code 2 .X2 "tx_ready", code 4 .X4 "mode",
    code 12 .X2 "in_proto_mask", code 14 .X2 "out_proto_mask", code 16 .X2 "flags"]

/-- CFG-TMODE2 and CFG-TMODE3: position, m (or 1e-5 deg). -/
def tmodePosition : List Field :=
  [scaled 4 .I4 "ecef_x_or_lat" e2, scaled 8 .I4 "ecef_y_or_lon" e2,
    scaled 12 .I4 "ecef_z_or_alt" e2]

/-- The navigation messages. -/
def navMessages : List Message :=
  [⟨"NavPosLlh", 0x01, 0x02, .fixed 28,
    [num 0 .U4 "itow", scaled 4 .I4 "lon_degrees" e7, scaled 8 .I4 "lat_degrees" e7,
      scaled 12 .I4 "height_meters" e3, scaled 16 .I4 "height_msl" e3,
      scaled 20 .U4 "h_ack" e3, scaled 24 .U4 "v_acc" e3]⟩,
   ⟨"NavStatus", 0x01, 0x03, .fixed 16,
    [num 0 .U4 "itow", code 4 .U1 "fix_type", code 5 .X1 "flags", code 6 .X1 "fix_stat",
      code 7 .X1 "flags2", num 8 .U4 "time_to_first_fix", num 12 .U4 "uptime_ms"]⟩,
   ⟨"NavDop", 0x01, 0x04, .fixed 18,
    [num 0 .U4 "itow", scaled 4 .U2 "geometric_dop" e2, scaled 6 .U2 "position_dop" e2,
      scaled 8 .U2 "time_dop" e2, scaled 10 .U2 "vertical_dop" e2,
      scaled 12 .U2 "horizontal_dop" e2, scaled 14 .U2 "northing_dop" e2,
      scaled 16 .U2 "easting_dop" e2]⟩,
   ⟨"NavAtt", 0x01, 0x05, .fixed 32, attitude⟩,
   ⟨"NavSolution", 0x01, 0x06, .fixed 52,
    [num 0 .U4 "itow", num 4 .I4 "ftow_ns", num 8 .I2 "week", code 10 .U1 "fix_type",
      code 11 .X1 "flags", scaled 12 .I4 "ecef_x" e2, scaled 16 .I4 "ecef_y" e2,
      scaled 20 .I4 "ecef_z" e2, scaled 24 .U4 "position_accuracy_estimate" e2,
      scaled 28 .I4 "ecef_vx" e2, scaled 32 .I4 "ecef_vy" e2, scaled 36 .I4 "ecef_vz" e2,
      scaled 40 .U4 "speed_accuracy_estimate" e2, scaled 44 .U2 "pdop" e2, num 47 .U1 "num_sv"]⟩,
   ⟨"NavPvt", 0x01, 0x07, .fixed 92,
    [num 0 .U4 "itow", num 4 .U2 "year", num 6 .U1 "month", num 7 .U1 "day", num 8 .U1 "hour",
      num 9 .U1 "min", num 10 .U1 "sec", code 11 .X1 "valid", num 12 .U4 "time_accuracy",
      num 16 .I4 "nanosecond", code 20 .U1 "fix_type", code 21 .X1 "flags",
      code 22 .X1 "flags2", num 23 .U1 "num_satellites", scaled 24 .I4 "lon_degrees" e7,
      scaled 28 .I4 "lat_degrees" e7, scaled 32 .I4 "height_meters" e3,
      scaled 36 .I4 "height_msl" e3, num 40 .U4 "horiz_accuracy", num 44 .U4 "vert_accuracy",
      scaled 48 .I4 "vel_north" e3, scaled 52 .I4 "vel_east" e3, scaled 56 .I4 "vel_down" e3,
      scaled 60 .I4 "ground_speed" e3, scaled 64 .I4 "heading_degrees" e5,
      scaled 68 .U4 "speed_accuracy_estimate" e3, scaled 72 .U4 "heading_accuracy_estimate" e5,
      num 76 .U2 "pdop", scaled 84 .I4 "heading_of_vehicle_degrees" e5,
      scaled 88 .I2 "magnetic_declination_degrees" e2,
      scaled 90 .U2 "magnetic_declination_accuracy_degrees" e2]⟩,
   ⟨"NavOdo", 0x01, 0x09, .fixed 20,
    [num 0 .U1 "version", num 4 .U4 "itow", num 8 .U4 "distance", num 12 .U4 "total_distance",
      num 16 .U4 "distance_std"]⟩,
   ⟨"NavResetOdo", 0x01, 0x10, .fixed 0, []⟩,
   ⟨"NavVelECEF", 0x01, 0x11, .fixed 20,
    [num 0 .U4 "itow", num 4 .I4 "ecef_vx", num 8 .I4 "ecef_vy", num 12 .I4 "ecef_vz",
      num 16 .U4 "s_acc"]⟩,
   ⟨"NavVelNed", 0x01, 0x12, .fixed 36,
    [num 0 .U4 "itow", scaled 4 .I4 "vel_north" e2, scaled 8 .I4 "vel_east" e2,
      scaled 12 .I4 "vel_down" e2, scaled 16 .U4 "speed_3d" e2, scaled 20 .U4 "ground_speed" e2,
      scaled 24 .I4 "heading_degrees" e5, scaled 28 .U4 "speed_accuracy_estimate" e2,
      scaled 32 .U4 "course_heading_accuracy_estimate" e5]⟩,
   ⟨"NavHpPosEcef", 0x01, 0x13, .fixed 28,
    [num 0 .U1 "version", num 4 .U4 "itow", num 8 .I4 "ecef_x_cm", num 12 .I4 "ecef_y_cm",
      num 16 .I4 "ecef_z_cm", scaled 20 .I1 "ecef_x_hp_mm" e1, scaled 21 .I1 "ecef_y_hp_mm" e1,
      scaled 22 .I1 "ecef_z_hp_mm" e1, code 23 .X1 "flags", scaled 24 .U4 "p_acc" e1]⟩,
   ⟨"NavHpPosLlh", 0x01, 0x14, .fixed 36,
    [num 0 .U1 "version", num 4 .U4 "itow", scaled 8 .I4 "lon_degrees" e7,
      scaled 12 .I4 "lat_degrees" e7, scaled 16 .I4 "height_meters" e3,
      scaled 20 .I4 "height_msl" e3, scaled 24 .I1 "lon_hp_degrees" e9,
      scaled 25 .I1 "lat_hp_degrees" e9, scaled 26 .I1 "height_hp_meters" e4,
      scaled 27 .I1 "height_hp_msl" e1, scaled 28 .U4 "horizontal_accuracy" e1,
      scaled 32 .U4 "vertical_accuracy" e1]⟩,
   ⟨"NavTimeUTC", 0x01, 0x21, .fixed 20,
    [num 0 .U4 "itow", num 4 .U4 "time_accuracy_estimate_ns", num 8 .I4 "nanos",
      num 12 .U2 "year", num 14 .U1 "month", num 15 .U1 "day", num 16 .U1 "hour",
      num 17 .U1 "min", num 18 .U1 "sec", code 19 .X1 "valid"]⟩,
   ⟨"NavClock", 0x01, 0x22, .fixed 20,
    [num 0 .U4 "itow", num 4 .I4 "clk_b", num 8 .I4 "clk_d", num 12 .U4 "t_acc",
      num 16 .U4 "f_acc"]⟩,
   ⟨"NavTimeLs", 0x01, 0x26, .fixed 24,
    [num 0 .U4 "itow", num 4 .U1 "version", code 8 .U1 "src_of_curr_ls", num 9 .I1 "current_ls",
      code 10 .U1 "src_of_ls_change", num 11 .I1 "ls_change", num 12 .I4 "time_to_ls_event",
      num 16 .U2 "date_of_ls_gps_wn", num 18 .U2 "date_of_ls_gps_dn", code 23 .X1 "valid"]⟩,
   ⟨"NavSat", 0x01, 0x35, .blocks 8 12,
    [num 0 .U4 "itow", num 4 .U1 "version", num 5 .U1 "num_svs"]⟩,
   ⟨"NavEoe", 0x01, 0x61, .fixed 4, [num 0 .U4 "itow"]⟩]

/-- The configuration messages. -/
def cfgMessages : List Message :=
  [⟨"CfgPrtI2c", 0x06, 0x00, .fixed 20, port⟩,
   ⟨"CfgPrtUart", 0x06, 0x00, .fixed 20, num 8 .U4 "baud_rate" :: port⟩,
   ⟨"CfgPrtSpi", 0x06, 0x00, .fixed 20, port⟩,
   ⟨"CfgMsgSinglePort", 0x06, 0x01, .fixed 3,
    [num 0 .U1 "msg_class", num 1 .U1 "msg_id", num 2 .U1 "rate"]⟩,
   ⟨"CfgMsgAllPorts", 0x06, 0x01, .fixed 8,
    [num 0 .U1 "msg_class", num 1 .U1 "msg_id", arr 2 6 "rates"]⟩,
   ⟨"CfgInf", 0x06, 0x02, .fixed 10,
    [code 0 .U1 "protocol_id", code 4 .X1 "inf_msg_mask_0", code 5 .X1 "inf_msg_mask_1",
      code 6 .X1 "inf_msg_mask_2", code 7 .X1 "inf_msg_mask_3", code 8 .X1 "inf_msg_mask_4",
      code 9 .X1 "inf_msg_mask_5"]⟩,
   ⟨"CfgRst", 0x06, 0x04, .fixed 4, [code 0 .X2 "nav_bbr_mask", code 2 .U1 "reset_mode"]⟩,
   ⟨"CfgRate", 0x06, 0x08, .fixed 6,
    [num 0 .U2 "measure_rate_ms", num 2 .U2 "nav_rate", code 4 .U2 "time_ref"]⟩,
   ⟨"CfgAnt", 0x06, 0x13, .fixed 4, [code 0 .X2 "flags", code 2 .X2 "pins"]⟩,
   ⟨"CfgOdo", 0x06, 0x1e, .fixed 20,
    [num 0 .U1 "version", code 4 .U1 "flags", code 5 .X1 "odo_cfg", num 12 .U1 "cog_max_speed",
      num 13 .U1 "cog_max_pos_acc", num 16 .U1 "vel_lp_gain", num 17 .U1 "cog_lp_gain"]⟩,
   ⟨"CfgNavX5", 0x06, 0x23, .fixed 40,
    [num 0 .U2 "version", code 2 .X2 "mask1", code 4 .X4 "mask2", num 10 .U1 "min_svs",
      num 11 .U1 "max_svs", num 12 .U1 "min_cno_dbhz", num 14 .U1 "ini_fix_3d",
      num 17 .U1 "ack_aiding", num 18 .U2 "wkn_rollover", num 20 .U1 "sig_atten_comp_mode",
      num 26 .U1 "use_ppp", code 27 .X1 "aop_cfg", num 30 .U2 "aop_orb_max_err",
      num 39 .U1 "use_adr"]⟩,
   ⟨"CfgNav5", 0x06, 0x24, .fixed 36,
    [code 0 .X2 "mask", code 2 .U1 "dyn_model", code 3 .U1 "fix_mode",
      scaled 4 .I4 "fixed_alt" e2, scaled 8 .U4 "fixed_alt_var" e4, num 12 .I1 "min_elev_degrees",
      num 13 .U1 "dr_limit", scaled 14 .U2 "pdop" e1, scaled 16 .U2 "tdop" e1, num 18 .U2 "pacc",
      num 20 .U2 "tacc", scaled 22 .U1 "static_hold_thresh" e2, num 23 .U1 "dgps_time_out",
      num 24 .U1 "cno_thresh_num_svs", num 25 .U1 "cno_thresh", num 28 .U2 "static_hold_max_dist",
      code 30 .U1 "utc_standard"]⟩,
   ⟨"CfgTp5", 0x06, 0x31, .fixed 32,
    [code 0 .U1 "tp_idx", num 1 .U1 "version", num 4 .I2 "ant_cable_delay",
      num 6 .I2 "rf_group_delay", num 8 .U4 "freq_period", num 12 .U4 "freq_period_lock",
      num 16 .U4 "pulse_len_ratio", num 20 .U4 "pulse_len_ratio_lock", num 24 .I4 "user_delay",
      code 28 .X4 "flags"]⟩,
   ⟨"CfgItfm", 0x06, 0x39, .fixed 8, [code 0 .X4 "config", code 4 .X4 "config2"]⟩,
   ⟨"CfgTmode2", 0x06, 0x3d, .fixed 28,
    [code 0 .U1 "time_transfer_mode", code 2 .X2 "flags", scaled 16 .U4 "fixed_pos_acc" e3,
      num 20 .U4 "survey_in_min_duration", scaled 24 .U4 "survery_in_accur_limit" e3] ++
      tmodePosition⟩,
   ⟨"CfgTmode3", 0x06, 0x71, .fixed 40,
    [num 0 .U1 "version", code 2 .X1 "rcvr_mode", code 3 .X1 "flags",
      num 16 .I1 "ecef_x_or_lat_hp", num 17 .I1 "ecef_y_or_lon_hp", num 18 .I1 "ecef_z_or_alt_hp",
      scaled 20 .U4 "fixed_pos_acc" e4, num 24 .U4 "sv_in_min_duration",
      scaled 28 .U4 "sv_in_accur_limit" e4] ++ tmodePosition⟩,
   ⟨"CfgValSet", 0x06, 0x8a, .open 4, [num 0 .U1 "version", code 1 .X1 "layers"]⟩]

/-- A GPS ephemeris, MGA-GPS-EPH, with the factors of the navigation message (`1` for the packet that
has the transmitted numbers).  `af1` is the name of the first clock drift term. -/
def ephemeris (af1 : String) (q : Rat → Rat) : List Field :=
  [code 0 .U1 "msg_type", num 1 .U1 "version", num 2 .U1 "sv_id", num 4 .U1 "fit_interval",
    num 5 .U1 "ura_index", num 6 .U1 "sv_health", scaled 7 .I1 "tgd" (q (p 31)),
    num 8 .U2 "iodc", scaled 10 .U2 "toc" (q 16), scaled 13 .I1 "af2" (q (p 55)),
    scaled 14 .I2 af1 (q (p 43)), scaled 16 .I4 "af0" (q (p 31)), scaled 20 .I2 "crs" (q (p 5)),
    scaled 22 .I2 "delta_n" (q (p 43)), scaled 24 .I4 "m0" (q (p 31)),
    scaled 28 .I2 "cuc" (q (p 29)), scaled 30 .I2 "cus" (q (p 29)), scaled 32 .U4 "e" (q (p 33)),
    scaled 36 .U4 "sqrt_a" (q (p 19)), scaled 40 .U2 "toe" (q 16),
    scaled 42 .I2 "cic" (q (p 29)), scaled 44 .I4 "omega0" (q (p 31)),
    scaled 48 .I2 "cis" (q (p 29)), scaled 50 .I2 "crc" (q (p 5)), scaled 52 .I4 "i0" (q (p 31)),
    scaled 56 .I4 "omega" (q (p 31)), scaled 60 .I4 "omega_dot" (q (p 43)),
    scaled 64 .I2 "idot" (q (p 43))]

/-- All other messages. -/
def otherMessages : List Message :=
  [⟨"InfError", 0x04, 0x00, .blocks 0 1, []⟩,
   ⟨"InfWarning", 0x04, 0x01, .blocks 0 1, []⟩,
   ⟨"InfNotice", 0x04, 0x02, .blocks 0 1, []⟩,
   ⟨"InfTest", 0x04, 0x03, .blocks 0 1, []⟩,
   ⟨"InfDebug", 0x04, 0x04, .blocks 0 1, []⟩,
   ⟨"AckNak", 0x05, 0x00, .fixed 2, [num 0 .U1 "class", num 1 .U1 "msg_id"]⟩,
   ⟨"AckAck", 0x05, 0x01, .fixed 2, [num 0 .U1 "class", num 1 .U1 "msg_id"]⟩,
   ⟨"AidIni", 0x0b, 0x01, .fixed 48,
    [num 0 .I4 "ecef_x_or_lat", num 4 .I4 "ecef_y_or_lon", num 8 .I4 "ecef_z_or_alt",
      num 12 .U4 "pos_accuracy", code 16 .X2 "time_cfg", num 18 .U2 "week_or_ym",
      num 20 .U4 "tow_or_hms", num 24 .I4 "tow_ns", num 28 .U4 "tm_accuracy_ms",
      num 32 .U4 "tm_accuracy_ns", num 36 .I4 "clk_drift_or_freq",
      num 40 .U4 "clk_drift_or_freq_accuracy", code 44 .X4 "flags"]⟩,
   ⟨"AlpSrv", 0x0b, 0x32, .fixed 16,
    [num 0 .U1 "id_size", num 1 .U1 "data_type", num 2 .U2 "offset", num 4 .U2 "size",
      num 6 .U2 "file_id", num 8 .U2 "data_size", num 10 .U1 "id1", num 11 .U1 "id2",
      num 12 .U4 "id3"]⟩,
   ⟨"TimTp", 0x0d, 0x01, .fixed 16,
    [num 0 .U4 "tow_ms", num 4 .U4 "tow_sub_ms", num 8 .I4 "q_err", num 12 .U2 "week",
      code 14 .X1 "flags", code 15 .X1 "ref_info"]⟩,
   ⟨"TimTm2", 0x0d, 0x03, .fixed 28,
    [num 0 .U1 "ch", code 1 .X1 "flags", num 2 .U2 "count", num 4 .U2 "wn_r", num 6 .U2 "wn_f",
      num 8 .U4 "tow_ms_r", num 12 .U4 "tow_sub_ms_r", num 16 .U4 "tow_ms_f",
      num 20 .U4 "tow_sub_ms_f", num 24 .U4 "acc_est"]⟩,
   ⟨"TimSvin", 0x0d, 0x04, .fixed 28,
    [num 0 .U4 "dur", num 4 .I4 "mean_x", num 8 .I4 "mean_y", num 12 .I4 "mean_z",
      num 16 .U4 "mean_v", num 20 .U4 "obs", num 24 .U1 "valid", num 25 .U1 "active"]⟩,
   ⟨"RxmRawx", 0x02, 0x15, .blocks 16 32,
    [ieee 0 .R8 "rcv_tow", num 8 .U2 "week", num 10 .I1 "leap_s", num 11 .U1 "num_meas",
      code 12 .X1 "rec_stat", num 13 .U1 "version"]⟩,
   ⟨"RxmSfrbx", 0x02, 0x13, .blocks 8 4,
    [num 0 .U1 "gnss_id", num 1 .U1 "sv_id", num 3 .U1 "freq_id", num 4 .U1 "num_words",
      num 6 .U1 "version"]⟩,
   ⟨"RxmRtcm", 0x02, 0x32, .fixed 8,
    [num 0 .U1 "version", code 1 .X1 "flags", num 2 .U2 "sub_type", num 4 .U2 "ref_station",
      num 6 .U2 "msg_type"]⟩,
   ⟨"MonVer", 0x0a, 0x04, .blocks 40 30,
    [arr 0 30 "software_version", arr 30 10 "hardware_version"]⟩,
   ⟨"MonHw", 0x0a, 0x09, .fixed 60,
    [code 0 .X4 "pin_sel", code 4 .X4 "pin_bank", code 8 .X4 "pin_dir", code 12 .X4 "pin_val",
      num 16 .U2 "noise_per_ms", num 18 .U2 "agc_cnt", code 20 .U1 "a_status",
      code 21 .U1 "a_power", code 22 .X1 "flags", code 24 .X4 "used_mask", arr 28 17 "vp",
      num 45 .U1 "jam_ind", code 48 .X4 "pin_irq", code 52 .X4 "pull_h", code 56 .X4 "pull_l"]⟩,
   ⟨"MonGnss", 0x0a, 0x28, .fixed 8,
    [num 0 .U1 "version", code 1 .X1 "supported", code 2 .X1 "default", code 3 .X1 "enabled",
      num 4 .U1 "simultaneous"]⟩,
   ⟨"MgaGpsEph", 0x13, 0x00, .fixed 68, ephemeris "af1" fun _ => 1⟩,
   ⟨"MgaGpsEPH", 0x13, 0x00, .fixed 68, ephemeris "afl" fun q => q⟩,
   ⟨"MgaGpsIono", 0x13, 0x00, .fixed 16,
    [code 0 .U1 "msg_type", num 1 .U1 "version", scaled 4 .I1 "alpha0" (p 30),
      scaled 5 .I1 "alpha1" (p 27), scaled 6 .I1 "alpha2" (p 24), scaled 7 .I1 "alpha3" (p 24),
      scaled 8 .I1 "beta0" (2 ^ 11), scaled 9 .I1 "beta1" (2 ^ 14),
      scaled 10 .I1 "beta2" (2 ^ 16), scaled 11 .I1 "beta3" (2 ^ 16)]⟩,
   ⟨"MgaGloEph", 0x13, 0x06, .fixed 48,
    [code 0 .U1 "msg_type", num 1 .U1 "version", num 2 .U1 "sv_id", num 4 .U1 "ft", num 5 .U1 "b",
      num 6 .U1 "m", num 7 .I1 "h", num 8 .I4 "x", num 12 .I4 "y", num 16 .I4 "z",
      num 20 .I4 "dx", num 24 .I4 "dy", num 28 .I4 "dz", num 32 .I1 "ddx", num 33 .I1 "ddy",
      num 34 .I1 "ddz", num 35 .U1 "tb", num 36 .U2 "gamma", num 38 .U1 "e",
      num 39 .U1 "delta_tau", num 40 .I4 "tau"]⟩,
   ⟨"MgaAck", 0x13, 0x60, .fixed 8,
    [num 0 .U1 "ack_type", num 1 .U1 "version", code 2 .U1 "info_code", num 3 .U1 "msg_id",
      arr 4 4 "msg_payload_start"]⟩,
   ⟨"EsfMeas", 0x10, 0x02, .open 8,
    [num 0 .U4 "time_tag", code 4 .X2 "flags", num 6 .U2 "id"]⟩,
   ⟨"EsfRaw", 0x10, 0x03, .blocks 4 8, [num 0 .U4 "msss"]⟩,
   ⟨"EsfIns", 0x10, 0x15, .fixed 36, dynamics⟩,
   ⟨"SecUniqId", 0x27, 0x03, .fixed 9, [num 0 .U1 "version", arr 4 5 "unique_id"]⟩,
   ⟨"HnrPvt", 0x28, 0x00, .fixed 72,
    [num 0 .U4 "itow", num 4 .U2 "year", num 6 .U1 "month", num 7 .U1 "day", num 8 .U1 "hour",
      num 9 .U1 "min", num 10 .U1 "sec", code 11 .X1 "valid", num 12 .I4 "nano",
      code 16 .U1 "gps_fix", code 17 .X1 "flags", scaled 20 .I4 "longitude" e7,
      scaled 24 .I4 "latitude" e7, scaled 28 .I4 "height_above_ellipsoid" e3,
      scaled 32 .I4 "height_msl" e3, scaled 36 .I4 "ground_speed_2d" e3,
      scaled 40 .I4 "speed_3d" e3, scaled 44 .I4 "heading_motion" e5,
      scaled 48 .I4 "heading_vehicle" e5, num 52 .U4 "h_acc", num 56 .U4 "v_acc",
      num 60 .U4 "s_acc", scaled 64 .U4 "heading_accurracy" e5]⟩,
   ⟨"HnrAtt", 0x28, 0x01, .fixed 32, attitude⟩,
   ⟨"HnrIns", 0x28, 0x02, .fixed 36, dynamics⟩]

/-- The repeated blocks that are packets of their own in the crate. -/
def blocks : List Message :=
  [⟨"NavSatSvInfo", 0x01, 0x35, .fixed 12,
    [num 0 .U1 "gnss_id", num 1 .U1 "sv_id", num 2 .U1 "cno", num 3 .I1 "elev", num 4 .I2 "azim",
      num 6 .I2 "pr_res", code 8 .X4 "flags"]⟩,
   ⟨"RxmRawxInfo", 0x02, 0x15, .fixed 32,
    [ieee 0 .R8 "pr_mes", ieee 8 .R8 "cp_mes", ieee 16 .R4 "do_mes", num 20 .U1 "gnss_id",
      num 21 .U1 "sv_id", num 23 .U1 "freq_id", num 24 .U2 "lock_time", num 26 .U1 "cno",
      code 27 .X1 "pr_stdev", code 28 .X1 "cp_stdev", code 29 .X1 "do_stdev",
      code 30 .X1 "trk_stat"]⟩]

/-- The interface description. -/
def interface : List Message := navMessages ++ cfgMessages ++ otherMessages ++ blocks

end Ublox.Spec.Protocol
