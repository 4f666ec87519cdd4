{
 "claims": [
  {
   "property": "C01",
   "status": "proved",
   "theorems": [
    "Ublox.Props.c01_flb_no_panic",
    "Ublox.Props.c01_vec_no_panic",
    "Ublox.Props.c01_vec_endless"
   ],
   "note": "All histories, FixedLinearBuffer of any capacity: no panic. Vec: no panic except the documented capacity overflow of Vec beyond isize::MAX bytes. Parametric in match_packet; instantiated with the crate dispatch."
  },
  {
   "property": "C02",
   "status": "proved",
   "theorems": [
    "Ublox.Props.c02_progress_and_fused",
    "Ublox.Props.c02_finite",
    "Ublox.Props.c02_vec_exhaustion_reachable",
    "Ublox.Props.c02_flb_exhaustion_reachable"
   ],
   "note": "Termination of the partial_fixpoint loop, at least two bytes per answer, fused, and exhaustion is reachable."
  },
  {
   "property": "C03",
   "status": "proved",
   "theorems": [
    "Ublox.Props.c03_vec_packets_embedded",
    "Ublox.Props.c03_flb_packets_embedded"
   ],
   "note": "Vec: every call pattern. Fixed buffer: capacity >= 5 and exhausted iterators (see C49 for the rest)."
  },
  {
   "property": "C04",
   "status": "proved",
   "theorems": [
    "Ublox.Props.c04_vec_clean_stream",
    "Ublox.Props.c04_flb_clean_stream"
   ],
   "note": "Vec, and fixed buffers that hold the largest frame but one byte."
  },
  {
   "property": "C05",
   "status": "proved",
   "theorems": [
    "Ublox.Props.c05_vec_reference_decoder",
    "Ublox.Props.c05_flb_reference_decoder",
    "Ublox.Props.c05_resume_after_bad_checksum",
    "Ublox.Props.c05_too_long_is_skipped",
    "Ublox.Props.c05_next_frame_found"
   ],
   "note": "Equality with the list-based reference decoder Spec.decode, plus its characteristic behaviour."
  },
  {
   "property": "C06",
   "status": "proved",
   "theorems": [
    "Ublox.Props.c06_chunking_irrelevant"
   ],
   "note": "Follows from equality with the reference decoder of the concatenation."
  },
  {
   "property": "C07",
   "status": "proved",
   "theorems": [
    "Ublox.Props.c07_large_flb_equals_vec"
   ],
   "note": "Capacity >= MAX_PAYLOAD_LEN + 7."
  },
  {
   "property": "C08",
   "status": "proved",
   "theorems": [
    "Ublox.Props.c08_oom_only_if_too_large",
    "Ublox.Props.c08_vec_never_oom",
    "Ublox.Props.c08_available_frame_delivered"
   ],
   "note": "For any lawful buffer; the dispatch must not answer OutOfMemory itself (true for the crate, C09)."
  },
  {
   "property": "C09",
   "status": "proved",
   "theorems": [
    "Ublox.Props.c09_vec_every_frame_delivered",
    "Ublox.Props.c09_vec_only_framing_errors",
    "Ublox.Props.c09_flb_only_framing_errors"
   ],
   "note": "With the dispatch of the crate (all 55 listed packet types)."
  },
  {
   "property": "C10",
   "status": "proved",
   "theorems": [
    "Ublox.Props.c10_abandoning_loses_nothing",
    "Ublox.Props.c10_complete_after_final_exhaustion"
   ],
   "note": "Vec, any number of next calls per iterator."
  },
  {
   "property": "C11",
   "status": "partial",
   "theorems": [
    "Ublox.Props.c11_never_overflows",
    "Ublox.Props.c11_exhausted_loses_nothing_partial",
    "Ublox.Props.c11_pending_kept",
    "Ublox.Props.c11_capacity_iff",
    "Ublox.Props.c11_capacity_four_loses"
   ],
   "note": "False at the documented minimum capacity 4 (c11_capacity_four_loses); proved for capacity >= 5, and these are exactly the capacities for which it holds (c11_capacity_iff)."
  },
  {
   "property": "C12",
   "status": "proved",
   "theorems": [
    "Ublox.Props.c12_bounded_memory"
   ],
   "note": "Any lawful buffer and any parser state."
  },
  {
   "property": "C13",
   "status": "proved",
   "theorems": [
    "Ublox.Props.c13_empty_iff_len_zero",
    "Ublox.Props.c13_buffer_is_undecoded_suffix",
    "Ublox.Props.c13_drop_without_next"
   ],
   "note": "Vec-backed parser."
  },
  {
   "property": "C14",
   "status": "proved",
   "theorems": [
    "Ublox.Props.c14_flb_is_bounded_queue",
    "Ublox.Props.c14_queue_deterministic"
   ],
   "note": "All operation sequences; single-byte indexing between length and capacity returns a stale byte (unspecified in the queue)."
  },
  {
   "property": "C15",
   "status": "proved",
   "theorems": [
    "Ublox.Props.c15_one_shot",
    "Ublox.Props.c15_builder_pieces",
    "Ublox.Props.c15_parser_pieces"
   ],
   "note": "Both implementations, every partition."
  },
  {
   "property": "C16",
   "status": "proved",
   "theorems": [
    "Ublox.Props.c16_single_byte",
    "Ublox.Props.c16_adjacent_swap"
   ],
   "note": "Any lawful buffer, any position in the stream, any continuation."
  },
  {
   "property": "C17",
   "status": "proved",
   "theorems": [
    "Ublox.Props.c17_vec",
    "Ublox.Props.c17_flb"
   ],
   "note": "Sequences of built packets of any types, any chunking, Vec and fixed buffers that hold the frames."
  },
  {
   "property": "C18",
   "status": "partial",
   "theorems": [
    "Ublox.Props.c18_any_declaration",
    "Ublox.Props.c18_layout_partial",
    "Ublox.Props.c18_returns_iff",
    "Ublox.Props.c18_returned",
    "Ublox.Props.c18_nan_panics",
    "Ublox.Props.c18_all_but_cfgValSet"
   ],
   "note": "False for NaN in a signed scaled field (c18_nan_panics; c18_returns_iff characterises it). Otherwise proved for all packets of the crate, and for arbitrary declarations (c18_any_declaration)."
  },
  {
   "property": "C19",
   "status": "proved",
   "theorems": [
    "Ublox.Props.c19_create_packet",
    "Ublox.Props.c19_content",
    "Ublox.Props.c19_vec"
   ],
   "note": "Any writer; exact sequence of calls, contents after success and after failure; Vec."
  },
  {
   "property": "C20",
   "status": "proved",
   "theorems": [
    "Ublox.Props.c20_read_back",
    "Ublox.Props.c20_same_type"
   ],
   "note": "All packet types with builder and accessors; scaled fields: see C42."
  },
  {
   "property": "C21",
   "status": "proved",
   "theorems": [
    "Ublox.Props.c21_accessor",
    "Ublox.Props.c21_tiles",
    "Ublox.Props.c21_local",
    "Ublox.Props.c21_tail",
    "Ublox.Props.c21_esf_meas"
   ],
   "note": "All readable packet declarations (generated table), including the announced sizes of ESF-MEAS."
  },
  {
   "property": "C22",
   "status": "proved",
   "theorems": [
    "Ublox.Props.c22_validate"
   ],
   "note": "All readable packet declarations; outcome characterised by iff."
  },
  {
   "property": "C23",
   "status": "proved",
   "theorems": [
    "Ublox.Props.c23_dispatch"
   ],
   "note": "The complete list of define_recv_packets."
  },
  {
   "property": "C24",
   "status": "proved",
   "theorems": [
    "Ublox.Props.c24_cfg_prt"
   ],
   "note": ""
  },
  {
   "property": "C25",
   "status": "partial",
   "theorems": [
    "Ublox.Props.c25_accessors_partial",
    "Ublox.Props.c25_uart_mode_panics",
    "Ublox.Props.c25_uart_mode_exact"
   ],
   "note": "False: CfgPrtUart.mode panics for 5 or 6 data bits and reserved parity (c25_uart_mode_panics). Proved for every other accessor and for every mode word with a meaning."
  },
  {
   "property": "C26",
   "status": "partial",
   "theorems": [
    "Ublox.Props.c26_fixStatusInfo",
    "Ublox.Props.c26_navSatSvFlags",
    "Ublox.Props.c26_timTpFlags",
    "Ublox.Props.c26_timTpRefInfo",
    "Ublox.Props.c26_timTm2Flags_partial",
    "Ublox.Props.c26_timTm2_timeBase_violated"
   ],
   "note": "FixStatusInfo, NavSatSvFlags, TimTpFlags, TimTpRefInfo: exact. TimTm2Flags: all but time_base, which panics for every code but 0, so for the documented GNSS and UTC time bases (c26_timTm2_timeBase_violated)."
  },
  {
   "property": "C27",
   "status": "proved",
   "theorems": [
    "Ublox.Props.c27_open_enums",
    "Ublox.Props.c27_from_exhaustive"
   ],
   "note": "All open enums of the crate (generated table)."
  },
  {
   "property": "C28",
   "status": "proved",
   "theorems": [
    "Ublox.Props.c28_closed_enums"
   ],
   "note": "All closed enums of the crate (generated table)."
  },
  {
   "property": "C29",
   "status": "proved",
   "theorems": [
    "Ublox.Props.c29_flags_keep_bits"
   ],
   "note": "All bitflags types of the crate (generated table)."
  },
  {
   "property": "C30",
   "status": "proved",
   "theorems": [
    "Ublox.Props.c30_uart_from",
    "Ublox.Props.c30_uart_into",
    "Ublox.Props.c30_uart_roundtrip"
   ],
   "note": ""
  },
  {
   "property": "C31",
   "status": "partial",
   "theorems": [
    "Ublox.Props.c31_config_survives_iff",
    "Ublox.Props.c31_config2_survives_iff",
    "Ublox.Props.c31_config_into",
    "Ublox.Props.c31_config_new",
    "Ublox.Props.c31_config_rmw_partial",
    "Ublox.Props.c31_config_violated",
    "Ublox.Props.c31_config2_into_partial",
    "Ublox.Props.c31_config2_new_partial",
    "Ublox.Props.c31_config2_from",
    "Ublox.Props.c31_config2_violated"
   ],
   "note": "Encoding of CfgItfmConfig and reading of CfgItfmConfig2 are exact. Violated: CfgItfmConfig reads thresholds with a wrong shift, CfgItfmConfig2 ors the antenna code unshifted (c31_config_violated, c31_config2_violated). c31_config_survives_iff and c31_config2_survives_iff say exactly which words survive."
  },
  {
   "property": "C32",
   "status": "proved",
   "theorems": [
    "Ublox.Props.c32_all",
    "Ublox.Props.c32_iterators",
    "Ublox.Props.c32_items"
   ],
   "note": "All six iterators; theorem quantifies over every delivered payload; usize::MAX only bounded below by the payload length. num_svs / num_meas / num_words are not consulted by the code."
  },
  {
   "property": "C33",
   "status": "proved",
   "theorems": [
    "Ublox.Props.c33_delivered",
    "Ublox.Props.c33_strings"
   ],
   "note": "Delivery characterised by an iff; strings as text before the first NUL, UTF-8 defined as encoding of Unicode scalars."
  },
  {
   "property": "C34",
   "status": "proved",
   "theorems": [
    "Ublox.Props.c34_delivered",
    "Ublox.Props.c34_parts"
   ],
   "note": "Delivery characterised by an iff; number and content of measurements, and calibration tag."
  },
  {
   "property": "C35",
   "status": "proved",
   "theorems": [
    "Ublox.Props.c35_write",
    "Ublox.Props.c35_parse",
    "Ublox.Props.c35_parse_iff",
    "Ublox.Props.c35_prefix_free"
   ],
   "note": "Whole table of 434 items; parse is characterised by iff."
  },
  {
   "property": "C36",
   "status": "proved",
   "theorems": [
    "Ublox.Props.c36_keys",
    "Ublox.Props.c36_key_parts",
    "Ublox.Props.c36_value_size",
    "Ublox.Props.c36_one_bit"
   ],
   "note": "Kernel evaluation over the complete table."
  },
  {
   "property": "C37",
   "status": "proved",
   "theorems": [
    "Ublox.Props.c37_iter",
    "Ublox.Props.c37_too_small"
   ],
   "note": ""
  },
  {
   "property": "C38",
   "status": "partial",
   "theorems": [
    "Ublox.Props.c38_frame_partial",
    "Ublox.Props.c38_injective",
    "Ublox.Props.c38_parsed",
    "Ublox.Props.c38_length_wraps",
    "Ublox.Props.c38_max_not_enforced"
   ],
   "note": "Proved for payloads up to 65535 bytes, exact result in all cases. False beyond: the length wraps (c38_length_wraps)."
  },
  {
   "property": "C39",
   "status": "partial",
   "theorems": [
    "Ublox.Props.c39_empty_partial",
    "Ublox.Props.c39_never_appends",
    "Ublox.Props.c39_overwrites"
   ],
   "note": "False for every non-empty output (c39_never_appends, c39_overwrites); proved for empty output."
  },
  {
   "property": "C40",
   "status": "proved",
   "theorems": [
    "Ublox.Props.c40_request",
    "Ublox.Props.c40_request_for",
    "Ublox.Props.c40_parsed",
    "Ublox.Props.c40_parsed_flb"
   ],
   "note": "Vec and fixed buffers of at least 7 bytes."
  },
  {
   "property": "C41",
   "status": "proved",
   "theorems": [
    "Ublox.Props.c41_time",
    "Ublox.Props.c41_unique"
   ],
   "note": "All delivered NAV-PVT payloads; chrono (an external crate) is modelled after its documentation, the calendar is specified independently."
  },
  {
   "property": "C42",
   "status": "proved",
   "theorems": [
    "Ublox.Props.c42_scaled_round_trip"
   ],
   "note": "All scaled fields of all packets that can be built and received; floats modelled as rationals with IEEE rounding."
  },
  {
   "property": "C43",
   "status": "partial",
   "theorems": [
    "Ublox.Props.c43_finite_partial",
    "Ublox.Props.c43_ties",
    "Ublox.Props.c43_infinite",
    "Ublox.Props.c43_nan_panics",
    "Ublox.Props.c43_nan_unsigned",
    "Ublox.Props.c43_not_nearest"
   ],
   "note": "False for NaN in signed fields (c43_nan_panics), and next to the middle of two integers the other one may be chosen (c43_not_nearest). Finite values: nearest integer up to the rounding of the float product (distance at most 1/2 + 1/50 for f32, 1/2 + 1/400000 for f64), exact saturation; infinities and unsigned NaN proved; exact ties go away from zero (c43_ties)."
  },
  {
   "property": "C44",
   "status": "partial",
   "theorems": [
    "Ublox.Props.c44_navPosLlh",
    "Ublox.Props.c44_navPvt_position",
    "Ublox.Props.c44_navPvt_velocity",
    "Ublox.Props.c44_navVelNed",
    "Ublox.Props.c44_navHpPosLlh_partial",
    "Ublox.Props.c44_hp_altitude_as_metres",
    "Ublox.Props.c44_hp_altitude_wrong",
    "Ublox.Props.c44_ecef_decimetres",
    "Ublox.Props.c44_ecef_wrong"
   ],
   "note": "False for NavHpPosEcef, which is ten times too large (c44_ecef_decimetres, c44_ecef_wrong), and for the altitude of NavHpPosLlh unless height_hp_msl is 0 (c44_hp_altitude_as_metres, c44_hp_altitude_wrong). Proved for NavPosLlh, NavPvt, NavVelNed and latitude/longitude of NavHpPosLlh, with error bounds."
  },
  {
   "property": "C45",
   "status": "proved",
   "theorems": [
    "Ublox.Props.c45_delivered",
    "Ublox.Props.c45_ack",
    "Ublox.Props.c45_nak",
    "Ublox.Props.c45_exclusive",
    "Ublox.Props.c45_set_rate"
   ],
   "note": "Both acknowledgement packets and both set_rate_for functions."
  },
  {
   "property": "C46",
   "status": "partial",
   "theorems": [
    "Ublox.Props.c46_limit",
    "Ublox.Props.c46_vec_bounded",
    "Ublox.Props.c46_flb_bounded",
    "Ublox.Props.c46_deliverable_partial",
    "Ublox.Props.c46_eph_shadowed",
    "Ublox.Props.c46_unlisted",
    "Ublox.Props.c46_deliverable_iff"
   ],
   "note": "False for MgaGpsEPH (shadowed by MgaGpsEph, c46_eph_shadowed) and for CfgInf/CfgNavX5 (not listed, c46_unlisted). Proved for all other packet types (c46_deliverable_iff)."
  },
  {
   "property": "C47",
   "status": "partial",
   "theorems": [
    "Ublox.Props.c47_entries",
    "Ublox.Props.c47_distinct_partial",
    "Ublox.Props.c47_distinct_iff",
    "Ublox.Props.c47_duplicate_keys"
   ],
   "note": "False for AckAck, AckNak, MgaAck (c47_duplicate_keys). Proved for all other packet types; c47_distinct_iff: keys are distinct exactly for these."
  },
  {
   "property": "C48",
   "status": "partial",
   "theorems": [
    "Ublox.Props.c48_set_position",
    "Ublox.Props.c48_set_time_partial",
    "Ublox.Props.c48_date_wrong",
    "Ublox.Props.c48_day_wrong",
    "Ublox.Props.c48_before_2000",
    "Ublox.Props.c48_message"
   ],
   "note": "set_position proved completely. set_time: no panic from 2000 on, nanoseconds, flags, frame condition and message bytes proved; YYMM is always one too small and the day is never stored (c48_date_wrong, c48_day_wrong); years before 2000 panic."
  },
  {
   "property": "C49",
   "status": "partial",
   "theorems": [
    "Ublox.Props.c49_flb_frames_sublist_partial",
    "Ublox.Props.c49_flb_glues_bytes",
    "Ublox.Props.c49_flb_contiguous_if_room",
    "Ublox.Props.c49_flb_complete_if_room"
   ],
   "note": "False: a 6-byte buffer glues bytes across lost ones (c49_flb_glues_bytes). Proved: the frames are a subsequence of the fed bytes for every call pattern; they are contiguous, disjoint, in order and complete when every iterator is exhausted or its chunk fits in the free space (c49_flb_contiguous_if_room, c49_flb_complete_if_room)."
  },
  {
   "property": "C50",
   "status": "proved",
   "theorems": [
    "Ublox.Props.c50_scaled",
    "Ublox.Props.c50_unscaled"
   ],
   "note": "All scaled fields of all readable packets."
  },
  {
   "property": "C51",
   "status": "partial",
   "theorems": [
    "Ublox.Props.c51_navPosLlh_partial",
    "Ublox.Props.c51_navPvt_partial",
    "Ublox.Props.c51_lost_unit"
   ],
   "note": "False: 13e-7 degrees comes back as 12e-7 (c51_lost_unit). Proved: the received integer or its neighbour toward zero."
  },
  {
   "property": "C52",
   "status": "proved",
   "theorems": [
    "Ublox.Props.c52_serialized",
    "Ublox.Props.c52_unknown"
   ],
   "note": "All packets and delivered payloads; the serde serializer is represented by the sequence of entries handed to it. Unknown frames: c52_unknown."
  },
  {
   "property": "C53",
   "status": "partial",
   "theorems": [
    "Ublox.Props.c53_kept_partial",
    "Ublox.Props.c53_rebuild_partial",
    "Ublox.Props.c53_rebuild_iff",
    "Ublox.Props.c53_uart_reserved_bits_lost",
    "Ublox.Props.c53_itfm_changed"
   ],
   "note": "False for reserved bits of the CFG-PRT mode word (c53_uart_reserved_bits_lost) and for CFG-ITFM (c53_itfm_changed). Proved for every field not affected by these, including scaled ones; c53_rebuild_iff gives the exact condition."
  },
  {
   "property": "C54",
   "status": "partial",
   "theorems": [
    "Ublox.Props.c54_velocity_partial",
    "Ublox.Props.c54_negative_vz",
    "Ublox.Props.c54_vz_iff"
   ],
   "note": "False for every negative ecef_vz (c54_negative_vz), which is declared unsigned; proved for the other components and for non-negative ecef_vz."
  },
  {
   "property": "C55",
   "status": "partial",
   "theorems": [
    "Ublox.Props.c55_layout_partial",
    "Ublox.Props.c55_accepted",
    "Ublox.Props.c55_crate",
    "Ublox.Props.c55_wrong_position",
    "Ublox.Props.c55_validate_panics"
   ],
   "note": "False for declarations with a field of fixed or open size after one with a size function (c55_wrong_position, c55_validate_panics). Proved for all other accepted declarations; every declaration of the crate is of that kind (c55_crate)."
  },
  {
   "property": "C56",
   "status": "proved",
   "theorems": [
    "Ublox.Props.c56_which",
    "Ublox.Props.c56_rest",
    "Ublox.Props.c56_default",
    "Ublox.Props.c56_received",
    "Ublox.Props.c56_enums",
    "Ublox.Props.c56_flags",
    "Ublox.Props.c56_raw"
   ],
   "note": "AID-INI cannot be received and CFG-INF and CFG-NAVX5 are not in the list of received packets (C46), so the read-back part is about the other seven. The defaults of the field types are c56_raw, c56_enums and c56_flags."
  },
  {
   "property": "C57",
   "status": "partial",
   "theorems": [
    "Ublox.Props.c57_reading_partial",
    "Ublox.Props.c57_slice_partial",
    "Ublox.Props.c57_accepts",
    "Ublox.Props.c57_departures_received",
    "Ublox.Props.c57_building",
    "Ublox.Props.c57_complete",
    "Ublox.Props.c57_departures",
    "Ublox.Props.c57_departures_read",
    "Ublox.Props.c57_departures_listed"
   ],
   "note": "Against an independent table of the interface description (Spec/Protocol.lean). False for 33 accessors (departures, c57_departures): ground_speed of NAV-PVT, ecef_vz of NAV-VELECEF and mean_v of TIM-SVIN have the wrong signedness, height_hp_meters of NAV-HPPOSLLH is in millimetres, MgaGpsIono has no scale factors, MgaGpsEPH has powers of ten times two instead of powers of two. Proved for all other accessors and all builders; what these 33 return instead is c57_departures_read."
  },
  {
   "property": "C58",
   "status": "partial",
   "theorems": [
    "Ublox.Props.c58_flags_partial",
    "Ublox.Props.c58_flags_complete",
    "Ublox.Props.c58_flags_wrong",
    "Ublox.Props.c58_enums_partial",
    "Ublox.Props.c58_enums_sent",
    "Ublox.Props.c58_enums_complete",
    "Ublox.Props.c58_enums_wrong",
    "Ublox.Props.c58_antenna_wrong",
    "Ublox.Props.c58_reading_flags_partial",
    "Ublox.Props.c58_reading_enums_partial"
   ],
   "note": "Against an independent table of codes (Spec/Codes.lean). False for the receiver modes of CFG-TMODE3, the time grid and sync mode of CFG-TP5 (c58_flags_wrong), the power save state of NAV-STATUS when spoofing detection reports anything (c58_enums_wrong) and the antenna setting of CFG-ITFM (c58_antenna_wrong). Proved for all other flags and variants."
  },
  {
   "property": "C59",
   "status": "proved",
   "theorems": [
    "Ublox.Props.c59_enum_from",
    "Ublox.Props.c59_enum_unchecked",
    "Ublox.Props.c59_flags_accepted",
    "Ublox.Props.c59_flags",
    "Ublox.Props.c59_flags_extend",
    "Ublox.Props.c59_enum_extend",
    "Ublox.Props.c59_enum_compiles",
    "Ublox.Props.c59_crate"
   ],
   "note": "For arbitrary declarations; the check of the flags macro compares set sizes and is proved to mean different single bits. What rustc refuses by itself (equal names or discriminants, match not exhaustive) is EnumDesc.compiles, characterised by c59_enum_compiles."
  },
  {
   "property": "C60",
   "status": "proved",
   "theorems": [
    "Ublox.Props.c60_vec_no_frame_lost",
    "Ublox.Props.c60_vec_all_frames",
    "Ublox.Props.c60_flb_all_frames",
    "Ublox.Props.c60_vec_no_sync"
   ],
   "note": "Invariant along the session: the frames not yet returned are still ahead. For every dispatch, growable and fixed buffers."
  },
  {
   "property": "C61",
   "status": "proved",
   "theorems": [
    "Ublox.Props.c61_text"
   ],
   "note": "UTF-8 is the set of encodings of lists of Unicode scalar values."
  },
  {
   "property": "C62",
   "status": "proved",
   "theorems": [
    "Ublox.Props.c62_update",
    "Ublox.Props.c62_returns",
    "Ublox.Props.c62_panics",
    "Ublox.Props.c62_endless",
    "Ublox.Props.c62_calls"
   ],
   "note": "The port is an arbitrary sequence of answers; updates over any number of calls compose."
  },
  {
   "property": "C63",
   "status": "proved",
   "theorems": [
    "Ublox.Props.c63_returns",
    "Ublox.Props.c63_no_panic",
    "Ublox.Props.c63_ends",
    "Ublox.Props.c63_never",
    "Ublox.Props.c63_refused",
    "Ublox.Props.c63_busy_line"
   ],
   "note": "Also shows that a refused message and a busy line make the program wait for ever."
  },
  {
   "property": "C64",
   "status": "proved",
   "theorems": [
    "Ublox.Props.c64_navPvt",
    "Ublox.Props.c64_monVer",
    "Ublox.Props.c64_handler",
    "Ublox.Props.c64_crashes",
    "Ublox.Props.c64_stops",
    "Ublox.Props.c64_runs",
    "Ublox.Props.c64_printed"
   ],
   "note": "Port and reads arbitrary; the loop ends exactly in the named cases (c64_crashes, c64_stops, c64_runs)."
  },
  {
   "property": "C65",
   "status": "partial",
   "theorems": [
    "Ublox.Props.c65_sends",
    "Ublox.Props.c65_as_asked_partial",
    "Ublox.Props.c65_parity_exchanged",
    "Ublox.Props.c65_baud_ignored",
    "Ublox.Props.c65_not_as_asked",
    "Ublox.Props.c65_port_opened",
    "Ublox.Props.c65_start",
    "Ublox.Props.c65_reached",
    "Ublox.Props.c65_start_configured"
   ],
   "note": "Everything as asked except parity (even and odd are exchanged, c65_parity_exchanged, c65_port_opened) and baud rate (always 9600, or a panic with debug assertions, c65_baud_ignored); c65_not_as_asked shows that the full statement is false. clap itself is not modelled: the arguments are arbitrary values."
  },
  {
   "property": "C66",
   "status": "proved",
   "theorems": [
    "Ublox.Props.c66_keys",
    "Ublox.Props.c66_writes",
    "Ublox.Props.c66_reads",
    "Ublox.Props.c66_parts"
   ],
   "note": "The table of the interface description (Spec/Keys.lean) was written from the description, names are compared without case and separators."
  },
  {
   "property": "C67",
   "status": "proved",
   "theorems": [
    "Ublox.Props.c67_header",
    "Ublox.Props.c67_header_order",
    "Ublox.Props.c67_arguments",
    "Ublox.Props.c67_field",
    "Ublox.Props.c67_declaration",
    "Ublox.Props.c67_unambiguous",
    "Ublox.Props.c67_crate",
    "Ublox.Props.c67_code_determines",
    "Ublox.Props.c67_checks"
   ],
   "note": "From tokens on; syn is modelled as far as used (Model/Input.lean says how). The tokens of the declarations of the crate are in Model/GenDecls.lean; that they are those of the source text is C89."
  },
  {
   "property": "C68",
   "status": "partial",
   "theorems": [
    "Ublox.Props.c68_effective_partial",
    "Ublox.Props.c68_effective_iff",
    "Ublox.Props.c68_header_partial",
    "Ublox.Props.c68_crate_partial",
    "Ublox.Props.c68_argument_ignored"
   ],
   "note": "False in general: a repeated argument, a function without map_type, and a whole attribute before another one are ignored (c68_argument_ignored). Proved: arguments given once each, functions with a type, are all in effect; header keys cannot be repeated; in the crate nothing is ignored. c68_effective_iff gives the exact condition for fields."
  },
  {
   "property": "C69",
   "status": "proved",
   "theorems": [
    "Ublox.Props.c69_attributes",
    "Ublox.Props.c69_enum",
    "Ublox.Props.c69_flags",
    "Ublox.Props.c69_list",
    "Ublox.Props.c69_crate_enums",
    "Ublox.Props.c69_crate_flags",
    "Ublox.Props.c69_crate_list",
    "Ublox.Props.c69_crate_extends"
   ],
   "note": "As C67."
  },
  {
   "property": "C70",
   "status": "proved",
   "theorems": [
    "Ublox.Props.c70_any_mask",
    "Ublox.Props.c70_start",
    "Ublox.Props.c70_sections"
   ],
   "note": "The constants that ubx_extend_bitflags adds for the reserved bits make COLD_START all sixteen bits."
  },
  {
   "property": "C71",
   "status": "proved",
   "theorems": [
    "Ublox.Props.c71_accepted",
    "Ublox.Props.c71_receivable",
    "Ublox.Props.c71_vec",
    "Ublox.Props.c71_vec_exact",
    "Ublox.Props.c71_flb",
    "Ublox.Props.c71_updates"
   ],
   "note": "Conforms (Spec/EndToEnd.lean) is written from the interface description; the accessors are covered for all fields except the departures of C57."
  },
  {
   "property": "C72",
   "status": "proved",
   "theorems": [
    "Ublox.Props.c72_recv",
    "Ublox.Props.c72_linked",
    "Ublox.Props.c72_crate",
    "Ublox.Props.c72_validate"
   ],
   "note": "The meaning of the generated code is given by the evaluator of Model/Rust.lean; the generators (Model/Codegen.lean) follow output.rs and are compared with the unit tests of the macro crate. Names in generated code are resolved in Spec/Link.lean."
  },
  {
   "property": "C73",
   "status": "proved",
   "theorems": [
    "Ublox.Props.c73_fixed",
    "Ublox.Props.c73_dynamic",
    "Ublox.Props.c73_refused",
    "Ublox.Props.c73_linked",
    "Ublox.Props.c73_crate"
   ],
   "note": "Builder values have the types of the fields (what the compiler asks for)."
  },
  {
   "property": "C74",
   "status": "proved",
   "theorems": [
    "Ublox.Props.c74_enum_accepted",
    "Ublox.Props.c74_enum",
    "Ublox.Props.c74_flags_accepted",
    "Ublox.Props.c74_flags",
    "Ublox.Props.c74_crate_enums",
    "Ublox.Props.c74_crate_flags"
   ],
   "note": "from_bits_truncate and bits of the bitflags crate are given by their documented behaviour (FlagsLinks)."
  },
  {
   "property": "C75",
   "status": "proved",
   "theorems": [
    "Ublox.Props.c75_list",
    "Ublox.Props.c75_linked",
    "Ublox.Props.c75_crate",
    "Ublox.Props.c75_dispatch"
   ],
   "note": "Names are resolved by parseX of Spec/Link.lean: constants, validate and max_u16 are generated code themselves."
  },
  {
   "property": "C76",
   "status": "proved",
   "theorems": [
    "Ublox.Props.c76_packet",
    "Ublox.Props.c76_union",
    "Ublox.Props.c76_linked",
    "Ublox.Props.c76_crate_debug",
    "Ublox.Props.c76_crate",
    "Ublox.Props.c76_delivered"
   ],
   "note": "The serializer and the formatter are modelled as the list of entries given to them and do not fail. What FieldIter does is that of C52."
  },
  {
   "property": "C77",
   "status": "proved",
   "theorems": [
    "Ublox.Props.c77_message",
    "Ublox.Props.c77_injective",
    "Ublox.Props.c77_vec_reported",
    "Ublox.Props.c77_flb_reported",
    "Ublox.Props.c77_validate",
    "Ublox.Props.c77_date_time",
    "Ublox.Props.c77_date_text",
    "Ublox.Props.c77_mem_text",
    "Ublox.Props.c77_mem_writer"
   ],
   "note": "Formatting of integers by the standard library is modelled as the usual numeral (digits); that the numeral means the number is proved."
  },
  {
   "property": "C78",
   "status": "proved",
   "theorems": [
    "Ublox.Props.c78_vec_prompt",
    "Ublox.Props.c78_flb_prompt"
   ],
   "note": "At every moment at which the iterator is exhausted; decode_prefix is the statement about the reference decoder."
  },
  {
   "property": "C79",
   "status": "proved",
   "theorems": [
    "Ublox.Props.c79_fix_status",
    "Ublox.Props.c79_sv_flags",
    "Ublox.Props.c79_fix_status_same",
    "Ublox.Props.c79_sv_flags_same"
   ],
   "note": "Debug of core (debug_struct, bool, derived Debug of enums) is modelled as documented, without the alternate flag."
  },
  {
   "property": "C80",
   "status": "proved",
   "theorems": [
    "Ublox.Props.c80_bound",
    "Ublox.Props.c80_capacity",
    "Ublox.Props.c80_smallest"
   ],
   "note": "c80_capacity is an equivalence for every frame; c80_smallest is the claim of the documentation (36 bytes, NAV-POSLLH)."
  },
  {
   "property": "C81",
   "status": "proved",
   "theorems": [
    "Ublox.Props.c81_vec_wanted",
    "Ublox.Props.c81_flb_wanted",
    "Ublox.Props.c81_vec",
    "Ublox.Props.c81_flb",
    "Ublox.Props.c81_updates"
   ],
   "note": "Generalises C60 and C71: other frames may be in between if they do not reach into the frames asked about; for fixed buffers only the latter have to fit."
  },
  {
   "property": "C82",
   "status": "proved",
   "theorems": [
    "Ublox.Props.c82_two_bytes",
    "Ublox.Props.c82_odd_distance"
   ],
   "note": "Exact condition for all pairs of bytes of class, id and payload; the length field and the sync bytes are not covered (there the frame boundaries change)."
  },
  {
   "property": "C83",
   "status": "proved",
   "theorems": [
    "Ublox.Props.c83_serialized",
    "Ublox.Props.c83_entries",
    "Ublox.Props.c83_debug",
    "Ublox.Props.c83_described"
   ],
   "note": "Against an independent table of short names (Spec/Names.lean). c83_described leaves out the accessors named in C57 and UART ports with meaningless mode words (C25)."
  },
  {
   "property": "C84",
   "status": "proved",
   "theorems": [
    "Ublox.Props.c84_one_type",
    "Ublox.Props.c84_order_iff"
   ],
   "note": "All permutations; equivalence with the condition on the two types for MGA-GPS-EPH."
  },
  {
   "property": "C85",
   "status": "proved",
   "theorems": [
    "Ublox.Props.c85_vec_delay",
    "Ublox.Props.c85_flb_delay",
    "Ublox.Props.c85_delay_reached"
   ],
   "note": "The packets returned later embed in the last bytes and what follows; c85_delay_reached shows that the bound is sharp."
  },
  {
   "property": "C86",
   "status": "partial",
   "theorems": [
    "Ublox.Props.c86_like_fixed_partial",
    "Ublox.Props.c86_new_partial",
    "Ublox.Props.c86_roomy_panics"
   ],
   "note": "Proved for buffers that never hold more than max_capacity, by a simulation between any two such buffers (Lemmas/Sim.lean). False for buffers that can hold more, which the documentation allows (minimum max capacity): c86_roomy_panics, a subtraction in can_drain_and_take underflows."
  },
  {
   "property": "C87",
   "status": "proved",
   "theorems": [
    "Ublox.Props.c87_exact",
    "Ublox.Props.c87_neighbours",
    "Ublox.Props.c87_second_checksum",
    "Ublox.Props.c87_first_checksum"
   ],
   "note": "Exact condition for every damage outside sync characters and length field, with the cases of neighbours and of a checksum byte; damage of the length field changes where the frame ends and is not covered."
  },
  {
   "property": "C88",
   "status": "proved",
   "theorems": [
    "Ublox.Props.c88_same_from_then",
    "Ublox.Props.c88_old_bytes",
    "Ublox.Props.c88_used_again"
   ],
   "note": "For any two states with the same length and received bytes, for new parsers over slices with any contents, and for a slice that an earlier parser has used."
  },
  {
   "property": "C89",
   "status": "proved",
   "theorems": [
    "Ublox.Props.c89_declarations",
    "Ublox.Props.c89_interface",
    "Ublox.Props.c89_cfg_items",
    "Ublox.Props.c89_tokens",
    "Ublox.Props.c89_blank",
    "Ublox.Props.c89_parts",
    "Ublox.Props.c89_words",
    "Ublox.Props.c89_keywords",
    "Ublox.Props.c89_decimal",
    "Ublox.Props.c89_hexadecimal",
    "Ublox.Props.c89_exponent",
    "Ublox.Props.c89_point"
   ],
   "note": "The text stands verbatim in Model/GenSource.lean; the lexical structure of Rust is modelled as far as the two texts need it, anything else is refused."
  },
  {
   "property": "C90",
   "status": "proved",
   "theorems": [
    "Ublox.Props.c90_rounding",
    "Ublox.Props.c90_accessor",
    "Ublox.Props.c90_builder",
    "Ublox.Props.c90_positions",
    "Ublox.Props.c90_hp_position",
    "Ublox.Props.c90_ecef",
    "Ublox.Props.c90_set_position"
   ],
   "note": "c90_rounding: rounding to nearest, ties to even, defined over the set of numbers of binary32 and binary64 (Spec/Ieee.lean), has exactly one result. c90_accessor, c90_builder, c90_positions, c90_hp_position, c90_ecef, c90_set_position: each step of the code is such a rounding. (Whether scales and units are the documented ones is C44 and C50; here only the arithmetic.)"
  },
  {
   "property": "C91",
   "status": "proved",
   "theorems": [
    "Ublox.Props.c91_readable",
    "Ublox.Props.c91_keywords",
    "Ublox.Props.c91_vec",
    "Ublox.Props.c91_fixed",
    "Ublox.Props.c91_default_methods",
    "Ublox.Props.c91_dual",
    "Ublox.Props.c91_checksum",
    "Ublox.Props.c91_parser",
    "Ublox.Props.c91_iter",
    "Ublox.Props.c91_next",
    "Ublox.Props.c91_next_endless",
    "Ublox.Props.c91_session",
    "Ublox.Props.c91_vec_reference_decoder",
    "Ublox.Props.c91_flb_no_panic"
   ],
   "note": "The text stands verbatim in Model/GenText.lean; Model/Code.lean is the grammar and Model/Eval.lean the meaning of the part of Rust that it uses (anything else is refused). c91_vec, c91_fixed, c91_default_methods, c91_dual, c91_checksum, c91_parser, c91_iter, c91_next, c91_next_endless: function by function; c91_session: any use by a client; c91_vec_reference_decoder and c91_flb_no_panic: C05 and C01 for the text itself."
  },
  {
   "property": "C92",
   "status": "proved",
   "theorems": [
    "Ublox.Props.c92_readable",
    "Ublox.Props.c92_functions",
    "Ublox.Props.c92_fix_status",
    "Ublox.Props.c92_satellite",
    "Ublox.Props.c92_time_pulse",
    "Ublox.Props.c92_interference",
    "Ublox.Props.c92_serial_port",
    "Ublox.Props.c92_settings",
    "Ublox.Props.c92_configuration_values",
    "Ublox.Props.c92_strings",
    "Ublox.Props.c92_iterators",
    "Ublox.Props.c92_conversions",
    "Ublox.Props.c92_acknowledgements",
    "Ublox.Props.c92_sensors",
    "Ublox.Props.c92_scale_back",
    "Ublox.Props.c92_aiding",
    "Ublox.Props.c92_framing"
   ],
   "note": "The texts stand verbatim in Model/GenText.lean and Model/GenSource.lean; Model/Code.lean is the grammar and Model/Exec.lean the meaning. c92_functions: the complete list of functions; one theorem per family of functions. In c92_aiding the time has fields as chrono has them; c92_sensors needs a usize of at least 16 bits. IsCrate takes enumerations, flags and configuration items from the tables that C89 reads from the text."
  },
  {
   "property": "C93",
   "status": "proved",
   "theorems": [
    "Ublox.Props.c93_expansion",
    "Ublox.Props.c93_tables",
    "Ublox.Props.c93_items"
   ],
   "note": "Model/Macro.lean models macro_rules!: matching of tokens, expressions and types with repetitions, transcription, replacement of calls inside of items and expressions. Model/CfgProgram.lean states the result as syntax, for any table. c93_expansion: the whole file (Gen.cfgFileRs); c93_tables: any table; c93_items: name, key and type of each structure."
  },
  {
   "property": "C94",
   "status": "proved",
   "theorems": [
    "Ublox.Props.c94_readable",
    "Ublox.Props.c94_items",
    "Ublox.Props.c94_values",
    "Ublox.Props.c94_parse",
    "Ublox.Props.c94_round_trip",
    "Ublox.Props.c94_iter"
   ],
   "note": "The program is the four texts with the functions that Macro.programOf finds after expansion of cfg_val.rs (IsWhole); the evaluator of C92 runs it, without any built-in for CfgVal. Lemmas/Whole* prove the result for every table with distinct, unreserved names and keys whose size code fits the type (FineItems), Lemmas/WholeTable that the table of the file is one."
  },
  {
   "property": "C95",
   "status": "proved",
   "theorems": [
    "Ublox.Props.c95_readable",
    "Ublox.Props.c95_types",
    "Ublox.Props.c95_recv",
    "Ublox.Props.c95_crate"
   ],
   "note": "Quote.fnsOf reads the functions out of the complete text of output.rs, Quote.emitted executes one of them (Model/Quote.lean is the meaning of the part of Rust and of quote! that the file uses). Spec/Emit.lean has the tokens of the code of the model (Model/Codegen.lean), whose behaviour C72-C75 describe. By induction over the fields. The methods of a description (types.rs) are in C97. The remaining generators are in C96."
  },
  {
   "property": "C96",
   "status": "proved",
   "theorems": [
    "Ublox.Props.c96_send",
    "Ublox.Props.c96_list",
    "Ublox.Props.c96_enum",
    "Ublox.Props.c96_flags",
    "Ublox.Props.c96_crate_send",
    "Ublox.Props.c96_crate_list",
    "Ublox.Props.c96_crate_enums",
    "Ublox.Props.c96_crate_flags"
   ],
   "note": "As C95, for the other generators. The emitted tokens are given by Spec/Emit.lean for the code of Model/Codegen.lean, whose behaviour C73-C75 describe. Hypotheses: names are names, a list of packets and an enumeration are not empty, flags have at most 64 bits (the macro accepts u8, u16 and u32 only). By induction over the fields, packets, variants and bits. The texts of error messages are not compared."
  },
  {
   "property": "C97",
   "status": "proved",
   "theorems": [
    "Ublox.Props.c97_readable",
    "Ublox.Props.c97_new",
    "Ublox.Props.c97_field",
    "Ublox.Props.c97_fixed",
    "Ublox.Props.c97_sizes",
    "Ublox.Props.c97_overflow",
    "Ublox.Props.c97_called",
    "Ublox.Props.c97_crate"
   ],
   "note": "Meth.fnsOf reads the functions out of the complete text of types.rs and of lib.rs, Meth.run executes one of them (Model/Meth.lean is the meaning of the part of Rust that they use). The loop of fields_size by induction, the rest by cases. c97_called connects it to the methods that the execution of output.rs uses (C95, C96). c97_overflow: the panic on overflow is reached exactly when the sum is too large, if all sizes are known."
  },
  {
   "property": "C98",
   "status": "proved",
   "theorems": [
    "Ublox.Props.c98_readable",
    "Ublox.Props.c98_packet",
    "Ublox.Props.c98_enum",
    "Ublox.Props.c98_flags",
    "Ublox.Props.c98_list",
    "Ublox.Props.c98_wrong_item",
    "Ublox.Props.c98_crate"
   ],
   "note": "Meth.fnsOf reads the functions out of the complete text of lib.rs, Lib.expand executes a macro (Model/LibMacros.lean is the meaning of the part of Rust that they use). The generators of output.rs that they call are executed from their text too (C95, C96); the parsers of input.rs are those of the model (Model/Input.lean, C67-C69). A union is only a name."
  },
  {
   "property": "C99",
   "status": "proved",
   "theorems": [
    "Ublox.Props.c99_readable",
    "Ublox.Props.c99_receiving",
    "Ublox.Props.c99_sending",
    "Ublox.Props.c99_dispatch",
    "Ublox.Props.c99_enums",
    "Ublox.Props.c99_flags"
   ],
   "note": "Composition of C89 (text of packets.rs to declarations), C98 (macros of lib.rs and generators of output.rs executed) and C72-C75 (the generated code executed). The parsers of input.rs are modelled, not executed from their text. The syntax trees that C72-C75 execute are connected to the emitted tokens by the printer of Spec/Emit.lean, not by a parser of Rust."
  },
  {
   "property": "C100",
   "status": "proved",
   "theorems": [
    "Ublox.Props.c100_readable",
    "Ublox.Props.c100_declared",
    "Ublox.Props.c100_no_other",
    "Ublox.Props.c100_parser",
    "Ublox.Props.c100_message",
    "Ublox.Props.c100_injective",
    "Ublox.Props.c100_date",
    "Ublox.Props.c100_mem"
   ],
   "note": "Msg.messagesOf reads the implementations of Display out of the complete text of error.rs, Msg.declsOf the declarations of the enumerations, Msg.display is what they write (Model/Messages.lean is the meaning of match, write_str and write! with the placeholders {} and {:x}). Compared with the specification of C77 (Spec/Text.lean). An error of the formatter is left out."
  }
 ]
}