import Verif.Lemmas.ExecDebug
import Verif.Lemmas.ExecIter
import Verif.Lemmas.GenCode2

/-!
# C92: the hand-written functions of the packets are those of the text

`Code.programOf` finds the functions, structures and enumerations in a text and `Exec.run` executes them.  The
theorems say that the functions in the texts of `ublox/src/ubx_packets.rs`, `ubx_packets/types.rs`,
`ubx_packets/cfg_val.rs:1-49` and `ubx_packets/packets.rs` do what the model does.
-/

set_option autoImplicit false

namespace Ublox.Props

open Spec Gen Exec
open Code (lift modName)

/-- The program in the texts of the four files: functions, structures and enumerations as read from the text,
and the declarations that macros work on, which are those of the text by C89. -/
structure IsCrate (prog : Exec.Prog) : Prop where
  reads : ∃ base types cfg packets,
    Code.programOf (Src.codes (String.join metaRs)) = some base ∧
    Code.programOf (Src.codes (String.join typesRs)) = some types ∧
    Code.programOf (Src.codes (String.join cfgHeadRs)) = some cfg ∧
    Code.programOf (Src.codes (String.join packetsRs)) = some packets ∧
    prog.impls = base.1 ++ types.1 ++ cfg.1 ++ packets.1 ∧
    prog.decls = base.2 ++ types.2 ++ cfg.2 ++ packets.2
  enums : prog.enums = allEnums
  flags : prog.flags = allFlags
  items : prog.items = cfgItems

theorem isCrate_iff {prog : Exec.Prog} : IsCrate prog ↔ prog = program := by
  constructor
  · rintro ⟨⟨m, t, c, p, hm, ht, hc, hp, h1, h2⟩, h3, h4, h5⟩
    rw [metaRs_program] at hm
    rw [typesRs_program] at ht
    rw [cfgHeadRs_program] at hc
    rw [packetsRs_program] at hp
    cases hm; cases ht; cases hc; cases hp
    cases prog
    simp only at h1 h2 h3 h4 h5
    subst h1 h2 h3 h4 h5
    rfl
  · rintro rfl
    exact ⟨⟨_, _, _, _, metaRs_program, typesRs_program, cfgHeadRs_program, packetsRs_program, rfl, rfl⟩, rfl, rfl, rfl⟩

/-- **C92**: every function of the texts can be read. -/
theorem c92_readable : ∃ prog, IsCrate prog := ⟨_, isCrate_iff.mpr rfl⟩

section

variable {prog : Exec.Prog} (hp : IsCrate prog) (m : Mach) {depth : Nat} (hd : 4 ≤ depth)

attribute [local irreducible] Exec.run Code.lift Exec.runFn

include hp in
/-- **C92**: these are the implementations and functions of the texts; all but the two of `FieldIter` are
covered below (`MemWriter`, `UbxPacketMeta`, `UbxPacketCreator` and `SerializeUbxPacketFields` are traits without
functions that have a body). -/
theorem c92_functions : prog.impls.map (fun i => (i.trait, i.type, i.fns.map (·.name))) = [
    ([i!"UbxPacketMeta"], i!"UbxPacketMeta", []),
    ([i!"mod"], i!"", [i!"SYNC_CHAR_1"]),
    ([i!"mod"], i!"", [i!"SYNC_CHAR_2"]),
    ([i!"mod"], i!"", [i!"ubx_checksum"]),
    ([], i!"UbxChecksumCalc", [i!"update", i!"result"]),
    ([i!"MemWriter"], i!"MemWriter", []),
    ([i!"MemWriter"], i!"Vec", [i!"reserve_allocate", i!"write"]),
    ([i!"UbxPacketCreator"], i!"UbxPacketCreator", []),
    ([], i!"UbxPacketRequest", [i!"PACKET_LEN", i!"request_for", i!"request_for_unknown",
      i!"into_packet_bytes"]),
    ([i!"From", i!"NavPosLlhRef"], i!"Position", [i!"from"]),
    ([i!"From", i!"NavHpPosLlhRef"], i!"Position", [i!"from"]),
    ([i!"From", i!"NavHpPosEcefRef"], i!"PositionECEF", [i!"from"]),
    ([i!"From", i!"NavVelNedRef"], i!"Velocity", [i!"from"]),
    ([i!"From", i!"NavPvtRef"], i!"Position", [i!"from"]),
    ([i!"From", i!"NavPvtRef"], i!"Velocity", [i!"from"]),
    ([i!"TryFrom", i!"NavPvtRef"], i!"DateTime", [i!"try_from"]),
    ([i!"fmt", i!"Debug"], i!"FieldIter", [i!"fmt"]),
    ([i!"serde", i!"Serialize"], i!"FieldIter", [i!"serialize"]),
    ([], i!"StorageSize", [i!"to_usize"]),
    ([], i!"KeyId", [i!"SIZE", i!"value_size", i!"group_id", i!"item_id"]),
    ([i!"SerializeUbxPacketFields"], i!"SerializeUbxPacketFields", []),
    ([], i!"FixStatusInfo", [i!"has_pr_prr_correction", i!"map_matching", i!"from"]),
    ([i!"fmt", i!"Debug"], i!"FixStatusInfo", [i!"fmt"]),
    ([], i!"NavSatSvFlags", [i!"quality_ind", i!"sv_used", i!"health",
      i!"differential_correction_available", i!"smoothed", i!"orbit_source", i!"ephemeris_available",
      i!"almanac_available", i!"an_offline_available", i!"an_auto_available", i!"sbas_corr", i!"rtcm_corr",
      i!"slas_corr", i!"spartn_corr", i!"pr_corr", i!"cr_corr", i!"do_corr", i!"from"]),
    ([i!"fmt", i!"Debug"], i!"NavSatSvFlags", [i!"fmt"]),
    ([], i!"NavSatIter", [i!"new", i!"is_valid"]),
    ([i!"core", i!"iter", i!"Iterator"], i!"NavSatIter", [i!"next"]),
    ([], i!"CfgItfmConfig", [i!"new", i!"into_raw"]),
    ([i!"From", i!"u32"], i!"CfgItfmConfig", [i!"from"]),
    ([], i!"CfgItfmBbThreshold", [i!"POSITION", i!"LENGTH", i!"MASK", i!"into_raw"]),
    ([i!"Default"], i!"CfgItfmBbThreshold", [i!"default"]),
    ([i!"From", i!"u32"], i!"CfgItfmBbThreshold", [i!"from"]),
    ([], i!"CfgItfmCwThreshold", [i!"POSITION", i!"LENGTH", i!"MASK", i!"into_raw"]),
    ([i!"Default"], i!"CfgItfmCwThreshold", [i!"default"]),
    ([i!"From", i!"u32"], i!"CfgItfmCwThreshold", [i!"from"]),
    ([], i!"CfgItfmAlgoBits", [i!"POSITION", i!"LENGTH", i!"MASK", i!"into_raw"]),
    ([i!"Default"], i!"CfgItfmAlgoBits", [i!"default"]),
    ([i!"From", i!"u32"], i!"CfgItfmAlgoBits", [i!"from"]),
    ([], i!"CfgItfmConfig2", [i!"new", i!"into_raw"]),
    ([i!"From", i!"u32"], i!"CfgItfmConfig2", [i!"from"]),
    ([], i!"CfgItfmGeneralBits", [i!"POSITION", i!"LENGTH", i!"MASK", i!"into_raw"]),
    ([i!"Default"], i!"CfgItfmGeneralBits", [i!"default"]),
    ([i!"From", i!"u32"], i!"CfgItfmGeneralBits", [i!"from"]),
    ([i!"From", i!"u32"], i!"CfgItfmAntennaSettings", [i!"from"]),
    ([i!"mod"], i!"inf", [i!"convert_to_str", i!"is_valid"]),
    ([], i!"AidIniBuilder", [i!"set_position", i!"set_time"]),
    ([], i!"AckAckRef", [i!"is_ack_for"]),
    ([], i!"AckNakRef", [i!"is_nak_for"]),
    ([i!"From", i!"NavBbrPredefinedMask"], i!"NavBbrMask", [i!"from"]),
    ([], i!"NavBbrPredefinedMask", [i!"HOT_START", i!"WARM_START", i!"COLD_START"]),
    ([], i!"ResetMode", [i!"into_raw"]),
    ([], i!"CfgValIter", [i!"new"]),
    ([i!"core", i!"iter", i!"Iterator"], i!"CfgValIter", [i!"next"]),
    ([i!"Default"], i!"CfgLayer", [i!"default"]),
    ([], i!"UartMode", [i!"new", i!"into_raw"]),
    ([i!"From", i!"u32"], i!"UartMode", [i!"from"]),
    ([], i!"DataBits", [i!"POSITION", i!"MASK", i!"into_raw"]),
    ([i!"From", i!"u32"], i!"DataBits", [i!"from"]),
    ([], i!"Parity", [i!"POSITION", i!"MASK", i!"into_raw"]),
    ([i!"From", i!"u32"], i!"Parity", [i!"from"]),
    ([], i!"StopBits", [i!"POSITION", i!"MASK", i!"into_raw"]),
    ([i!"From", i!"u32"], i!"StopBits", [i!"from"]),
    ([], i!"AlignmentToReferenceTime", [i!"into_raw"]),
    ([], i!"CfgMsgSinglePortBuilder", [i!"set_rate_for"]),
    ([], i!"CfgMsgAllPortsBuilder", [i!"set_rate_for"]),
    ([], i!"ScaleBack", [i!"as_i8", i!"as_i16", i!"as_i32", i!"as_u32", i!"as_u16", i!"as_u8"]),
    ([], i!"TimTpFlags", [i!"time_base", i!"utc_available", i!"raim_active", i!"q_err_valid"]),
    ([], i!"TimTpRefInfo", [i!"time_ref_gnss", i!"utc_standard"]),
    ([], i!"TimTm2Flags", [i!"mode", i!"run", i!"new_falling_edge", i!"new_rising_edge", i!"time_base",
      i!"utc_available", i!"time_valid"]),
    ([], i!"MonVerExtensionIter", [i!"new", i!"is_valid"]),
    ([i!"core", i!"iter", i!"Iterator"], i!"MonVerExtensionIter", [i!"next"]),
    ([i!"mod"], i!"mon_ver", [i!"convert_to_str_unchecked", i!"is_cstr_valid"]),
    ([], i!"EsfMeas", [i!"calib_tag"]),
    ([], i!"EsfMeasRef", [i!"data_len", i!"calib_tag_len"]),
    ([], i!"EsfMeasDataIter", [i!"new", i!"is_valid"]),
    ([i!"core", i!"iter", i!"Iterator"], i!"EsfMeasDataIter", [i!"next"]),
    ([], i!"EsfRawDataIter", [i!"new", i!"is_valid"]),
    ([i!"core", i!"iter", i!"Iterator"], i!"EsfRawDataIter", [i!"next"]),
    ([], i!"DwrdIter", [i!"new", i!"is_valid"]),
    ([i!"core", i!"iter", i!"Iterator"], i!"DwrdIter", [i!"next"]),
    ([], i!"RxmRawxInfoIter", [i!"new", i!"is_valid"]),
    ([i!"core", i!"iter", i!"Iterator"], i!"RxmRawxInfoIter", [i!"next"])] := by
  rw [isCrate_iff] at hp
  subst hp
  kernel_rfl

include hp hd

/-- **C92**: the flags of a navigation solution (`ublox/src/ubx_packets/packets.rs:502-545`). -/
theorem c92_fix_status :
    (∀ (x : UInt8), run prog m depth [] i!"FixStatusInfo" i!"has_pr_prr_correction" [.adt
      [i!"FixStatusInfo"] [.u8 x]] = .ok (.bool (FixStatusInfo.hasPrPrrCorrection x), wrapV i!"FixStatusInfo"
      (.u8 x))) ∧
    (∀ (x : UInt8), run prog m depth [] i!"FixStatusInfo" i!"map_matching" [.adt [i!"FixStatusInfo"] [.u8
      x]] = returns (FixStatusInfo.mapMatching x) (wrapV i!"FixStatusInfo" (.u8 x)) mapMatchingV) ∧
    (∀ (x : UInt8), run prog m depth [] i!"FixStatusInfo" i!"from" [.u8 x] = .ok (wrapV i!"FixStatusInfo"
      (.u8 x), .unit)) ∧
    (∀ (x : UInt8), run prog m depth [] i!"FixStatusInfo" i!"fmt" [.adt [i!"FixStatusInfo"] [.u8 x],
      .formatter] = returns (FixStatusInfo.debug x) (wrapV i!"FixStatusInfo" (.u8 x)) .string) := by
  obtain ⟨k, rfl⟩ := Nat.exists_eq_add_of_le' hd
  rw [isCrate_iff] at hp
  subst hp
  exact ⟨fun x => Exec.FixStatusInfo_has_pr_prr_correction m _ x,
    fun x => Exec.FixStatusInfo_map_matching m _ x,
    fun x => Exec.FixStatusInfo_from m _ x,
    fun x => Exec.FixStatusInfo_fmt m _ x⟩

/-- **C92**: the flags of a satellite (`ublox/src/ubx_packets/packets.rs:559-718`). -/
theorem c92_satellite :
    (∀ (x : UInt32), run prog m depth [] i!"NavSatSvFlags" i!"from" [.u32 x] = .ok (wrapV i!"NavSatSvFlags"
      (.u32 x), .unit)) ∧
    (∀ (x : UInt32), run prog m depth [] i!"NavSatSvFlags" i!"quality_ind" [.adt [i!"NavSatSvFlags"] [.u32
      x]] = returns (NavSatSvFlags.qualityInd x) (wrapV i!"NavSatSvFlags" (.u32 x)) qualityV) ∧
    (∀ (x : UInt32), run prog m depth [] i!"NavSatSvFlags" i!"health" [.adt [i!"NavSatSvFlags"] [.u32 x]] =
      .ok (healthV (NavSatSvFlags.health x), wrapV i!"NavSatSvFlags" (.u32 x))) ∧
    (∀ (x : UInt32), run prog m depth [] i!"NavSatSvFlags" i!"orbit_source" [.adt [i!"NavSatSvFlags"] [.u32
      x]] = .ok (orbitV (NavSatSvFlags.orbitSource x), wrapV i!"NavSatSvFlags" (.u32 x))) ∧
    (∀ (x : UInt32), run prog m depth [] i!"NavSatSvFlags" i!"sv_used" [.adt [i!"NavSatSvFlags"] [.u32 x]] =
      .ok (.bool (NavSatSvFlags.svUsed x), wrapV i!"NavSatSvFlags" (.u32 x))) ∧
    (∀ (x : UInt32), run prog m depth [] i!"NavSatSvFlags" i!"differential_correction_available" [.adt
      [i!"NavSatSvFlags"] [.u32 x]] = .ok (.bool (NavSatSvFlags.differentialCorrectionAvailable x), wrapV
      i!"NavSatSvFlags" (.u32 x))) ∧
    (∀ (x : UInt32), run prog m depth [] i!"NavSatSvFlags" i!"smoothed" [.adt [i!"NavSatSvFlags"] [.u32 x]]
      = .ok (.bool (NavSatSvFlags.smoothed x), wrapV i!"NavSatSvFlags" (.u32 x))) ∧
    (∀ (x : UInt32), run prog m depth [] i!"NavSatSvFlags" i!"ephemeris_available" [.adt [i!"NavSatSvFlags"]
      [.u32 x]] = .ok (.bool (NavSatSvFlags.ephemerisAvailable x), wrapV i!"NavSatSvFlags" (.u32 x))) ∧
    (∀ (x : UInt32), run prog m depth [] i!"NavSatSvFlags" i!"almanac_available" [.adt [i!"NavSatSvFlags"]
      [.u32 x]] = .ok (.bool (NavSatSvFlags.almanacAvailable x), wrapV i!"NavSatSvFlags" (.u32 x))) ∧
    (∀ (x : UInt32), run prog m depth [] i!"NavSatSvFlags" i!"an_offline_available" [.adt
      [i!"NavSatSvFlags"] [.u32 x]] = .ok (.bool (NavSatSvFlags.anOfflineAvailable x), wrapV i!"NavSatSvFlags"
      (.u32 x))) ∧
    (∀ (x : UInt32), run prog m depth [] i!"NavSatSvFlags" i!"an_auto_available" [.adt [i!"NavSatSvFlags"]
      [.u32 x]] = .ok (.bool (NavSatSvFlags.anAutoAvailable x), wrapV i!"NavSatSvFlags" (.u32 x))) ∧
    (∀ (x : UInt32), run prog m depth [] i!"NavSatSvFlags" i!"sbas_corr" [.adt [i!"NavSatSvFlags"] [.u32 x]]
      = .ok (.bool (NavSatSvFlags.sbasCorr x), wrapV i!"NavSatSvFlags" (.u32 x))) ∧
    (∀ (x : UInt32), run prog m depth [] i!"NavSatSvFlags" i!"rtcm_corr" [.adt [i!"NavSatSvFlags"] [.u32 x]]
      = .ok (.bool (NavSatSvFlags.rtcmCorr x), wrapV i!"NavSatSvFlags" (.u32 x))) ∧
    (∀ (x : UInt32), run prog m depth [] i!"NavSatSvFlags" i!"slas_corr" [.adt [i!"NavSatSvFlags"] [.u32 x]]
      = .ok (.bool (NavSatSvFlags.slasCorr x), wrapV i!"NavSatSvFlags" (.u32 x))) ∧
    (∀ (x : UInt32), run prog m depth [] i!"NavSatSvFlags" i!"spartn_corr" [.adt [i!"NavSatSvFlags"] [.u32
      x]] = .ok (.bool (NavSatSvFlags.spartnCorr x), wrapV i!"NavSatSvFlags" (.u32 x))) ∧
    (∀ (x : UInt32), run prog m depth [] i!"NavSatSvFlags" i!"pr_corr" [.adt [i!"NavSatSvFlags"] [.u32 x]] =
      .ok (.bool (NavSatSvFlags.prCorr x), wrapV i!"NavSatSvFlags" (.u32 x))) ∧
    (∀ (x : UInt32), run prog m depth [] i!"NavSatSvFlags" i!"cr_corr" [.adt [i!"NavSatSvFlags"] [.u32 x]] =
      .ok (.bool (NavSatSvFlags.crCorr x), wrapV i!"NavSatSvFlags" (.u32 x))) ∧
    (∀ (x : UInt32), run prog m depth [] i!"NavSatSvFlags" i!"do_corr" [.adt [i!"NavSatSvFlags"] [.u32 x]] =
      .ok (.bool (NavSatSvFlags.doCorr x), wrapV i!"NavSatSvFlags" (.u32 x))) ∧
    (∀ (x : UInt32), run prog m depth [] i!"NavSatSvFlags" i!"fmt" [.adt [i!"NavSatSvFlags"] [.u32 x],
      .formatter] = returns (NavSatSvFlags.debug x) (wrapV i!"NavSatSvFlags" (.u32 x)) .string) := by
  obtain ⟨k, rfl⟩ := Nat.exists_eq_add_of_le' hd
  rw [isCrate_iff] at hp
  subst hp
  exact ⟨fun x => Exec.NavSatSvFlags_from m _ x,
    fun x => Exec.NavSatSvFlags_quality_ind m _ x,
    fun x => Exec.NavSatSvFlags_health m _ x,
    fun x => Exec.NavSatSvFlags_orbit_source m _ x,
    fun x => Exec.NavSatSvFlags_sv_used m _ x,
    fun x => Exec.NavSatSvFlags_differential_correction_available m _ x,
    fun x => Exec.NavSatSvFlags_smoothed m _ x,
    fun x => Exec.NavSatSvFlags_ephemeris_available m _ x,
    fun x => Exec.NavSatSvFlags_almanac_available m _ x,
    fun x => Exec.NavSatSvFlags_an_offline_available m _ x,
    fun x => Exec.NavSatSvFlags_an_auto_available m _ x,
    fun x => Exec.NavSatSvFlags_sbas_corr m _ x,
    fun x => Exec.NavSatSvFlags_rtcm_corr m _ x,
    fun x => Exec.NavSatSvFlags_slas_corr m _ x,
    fun x => Exec.NavSatSvFlags_spartn_corr m _ x,
    fun x => Exec.NavSatSvFlags_pr_corr m _ x,
    fun x => Exec.NavSatSvFlags_cr_corr m _ x,
    fun x => Exec.NavSatSvFlags_do_corr m _ x,
    fun x => Exec.NavSatSvFlags_fmt m _ x⟩

/-- **C92**: the flags of TIM-TP and TIM-TM2 (`ublox/src/ubx_packets/packets.rs`). -/
theorem c92_time_pulse :
    (∀ (x : UInt8), run prog m depth [] i!"TimTpFlags" i!"time_base" [.adt [i!"TimTpFlags"] [.u8 x]] = .ok
      (tpTimeBaseV (TimTpFlags.timeBase x), wrapV i!"TimTpFlags" (.u8 x))) ∧
    (∀ (x : UInt8), run prog m depth [] i!"TimTpFlags" i!"raim_active" [.adt [i!"TimTpFlags"] [.u8 x]] = .ok
      (optV ((TimTpFlags.raimActive x).map .bool), wrapV i!"TimTpFlags" (.u8 x))) ∧
    (∀ (x : UInt8), run prog m depth [] i!"TimTpFlags" i!"utc_available" [.adt [i!"TimTpFlags"] [.u8 x]] =
      .ok (.bool (TimTpFlags.utcAvailable x), wrapV i!"TimTpFlags" (.u8 x))) ∧
    (∀ (x : UInt8), run prog m depth [] i!"TimTpFlags" i!"q_err_valid" [.adt [i!"TimTpFlags"] [.u8 x]] = .ok
      (.bool (TimTpFlags.qErrValid x), wrapV i!"TimTpFlags" (.u8 x))) ∧
    (∀ (x : UInt8), run prog m depth [] i!"TimTpRefInfo" i!"time_ref_gnss" [.adt [i!"TimTpRefInfo"] [.u8 x]]
      = .ok (optV ((TimTpRefInfo.timeRefGnss x).map refGnssV), wrapV i!"TimTpRefInfo" (.u8 x))) ∧
    (∀ (x : UInt8), run prog m depth [] i!"TimTpRefInfo" i!"utc_standard" [.adt [i!"TimTpRefInfo"] [.u8 x]]
      = .ok (optV ((TimTpRefInfo.utcStandard x).map utcStandardV), wrapV i!"TimTpRefInfo" (.u8 x))) ∧
    (∀ (x : UInt8), run prog m depth [] i!"TimTm2Flags" i!"mode" [.adt [i!"TimTm2Flags"] [.u8 x]] = .ok
      (tm2ModeV (TimTm2Flags.mode x), wrapV i!"TimTm2Flags" (.u8 x))) ∧
    (∀ (x : UInt8), run prog m depth [] i!"TimTm2Flags" i!"run" [.adt [i!"TimTm2Flags"] [.u8 x]] = .ok
      (tm2RunV (TimTm2Flags.run x), wrapV i!"TimTm2Flags" (.u8 x))) ∧
    (∀ (x : UInt8), run prog m depth [] i!"TimTm2Flags" i!"time_base" [.adt [i!"TimTm2Flags"] [.u8 x]] =
      returns (TimTm2Flags.timeBase x) (wrapV i!"TimTm2Flags" (.u8 x)) tm2TimeBaseV) ∧
    (∀ (x : UInt8), run prog m depth [] i!"TimTm2Flags" i!"new_falling_edge" [.adt [i!"TimTm2Flags"] [.u8
      x]] = .ok (.bool (TimTm2Flags.newFallingEdge x), wrapV i!"TimTm2Flags" (.u8 x))) ∧
    (∀ (x : UInt8), run prog m depth [] i!"TimTm2Flags" i!"new_rising_edge" [.adt [i!"TimTm2Flags"] [.u8 x]]
      = .ok (.bool (TimTm2Flags.newRisingEdge x), wrapV i!"TimTm2Flags" (.u8 x))) ∧
    (∀ (x : UInt8), run prog m depth [] i!"TimTm2Flags" i!"utc_available" [.adt [i!"TimTm2Flags"] [.u8 x]] =
      .ok (.bool (TimTm2Flags.utcAvailable x), wrapV i!"TimTm2Flags" (.u8 x))) ∧
    (∀ (x : UInt8), run prog m depth [] i!"TimTm2Flags" i!"time_valid" [.adt [i!"TimTm2Flags"] [.u8 x]] =
      .ok (.bool (TimTm2Flags.timeValid x), wrapV i!"TimTm2Flags" (.u8 x))) := by
  obtain ⟨k, rfl⟩ := Nat.exists_eq_add_of_le' hd
  rw [isCrate_iff] at hp
  subst hp
  exact ⟨fun x => Exec.TimTpFlags_time_base m _ x,
    fun x => Exec.TimTpFlags_raim_active m _ x,
    fun x => Exec.TimTpFlags_utc_available m _ x,
    fun x => Exec.TimTpFlags_q_err_valid m _ x,
    fun x => Exec.TimTpRefInfo_time_ref_gnss m _ x,
    fun x => Exec.TimTpRefInfo_utc_standard m _ x,
    fun x => Exec.TimTm2Flags_mode m _ x,
    fun x => Exec.TimTm2Flags_run m _ x,
    fun x => Exec.TimTm2Flags_time_base m _ x,
    fun x => Exec.TimTm2Flags_new_falling_edge m _ x,
    fun x => Exec.TimTm2Flags_new_rising_edge m _ x,
    fun x => Exec.TimTm2Flags_utc_available m _ x,
    fun x => Exec.TimTm2Flags_time_valid m _ x⟩

/-- **C92**: the configuration of interference (`ublox/src/ubx_packets/packets.rs`). -/
theorem c92_interference :
    (run prog m depth [] i!"CfgItfmBbThreshold" i!"POSITION" [] = .ok (.u32 0, .unit)) ∧
    (run prog m depth [] i!"CfgItfmBbThreshold" i!"LENGTH" [] = .ok (.u32 4, .unit)) ∧
    (run prog m depth [] i!"CfgItfmBbThreshold" i!"MASK" [] = .ok (.u32 15, .unit)) ∧
    (∀ (x : UInt32), run prog m depth [] i!"CfgItfmBbThreshold" i!"into_raw" [.adt [i!"CfgItfmBbThreshold"]
      [.u32 x]] = .ok (.u32 (CfgItfmBbThreshold.intoRaw x), wrapV i!"CfgItfmBbThreshold" (.u32 x))) ∧
    (run prog m depth [] i!"CfgItfmBbThreshold" i!"default" [] = .ok (wrapV i!"CfgItfmBbThreshold" (.u32 3),
      .unit)) ∧
    (∀ (x : UInt32), run prog m depth [] i!"CfgItfmBbThreshold" i!"from" [.u32 x] = .ok (wrapV
      i!"CfgItfmBbThreshold" (.u32 x), .unit)) ∧
    (run prog m depth [] i!"CfgItfmCwThreshold" i!"POSITION" [] = .ok (.u32 4, .unit)) ∧
    (run prog m depth [] i!"CfgItfmCwThreshold" i!"LENGTH" [] = .ok (.u32 5, .unit)) ∧
    (run prog m depth [] i!"CfgItfmCwThreshold" i!"MASK" [] = .ok (.u32 31, .unit)) ∧
    (∀ (x : UInt32), run prog m depth [] i!"CfgItfmCwThreshold" i!"into_raw" [.adt [i!"CfgItfmCwThreshold"]
      [.u32 x]] = .ok (.u32 (CfgItfmCwThreshold.intoRaw x), wrapV i!"CfgItfmCwThreshold" (.u32 x))) ∧
    (run prog m depth [] i!"CfgItfmCwThreshold" i!"default" [] = .ok (wrapV i!"CfgItfmCwThreshold" (.u32
      15), .unit)) ∧
    (∀ (x : UInt32), run prog m depth [] i!"CfgItfmCwThreshold" i!"from" [.u32 x] = .ok (wrapV
      i!"CfgItfmCwThreshold" (.u32 x), .unit)) ∧
    (run prog m depth [] i!"CfgItfmAlgoBits" i!"POSITION" [] = .ok (.u32 9, .unit)) ∧
    (run prog m depth [] i!"CfgItfmAlgoBits" i!"LENGTH" [] = .ok (.u32 22, .unit)) ∧
    (run prog m depth [] i!"CfgItfmAlgoBits" i!"MASK" [] = .ok (.u32 4194303, .unit)) ∧
    (∀ (x : UInt32), run prog m depth [] i!"CfgItfmAlgoBits" i!"into_raw" [.adt [i!"CfgItfmAlgoBits"] [.u32
      x]] = .ok (.u32 (CfgItfmAlgoBits.intoRaw x), wrapV i!"CfgItfmAlgoBits" (.u32 x))) ∧
    (run prog m depth [] i!"CfgItfmAlgoBits" i!"default" [] = .ok (wrapV i!"CfgItfmAlgoBits" (.u32
      CfgItfmAlgoBits.default), .unit)) ∧
    (∀ (x : UInt32), run prog m depth [] i!"CfgItfmAlgoBits" i!"from" [.u32 x] = .ok (wrapV
      i!"CfgItfmAlgoBits" (.u32 x), .unit)) ∧
    (run prog m depth [] i!"CfgItfmGeneralBits" i!"POSITION" [] = .ok (.u32 0, .unit)) ∧
    (run prog m depth [] i!"CfgItfmGeneralBits" i!"LENGTH" [] = .ok (.u32 12, .unit)) ∧
    (run prog m depth [] i!"CfgItfmGeneralBits" i!"MASK" [] = .ok (.u32 4095, .unit)) ∧
    (∀ (x : UInt32), run prog m depth [] i!"CfgItfmGeneralBits" i!"into_raw" [.adt [i!"CfgItfmGeneralBits"]
      [.u32 x]] = .ok (.u32 (CfgItfmGeneralBits.intoRaw x), wrapV i!"CfgItfmGeneralBits" (.u32 x))) ∧
    (run prog m depth [] i!"CfgItfmGeneralBits" i!"default" [] = .ok (wrapV i!"CfgItfmGeneralBits" (.u32
      CfgItfmGeneralBits.default), .unit)) ∧
    (∀ (x : UInt32), run prog m depth [] i!"CfgItfmGeneralBits" i!"from" [.u32 x] = .ok (wrapV
      i!"CfgItfmGeneralBits" (.u32 x), .unit)) ∧
    (∀ (e : Bool) (bb cw : UInt32), run prog m depth [] i!"CfgItfmConfig" i!"new" [.bool e, .u32 bb, .u32
      cw] = .ok (itfmConfigV (CfgItfmConfig.new e bb cw), .unit)) ∧
    (∀ (x : CfgItfmConfig), run prog m depth [] i!"CfgItfmConfig" i!"into_raw" [itfmConfigV x] = .ok (.u32
      x.intoRaw, itfmConfigV x)) ∧
    (∀ (x : UInt32), run prog m depth [] i!"CfgItfmConfig" i!"from" [.u32 x] = .ok (itfmConfigV
      (CfgItfmConfig.from_ x), .unit)) ∧
    (∀ (x : UInt32), run prog m depth [] i!"CfgItfmAntennaSettings" i!"from" [.u32 x] = .ok (antennaV
      (CfgItfmAntennaSettings.from_ x), .unit)) ∧
    (∀ (a : CfgItfmAntennaSettings) (s : Bool), run prog m depth [] i!"CfgItfmConfig2" i!"new" [antennaV a,
      .bool s] = .ok (itfmConfig2V (CfgItfmConfig2.new a s), .unit)) ∧
    (∀ (x : CfgItfmConfig2), run prog m depth [] i!"CfgItfmConfig2" i!"into_raw" [itfmConfig2V x] = .ok
      (.u32 x.intoRaw, itfmConfig2V x)) ∧
    (∀ (x : UInt32), run prog m depth [] i!"CfgItfmConfig2" i!"from" [.u32 x] = .ok (itfmConfig2V
      (CfgItfmConfig2.from_ x), .unit)) := by
  obtain ⟨k, rfl⟩ := Nat.exists_eq_add_of_le' hd
  rw [isCrate_iff] at hp
  subst hp
  exact ⟨Exec.CfgItfmBbThreshold_POSITION m _,
    Exec.CfgItfmBbThreshold_LENGTH m _,
    Exec.CfgItfmBbThreshold_MASK m _,
    fun x => Exec.CfgItfmBbThreshold_into_raw m _ x,
    Exec.CfgItfmBbThreshold_default m _,
    fun x => Exec.CfgItfmBbThreshold_from m _ x,
    Exec.CfgItfmCwThreshold_POSITION m _,
    Exec.CfgItfmCwThreshold_LENGTH m _,
    Exec.CfgItfmCwThreshold_MASK m _,
    fun x => Exec.CfgItfmCwThreshold_into_raw m _ x,
    Exec.CfgItfmCwThreshold_default m _,
    fun x => Exec.CfgItfmCwThreshold_from m _ x,
    Exec.CfgItfmAlgoBits_POSITION m _,
    Exec.CfgItfmAlgoBits_LENGTH m _,
    Exec.CfgItfmAlgoBits_MASK m _,
    fun x => Exec.CfgItfmAlgoBits_into_raw m _ x,
    Exec.CfgItfmAlgoBits_default m _,
    fun x => Exec.CfgItfmAlgoBits_from m _ x,
    Exec.CfgItfmGeneralBits_POSITION m _,
    Exec.CfgItfmGeneralBits_LENGTH m _,
    Exec.CfgItfmGeneralBits_MASK m _,
    fun x => Exec.CfgItfmGeneralBits_into_raw m _ x,
    Exec.CfgItfmGeneralBits_default m _,
    fun x => Exec.CfgItfmGeneralBits_from m _ x,
    fun e bb cw => Exec.CfgItfmConfig_new m _ e bb cw,
    fun x => Exec.CfgItfmConfig_into_raw m _ x,
    fun x => Exec.CfgItfmConfig_from m _ x,
    fun x => Exec.CfgItfmAntennaSettings_from m _ x,
    fun a s => Exec.CfgItfmConfig2_new m _ a s,
    fun x => Exec.CfgItfmConfig2_into_raw m _ x,
    fun x => Exec.CfgItfmConfig2_from m _ x⟩

/-- **C92**: the mode of a serial port (`ublox/src/ubx_packets/packets.rs`). -/
theorem c92_serial_port :
    (run prog m depth [] i!"DataBits" i!"POSITION" [] = .ok (.u32 6, .unit)) ∧
    (run prog m depth [] i!"DataBits" i!"MASK" [] = .ok (.u32 3, .unit)) ∧
    (∀ (x : DataBits), run prog m depth [] i!"DataBits" i!"into_raw" [dataBitsV x] = .ok (.u32 x.intoRaw,
      dataBitsV x)) ∧
    (∀ (x : UInt32), run prog m depth [] i!"DataBits" i!"from" [.u32 x] = returns (DataBits.from x) .unit
      dataBitsV) ∧
    (run prog m depth [] i!"Parity" i!"POSITION" [] = .ok (.u32 9, .unit)) ∧
    (run prog m depth [] i!"Parity" i!"MASK" [] = .ok (.u32 7, .unit)) ∧
    (∀ (x : Parity), run prog m depth [] i!"Parity" i!"into_raw" [parityV x] = .ok (.u32 x.intoRaw, parityV
      x)) ∧
    (∀ (x : UInt32), run prog m depth [] i!"Parity" i!"from" [.u32 x] = returns (Parity.from x) .unit
      parityV) ∧
    (run prog m depth [] i!"StopBits" i!"POSITION" [] = .ok (.u32 12, .unit)) ∧
    (run prog m depth [] i!"StopBits" i!"MASK" [] = .ok (.u32 3, .unit)) ∧
    (∀ (x : StopBits), run prog m depth [] i!"StopBits" i!"into_raw" [stopBitsV x] = .ok (.u32 x.intoRaw,
      stopBitsV x)) ∧
    (∀ (x : UInt32), run prog m depth [] i!"StopBits" i!"from" [.u32 x] = returns (StopBits.from x) .unit
      stopBitsV) ∧
    (∀ (d : DataBits) (p : Parity) (b : StopBits), run prog m depth [] i!"UartMode" i!"new" [dataBitsV d,
      parityV p, stopBitsV b] = .ok (uartModeV ⟨d, p, b⟩, .unit)) ∧
    (∀ (x : UartMode), run prog m depth [] i!"UartMode" i!"into_raw" [uartModeV x] = .ok (.u32 x.intoRaw,
      uartModeV x)) ∧
    (∀ (x : UInt32), run prog m depth [] i!"UartMode" i!"from" [.u32 x] = returns (UartMode.from x) .unit
      uartModeV) := by
  obtain ⟨k, rfl⟩ := Nat.exists_eq_add_of_le' hd
  rw [isCrate_iff] at hp
  subst hp
  exact ⟨Exec.DataBits_POSITION m _,
    Exec.DataBits_MASK m _,
    fun x => Exec.DataBits_into_raw m _ x,
    fun x => Exec.DataBits_from m _ x,
    Exec.Parity_POSITION m _,
    Exec.Parity_MASK m _,
    fun x => Exec.Parity_into_raw m _ x,
    fun x => Exec.Parity_from m _ x,
    Exec.StopBits_POSITION m _,
    Exec.StopBits_MASK m _,
    fun x => Exec.StopBits_into_raw m _ x,
    fun x => Exec.StopBits_from m _ x,
    fun d p b => Exec.UartMode_new m _ d p b,
    fun x => Exec.UartMode_into_raw m _ x,
    fun x => Exec.UartMode_from m _ x⟩

/-- **C92**: reset modes, reference times, identifiers and sizes of configuration items, layers and sections
of the battery-backed memory (`ublox/src/ubx_packets/packets.rs`, `ublox/src/ubx_packets/cfg_val.rs:1-49`).
-/
theorem c92_settings :
    (∀ (x : ResetMode), run prog m depth [] i!"ResetMode" i!"into_raw" [resetModeV x] = .ok (.u8 x.intoRaw,
      resetModeV x)) ∧
    (∀ (x : AlignmentToReferenceTime), run prog m depth [] i!"AlignmentToReferenceTime" i!"into_raw"
      [alignmentV x] = .ok (.u16 x.intoRaw, alignmentV x)) ∧
    (∀ (x : StorageSize), run prog m depth [] i!"StorageSize" i!"to_usize" [storageSizeV x] = .ok (.usize
      x.toUsize, storageSizeV x)) ∧
    (run prog m depth [] i!"KeyId" i!"SIZE" [] = .ok (.usize KeyId.SIZE, .unit)) ∧
    (∀ (x : UInt32), run prog m depth [] i!"KeyId" i!"value_size" [.adt [i!"KeyId"] [.u32 x]] = .ok
      (storageSizeV (KeyId.valueSize x), wrapV i!"KeyId" (.u32 x))) ∧
    (∀ (x : UInt32), run prog m depth [] i!"KeyId" i!"group_id" [.adt [i!"KeyId"] [.u32 x]] = .ok (.u8
      (KeyId.groupId x), wrapV i!"KeyId" (.u32 x))) ∧
    (∀ (x : UInt32), run prog m depth [] i!"KeyId" i!"item_id" [.adt [i!"KeyId"] [.u32 x]] = .ok (.u8
      (KeyId.itemId x), wrapV i!"KeyId" (.u32 x))) ∧
    (run prog m depth [] i!"CfgLayer" i!"default" [] = .ok (.flags i!"CfgLayer" 7, .unit)) ∧
    (run prog m depth [] i!"NavBbrPredefinedMask" i!"HOT_START" [] = .ok (wrapV i!"NavBbrPredefinedMask"
      (.u16 NavBbrPredefinedMask.HOT_START.bits), .unit)) ∧
    (run prog m depth [] i!"NavBbrPredefinedMask" i!"WARM_START" [] = .ok (wrapV i!"NavBbrPredefinedMask"
      (.u16 NavBbrPredefinedMask.WARM_START.bits), .unit)) ∧
    (run prog m depth [] i!"NavBbrPredefinedMask" i!"COLD_START" [] = .ok (wrapV i!"NavBbrPredefinedMask"
      (.u16 NavBbrPredefinedMask.COLD_START.bits), .unit)) ∧
    (∀ (x : NavBbrPredefinedMask), run prog m depth [] i!"NavBbrMask" i!"from" [wrapV
      i!"NavBbrPredefinedMask" (.u16 x.bits)] = .ok (.flags i!"NavBbrMask" (navBbrMask_.fromBitsTruncate
      x.bits.toNat), .unit)) := by
  obtain ⟨k, rfl⟩ := Nat.exists_eq_add_of_le' hd
  rw [isCrate_iff] at hp
  subst hp
  exact ⟨fun x => Exec.ResetMode_into_raw m _ x,
    fun x => Exec.AlignmentToReferenceTime_into_raw m _ x,
    fun x => Exec.StorageSize_to_usize m _ x,
    Exec.KeyId_SIZE m _,
    fun x => Exec.KeyId_value_size m _ x,
    fun x => Exec.KeyId_group_id m _ x,
    fun x => Exec.KeyId_item_id m _ x,
    Exec.CfgLayer_default m _,
    Exec.NavBbrPredefinedMask_HOT_START m _,
    Exec.NavBbrPredefinedMask_WARM_START m _,
    Exec.NavBbrPredefinedMask_COLD_START m _,
    fun x => Exec.NavBbrMask_from m _ x⟩

/-- **C92**: the values of CFG-VALSET (`ublox/src/ubx_packets/packets.rs:1787-1816`). -/
theorem c92_configuration_values :
    (∀ (it : CfgValIter), run prog m depth [] i!"CfgValIter" i!"next" [cfgIterV it] = lift (it.next m.M
      cfgItems) fun r => .ok (optV (r.1.map .cfg), cfgIterV r.2)) ∧
    (∀ (data : Bytes) (vs : List CfgVal), run prog m depth [] i!"CfgValIter" i!"new" [.bytes data, .list
      (vs.map .cfg)] = returns (CfgValIter.new m.M data vs) .unit cfgIterV) := by
  obtain ⟨k, rfl⟩ := Nat.exists_eq_add_of_le' hd
  rw [isCrate_iff] at hp
  subst hp
  exact ⟨fun it => Exec.CfgValIter_next m _ it,
    fun data vs => Exec.CfgValIter_new m _ data vs⟩

/-- **C92**: the texts in payloads (`ublox/src/ubx_packets/packets.rs`). -/
theorem c92_strings :
    (∀ (bs : Bytes), run prog m depth [] i!"inf" i!"convert_to_str" [.bytes bs] = .ok (optV
      ((Inf.convertToStr bs).map .str), .unit)) ∧
    (∀ (bs : Bytes), run prog m depth [] i!"inf" i!"is_valid" [.bytes bs] = .ok (.bool (Inf.isValid bs),
      .unit)) ∧
    (∀ (bs : Bytes), run prog m depth [] i!"mon_ver" i!"convert_to_str_unchecked" [.bytes bs] = returns
      (MonVer.convertToStrUnchecked bs) .unit .str) ∧
    (∀ (bs : Bytes), run prog m depth [] i!"mon_ver" i!"is_cstr_valid" [.bytes bs] = returns
      (MonVer.isCstrValid bs) .unit .bool) ∧
    (∀ (bs : Bytes), run prog m depth [modName] 0 i!"is_cstr_valid" [.bytes bs] = returns
      (MonVer.isCstrValid bs) .unit .bool) := by
  obtain ⟨k, rfl⟩ := Nat.exists_eq_add_of_le' hd
  rw [isCrate_iff] at hp
  subst hp
  exact ⟨fun bs => Exec.inf_convert m _ bs,
    fun bs => Exec.inf_is_valid m _ bs,
    fun bs => Exec.monVer_convert m _ bs,
    fun bs => Exec.monVer_is_valid m _ bs,
    fun bs => Exec.monVer_is_valid_imported m _ bs⟩

/-- **C92**: the iterators over repeated blocks (`ublox/src/ubx_packets/packets.rs`). -/
theorem c92_iterators :
    (∀ (bs : Bytes), run prog m depth [] i!"NavSatIter" i!"new" [.bytes bs] = .ok (blockIterV .navSat
      (IterKind.navSat.new bs), .unit)) ∧
    (∀ (bs : Bytes), run prog m depth [] i!"NavSatIter" i!"is_valid" [.bytes bs] = returns
      (IterKind.navSat.isValid bs) .unit .bool) ∧
    (∀ (data : Bytes) (off : Nat), run prog m depth [] i!"NavSatIter" i!"next" [blockIterV .navSat (.offset
      data off)] = lift (IterKind.navSat.next m.M (.offset data off)) fun r => .ok (optV (r.1.map itemV),
      blockIterV .navSat r.2)) ∧
    (∀ (bs : Bytes), run prog m depth [] i!"MonVerExtensionIter" i!"new" [.bytes bs] = .ok (blockIterV
      .monVerExt (IterKind.monVerExt.new bs), .unit)) ∧
    (∀ (bs : Bytes), run prog m depth [] i!"MonVerExtensionIter" i!"is_valid" [.bytes bs] = returns
      (IterKind.monVerExt.isValid bs) .unit .bool) ∧
    (∀ (data : Bytes) (off : Nat), run prog m depth [] i!"MonVerExtensionIter" i!"next" [blockIterV
      .monVerExt (.offset data off)] = lift (IterKind.monVerExt.next m.M (.offset data off)) fun r => .ok
      (optV (r.1.map itemV), blockIterV .monVerExt r.2)) ∧
    (∀ (bs : Bytes), run prog m depth [] i!"EsfMeasDataIter" i!"new" [.bytes bs] = .ok (blockIterV .esfMeas
      (IterKind.esfMeas.new bs), .unit)) ∧
    (∀ (bs : Bytes), run prog m depth [] i!"EsfMeasDataIter" i!"is_valid" [.bytes bs] = returns
      (IterKind.esfMeas.isValid bs) .unit .bool) ∧
    (∀ (rest : Bytes), run prog m depth [] i!"EsfMeasDataIter" i!"next" [blockIterV .esfMeas (.chunks rest)]
      = lift (IterKind.esfMeas.next m.M (.chunks rest)) fun r => .ok (optV (r.1.map itemV), blockIterV
      .esfMeas r.2)) ∧
    (∀ (bs : Bytes), run prog m depth [] i!"EsfRawDataIter" i!"new" [.bytes bs] = .ok (blockIterV .esfRaw
      (IterKind.esfRaw.new bs), .unit)) ∧
    (∀ (bs : Bytes), run prog m depth [] i!"EsfRawDataIter" i!"is_valid" [.bytes bs] = returns
      (IterKind.esfRaw.isValid bs) .unit .bool) ∧
    (∀ (bs : Bytes), run prog m depth [] i!"DwrdIter" i!"new" [.bytes bs] = .ok (blockIterV .dwrd
      (IterKind.dwrd.new bs), .unit)) ∧
    (∀ (bs : Bytes), run prog m depth [] i!"DwrdIter" i!"is_valid" [.bytes bs] = returns
      (IterKind.dwrd.isValid bs) .unit .bool) ∧
    (∀ (bs : Bytes), run prog m depth [] i!"RxmRawxInfoIter" i!"new" [.bytes bs] = .ok (blockIterV .rxmRawx
      (IterKind.rxmRawx.new bs), .unit)) ∧
    (∀ (bs : Bytes), run prog m depth [] i!"RxmRawxInfoIter" i!"is_valid" [.bytes bs] = returns
      (IterKind.rxmRawx.isValid bs) .unit .bool) ∧
    (∀ (rest : Bytes), run prog m depth [] i!"EsfRawDataIter" i!"next" [blockIterV .esfRaw (.chunks rest)] =
      lift (IterKind.esfRaw.next m.M (.chunks rest)) fun r => .ok (optV (r.1.map itemV), blockIterV .esfRaw
      r.2)) ∧
    (∀ (rest : Bytes), run prog m depth [] i!"DwrdIter" i!"next" [blockIterV .dwrd (.chunks rest)] = lift
      (IterKind.dwrd.next m.M (.chunks rest)) fun r => .ok (optV (r.1.map itemV), blockIterV .dwrd r.2)) ∧
    (∀ (rest : Bytes), run prog m depth [] i!"RxmRawxInfoIter" i!"next" [blockIterV .rxmRawx (.chunks rest)]
      = lift (IterKind.rxmRawx.next m.M (.chunks rest)) fun r => .ok (optV (r.1.map itemV), blockIterV
      .rxmRawx r.2)) := by
  obtain ⟨k, rfl⟩ := Nat.exists_eq_add_of_le' hd
  rw [isCrate_iff] at hp
  subst hp
  exact ⟨fun bs => Exec.NavSatIter_new m _ bs,
    fun bs => Exec.NavSatIter_is_valid m _ bs,
    fun data off => Exec.NavSatIter_next m _ data off,
    fun bs => Exec.MonVerExtensionIter_new m _ bs,
    fun bs => Exec.MonVerExtensionIter_is_valid m _ bs,
    fun data off => Exec.MonVerExtensionIter_next m _ data off,
    fun bs => Exec.EsfMeasDataIter_new m _ bs,
    fun bs => Exec.EsfMeasDataIter_is_valid m _ bs,
    fun rest => Exec.EsfMeasDataIter_next m _ rest,
    fun bs => Exec.EsfRawDataIter_new m _ bs,
    fun bs => Exec.EsfRawDataIter_is_valid m _ bs,
    fun bs => Exec.DwrdIter_new m _ bs,
    fun bs => Exec.DwrdIter_is_valid m _ bs,
    fun bs => Exec.RxmRawxInfoIter_new m _ bs,
    fun bs => Exec.RxmRawxInfoIter_is_valid m _ bs,
    fun rest => Exec.EsfRawDataIter_next m _ rest,
    fun rest => Exec.DwrdIter_next m _ rest,
    fun rest => Exec.RxmRawxInfoIter_next m _ rest⟩

/-- **C92**: positions, velocities and times from packets (`ublox/src/ubx_packets/types.rs:1-127`). -/
theorem c92_conversions :
    (∀ (p : Bytes), run prog m depth [i!"From", i!"NavPosLlhRef"] i!"Position" i!"from" [.packet navPosLlh_
      p] = returns (positionFromNavPosLlh p) .unit positionV) ∧
    (∀ (p : Bytes), run prog m depth [i!"From", i!"NavHpPosLlhRef"] i!"Position" i!"from" [.packet
      navHpPosLlh_ p] = returns (positionFromNavHpPosLlh p) .unit positionV) ∧
    (∀ (p : Bytes), run prog m depth [] i!"PositionECEF" i!"from" [.packet navHpPosEcef_ p] = returns
      (positionFromNavHpPosEcef p) .unit ecefV) ∧
    (∀ (p : Bytes), run prog m depth [i!"From", i!"NavVelNedRef"] i!"Velocity" i!"from" [.packet navVelNed_
      p] = returns (velocityFromNavVelNed p) .unit velocityV) ∧
    (∀ (p : Bytes), run prog m depth [i!"From", i!"NavPvtRef"] i!"Position" i!"from" [.packet navPvt_ p] =
      returns (positionFromNavPvt p) .unit positionV) ∧
    (∀ (p : Bytes), run prog m depth [i!"From", i!"NavPvtRef"] i!"Velocity" i!"from" [.packet navPvt_ p] =
      returns (velocityFromNavPvt p) .unit velocityV) ∧
    (∀ (p : Bytes), run prog m depth [] i!"DateTime" i!"try_from" [.packet navPvt_ p] = returns
      (dateTimeFromNavPvt p) .unit dateTimeResultV) := by
  obtain ⟨k, rfl⟩ := Nat.exists_eq_add_of_le' hd
  rw [isCrate_iff] at hp
  subst hp
  exact ⟨fun p => Exec.Position_from_NavPosLlh m _ p,
    fun p => Exec.Position_from_NavHpPosLlh m _ p,
    fun p => Exec.PositionECEF_from_NavHpPosEcef m _ p,
    fun p => Exec.Velocity_from_NavVelNed m _ p,
    fun p => Exec.Position_from_NavPvt m _ p,
    fun p => Exec.Velocity_from_NavPvt m _ p,
    fun p => Exec.DateTime_try_from m _ p⟩

/-- **C92**: acknowledgements and message rates (`ublox/src/ubx_packets/packets.rs`). -/
theorem c92_acknowledgements :
    (∀ (t : PackDesc) (_ : m.cls = t.cls) (_ : m.id = t.id) (p : Bytes), run prog m depth [] i!"AckAckRef"
      i!"is_ack_for" [.packet ackAck_ p] = returns (isAckFor t p) (.packet ackAck_ p) .bool) ∧
    (∀ (t : PackDesc) (_ : m.cls = t.cls) (_ : m.id = t.id) (p : Bytes), run prog m depth [] i!"AckNakRef"
      i!"is_nak_for" [.packet ackNak_ p] = returns (isNakFor t p) (.packet ackNak_ p) .bool) ∧
    (∀ (rate : UInt8), run prog m depth [] i!"CfgMsgSinglePortBuilder" i!"set_rate_for" [.u8 rate] = .ok
      (.struct i!"CfgMsgSinglePortBuilder" [(i!"msg_class", .u8 m.cls), (i!"msg_id", .u8 m.id), (i!"rate", .u8
      rate)], .unit)) ∧
    (∀ (rates : Bytes), run prog m depth [] i!"CfgMsgAllPortsBuilder" i!"set_rate_for" [.bytes rates] = .ok
      (.struct i!"CfgMsgAllPortsBuilder" [(i!"msg_class", .u8 m.cls), (i!"msg_id", .u8 m.id), (i!"rates",
      .bytes rates)], .unit)) := by
  obtain ⟨k, rfl⟩ := Nat.exists_eq_add_of_le' hd
  rw [isCrate_iff] at hp
  subst hp
  exact ⟨fun t h1 h2 p => Exec.AckAckRef_is_ack_for m _ t h1 h2 p,
    fun t h1 h2 p => Exec.AckNakRef_is_nak_for m _ t h1 h2 p,
    fun rate => Exec.CfgMsgSinglePortBuilder_set_rate_for m _ rate,
    fun rates => Exec.CfgMsgAllPortsBuilder_set_rate_for m _ rates⟩

/-- **C92**: the sizes of ESF-MEAS (`ublox/src/ubx_packets/packets.rs`). -/
theorem c92_sensors :
    (∀ (bs : Bytes), run prog m depth [] i!"EsfMeas" i!"calib_tag" [.bytes bs] = .ok (optV ((u32FromSlice
      bs).toOption.map .u32), .unit)) ∧
    (∀ (_ : 65535 ≤ m.M) (p : Bytes), run prog m depth [] i!"EsfMeasRef" i!"data_len" [.packet esfMeas_ p] =
      returns (SizeFn.run .dataLen esfMeas_ p) (.packet esfMeas_ p) .usize) ∧
    (∀ (p : Bytes), run prog m depth [] i!"EsfMeasRef" i!"calib_tag_len" [.packet esfMeas_ p] = returns
      (SizeFn.run .calibTagLen esfMeas_ p) (.packet esfMeas_ p) .usize) := by
  obtain ⟨k, rfl⟩ := Nat.exists_eq_add_of_le' hd
  rw [isCrate_iff] at hp
  subst hp
  exact ⟨fun bs => Exec.EsfMeas_calib_tag m _ bs,
    fun h0 p => Exec.EsfMeasRef_data_len m _ h0 p,
    fun p => Exec.EsfMeasRef_calib_tag_len m _ p⟩

/-- **C92**: `ScaleBack` (`ublox/src/ubx_packets/packets.rs`). -/
theorem c92_scale_back :
    (∀ (s x : Fl), run prog m depth [] i!"ScaleBack" i!"as_i8" [.adt [i!"ScaleBack"] [.fl m.fmt s], .fl
      m.fmt x] = returns (ScaleBack.asSigned ⟨m.fmt, s⟩ (-128) 127 x) (.adt [i!"ScaleBack"] [.fl m.fmt s]) fun
      n => .i8 (Int8.ofInt n)) ∧
    (∀ (s x : Fl), run prog m depth [] i!"ScaleBack" i!"as_i16" [.adt [i!"ScaleBack"] [.fl m.fmt s], .fl
      m.fmt x] = returns (ScaleBack.asSigned ⟨m.fmt, s⟩ (-32768) 32767 x) (.adt [i!"ScaleBack"] [.fl m.fmt s])
      fun n => .i16 (Int16.ofInt n)) ∧
    (∀ (s x : Fl), run prog m depth [] i!"ScaleBack" i!"as_i32" [.adt [i!"ScaleBack"] [.fl m.fmt s], .fl
      m.fmt x] = returns (ScaleBack.asSigned ⟨m.fmt, s⟩ (-2147483648) 2147483647 x) (.adt [i!"ScaleBack"] [.fl
      m.fmt s]) fun n => .i32 (Int32.ofInt n)) ∧
    (∀ (s x : Fl), run prog m depth [] i!"ScaleBack" i!"as_u8" [.adt [i!"ScaleBack"] [.fl m.fmt s], .fl
      m.fmt x] = returns (ScaleBack.asUnsigned ⟨m.fmt, s⟩ 255 x) (.adt [i!"ScaleBack"] [.fl m.fmt s]) fun n =>
      .u8 (UInt8.ofNat n.toNat)) ∧
    (∀ (s x : Fl), run prog m depth [] i!"ScaleBack" i!"as_u16" [.adt [i!"ScaleBack"] [.fl m.fmt s], .fl
      m.fmt x] = returns (ScaleBack.asUnsigned ⟨m.fmt, s⟩ 65535 x) (.adt [i!"ScaleBack"] [.fl m.fmt s]) fun n
      => .u16 (UInt16.ofNat n.toNat)) ∧
    (∀ (s x : Fl), run prog m depth [] i!"ScaleBack" i!"as_u32" [.adt [i!"ScaleBack"] [.fl m.fmt s], .fl
      m.fmt x] = returns (ScaleBack.asUnsigned ⟨m.fmt, s⟩ 4294967295 x) (.adt [i!"ScaleBack"] [.fl m.fmt s])
      fun n => .u32 (UInt32.ofNat n.toNat)) := by
  obtain ⟨k, rfl⟩ := Nat.exists_eq_add_of_le' hd
  rw [isCrate_iff] at hp
  subst hp
  exact ⟨fun s x => Exec.ScaleBack_as_i8 m _ s x,
    fun s x => Exec.ScaleBack_as_i16 m _ s x,
    fun s x => Exec.ScaleBack_as_i32 m _ s x,
    fun s x => Exec.ScaleBack_as_u8 m _ s x,
    fun s x => Exec.ScaleBack_as_u16 m _ s x,
    fun s x => Exec.ScaleBack_as_u32 m _ s x⟩

/-- **C92**: the setters of AID-INI (`ublox/src/ubx_packets/packets.rs:1248-1268`). -/
theorem c92_aiding :
    (∀ (b : AidIniBuilder) (pos : Position), run prog m depth [] i!"AidIniBuilder" i!"set_position" [aidIniV
      b, positionV pos] = .ok (aidIniV (b.setPosition pos), aidIniV (b.setPosition pos))) ∧
    (∀ (b : AidIniBuilder) (tm : DateTime) (_ : tm.yearCe.2 < 4294967296) (_ : tm.month0 < 4294967296) (_ :
      tm.time.secs < 86400) (_ : tm.nanosecond < 4294967296), run prog m depth [] i!"AidIniBuilder"
      i!"set_time" [aidIniV b, .dateTime tm] = lift (b.setTime tm) fun b => .ok (aidIniV b, aidIniV b)) := by
  obtain ⟨k, rfl⟩ := Nat.exists_eq_add_of_le' hd
  rw [isCrate_iff] at hp
  subst hp
  exact ⟨fun b pos => Exec.AidIniBuilder_set_position m _ b pos,
    fun b tm h2 h3 h4 h5 => Exec.AidIniBuilder_set_time m _ b tm h2 h3 h4 h5⟩

/-- **C92**: synchronisation characters, checksums, the writer for vectors and requests
(`ublox/src/ubx_packets.rs:1-132`). -/
theorem c92_framing :
    (∀ (bs : Bytes), run prog m depth [i!"mod"] i!"" i!"ubx_checksum" [.bytes bs] = .ok (.pair (.u8
      (ubxChecksum bs).1) (.u8 (ubxChecksum bs).2), .unit)) ∧
    (∀ (ck : ChecksumCalc) (bs : Bytes), run prog m depth [] i!"UbxChecksumCalc" i!"update" [calcV ck,
      .bytes bs] = .ok (.unit, calcV (ck.update bs))) ∧
    (∀ (ck : ChecksumCalc), run prog m depth [] i!"UbxChecksumCalc" i!"result" [calcV ck] = .ok (.pair (.u8
      ck.result.1) (.u8 ck.result.2), calcV ck)) ∧
    (∀ (w : Bytes) (n : Nat), run prog m depth [] i!"Vec" i!"reserve_allocate" [.bytes w, .usize n] = .ok
      (okV .unit, .bytes w)) ∧
    (∀ (w buf : Bytes), run prog m depth [] i!"Vec" i!"write" [.bytes w, .bytes buf] = .ok (okV .unit,
      .bytes (w ++ buf))) ∧
    (run prog m depth [] i!"UbxPacketRequest" i!"PACKET_LEN" [] = .ok (.usize 8, .unit)) ∧
    (run prog m depth [] i!"UbxPacketRequest" i!"request_for" [] = .ok (.struct i!"UbxPacketRequest"
      [(i!"req_class", .u8 m.cls), (i!"req_id", .u8 m.id)], .unit)) ∧
    (∀ (c i : UInt8), run prog m depth [] i!"UbxPacketRequest" i!"request_for_unknown" [.u8 c, .u8 i] = .ok
      (.struct i!"UbxPacketRequest" [(i!"req_class", .u8 c), (i!"req_id", .u8 i)], .unit)) ∧
    (run prog m depth [modName] 0 i!"SYNC_CHAR_1" [] = .ok (.u8 0xb5, .unit)) ∧
    (run prog m depth [modName] 0 i!"SYNC_CHAR_2" [] = .ok (.u8 0x62, .unit)) ∧
    (∀ (c i : UInt8), run prog m depth [] i!"UbxPacketRequest" i!"into_packet_bytes" [.struct
      i!"UbxPacketRequest" [(i!"req_class", .u8 c), (i!"req_id", .u8 i)]] = returns (requestBytes c i)
      (.struct i!"UbxPacketRequest" [(i!"req_class", .u8 c), (i!"req_id", .u8 i)]) .bytes) := by
  obtain ⟨k, rfl⟩ := Nat.exists_eq_add_of_le' hd
  rw [isCrate_iff] at hp
  subst hp
  exact ⟨fun bs => Exec.ubx_checksum_run m _ bs,
    fun ck bs => Exec.UbxChecksumCalc_update m _ ck bs,
    fun ck => Exec.UbxChecksumCalc_result m _ ck,
    fun w n => Exec.Vec_reserve_allocate m _ w n,
    fun w buf => Exec.Vec_write m _ w buf,
    Exec.UbxPacketRequest_PACKET_LEN m _,
    Exec.UbxPacketRequest_request_for m _,
    fun c i => Exec.UbxPacketRequest_request_for_unknown m _ c i,
    Exec.sync1_run m _,
    Exec.sync2_run m _,
    fun c i => Exec.UbxPacketRequest_into_packet_bytes m _ c i⟩

end

/-! ## The hypotheses can be met -/

example : IsCrate program ∧ 4 ≤ 4 := ⟨isCrate_iff.mpr rfl, by decide⟩

/-- a machine with the class and number of NAV-PVT -/
example : ∃ m : Mach, m.cls = navPvt_.cls ∧ m.id = navPvt_.id ∧ 65535 ≤ m.M :=
  ⟨⟨4294967295, fmt64, navPvt_.cls, navPvt_.id⟩, rfl, rfl, by decide⟩

/-- the hypotheses of `c92_aiding` at 2024-02-29 12:34:56.5 -/
example : let tm : DateTime := ⟨⟨2024, 2, 29⟩, ⟨45296, 500000000⟩⟩
    tm.yearCe.2 < 4294967296 ∧ tm.month0 < 4294967296 ∧ tm.time.secs < 86400 ∧ tm.nanosecond < 4294967296 := by
  decide

/-- the text of `into_packet_bytes` asks for MON-VER with these eight bytes -/
example : run program ⟨4294967295, fmt64, 0, 0⟩ 4 [] i!"UbxPacketRequest" i!"into_packet_bytes"
    [.struct i!"UbxPacketRequest" [(i!"req_class", .u8 0x0a), (i!"req_id", .u8 0x04)]] =
    .ok (.bytes [0xb5, 0x62, 0x0a, 0x04, 0x00, 0x00, 0x0e, 0x34],
      .struct i!"UbxPacketRequest" [(i!"req_class", .u8 0x0a), (i!"req_id", .u8 0x04)]) := by
  rw [UbxPacketRequest_into_packet_bytes]
  rfl

end Ublox.Props
