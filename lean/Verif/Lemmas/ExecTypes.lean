import Verif.Lemmas.Exec
import Verif.Spec.Exec

/-!
# The functions of the types around bit fields
-/

namespace Ublox.Exec

open Code Spec Gen

attribute [local irreducible] Exec.run Code.lift Exec.runFn
attribute [exec] wrapV itfmConfigV itfmConfig2V uartModeV varV returns mapMatchingV qualityV healthV orbitV tpTimeBaseV refGnssV utcStandardV tm2ModeV
  tm2RunV tm2TimeBaseV dataBitsV parityV stopBitsV antennaV resetModeV alignmentV storageSizeV

variable (m : Mach) (k : Nat)

/-- Evaluates a function of the program: where it is found, its code, and other lemmas. -/
macro "exec_fn " h:term ", " f:ident " [" ls:Lean.Parser.Tactic.simpLemma,* "]" : tactic =>
  `(tactic| (rw [run_fn $h]; unfold $f; simp only [rust, exec, $ls,*]))

theorem FixStatusInfo_has_pr_prr_correction (x : UInt8) :
    run program m (k + 1) [] i!"FixStatusInfo" i!"has_pr_prr_correction" [.adt [i!"FixStatusInfo"] [.u8 x]] =
      .ok (.bool (FixStatusInfo.hasPrPrrCorrection x), wrapV i!"FixStatusInfo" (.u8 x)) := by
  exec_fn packetsRs_FixStatusInfo_has_pr_prr_correction_lookup, packetsRs_FixStatusInfo_has_pr_prr_correction [FixStatusInfo.hasPrPrrCorrection]
  first | done | rfl | simp

theorem FixStatusInfo_map_matching (x : UInt8) :
    run program m (k + 1) [] i!"FixStatusInfo" i!"map_matching" [.adt [i!"FixStatusInfo"] [.u8 x]] =
      returns (FixStatusInfo.mapMatching x) (wrapV i!"FixStatusInfo" (.u8 x)) mapMatchingV := by
  exec_fn packetsRs_FixStatusInfo_map_matching_lookup, packetsRs_FixStatusInfo_map_matching [FixStatusInfo.mapMatching]

theorem FixStatusInfo_from (x : UInt8) :
    run program m (k + 1) [] i!"FixStatusInfo" i!"from" [.u8 x] = .ok (wrapV i!"FixStatusInfo" (.u8 x), .unit) := by
  exec_fn packetsRs_FixStatusInfo_from_lookup, packetsRs_FixStatusInfo_from []

theorem NavSatSvFlags_from (x : UInt32) :
    run program m (k + 1) [] i!"NavSatSvFlags" i!"from" [.u32 x] = .ok (wrapV i!"NavSatSvFlags" (.u32 x), .unit) := by
  exec_fn packetsRs_NavSatSvFlags_from_lookup, packetsRs_NavSatSvFlags_from []

theorem NavSatSvFlags_quality_ind (x : UInt32) :
    run program m (k + 1) [] i!"NavSatSvFlags" i!"quality_ind" [.adt [i!"NavSatSvFlags"] [.u32 x]] =
      returns (NavSatSvFlags.qualityInd x) (wrapV i!"NavSatSvFlags" (.u32 x)) qualityV := by
  exec_fn packetsRs_NavSatSvFlags_quality_ind_lookup, packetsRs_NavSatSvFlags_quality_ind [NavSatSvFlags.qualityInd]

theorem NavSatSvFlags_health (x : UInt32) :
    run program m (k + 1) [] i!"NavSatSvFlags" i!"health" [.adt [i!"NavSatSvFlags"] [.u32 x]] =
      .ok (healthV (NavSatSvFlags.health x), wrapV i!"NavSatSvFlags" (.u32 x)) := by
  exec_fn packetsRs_NavSatSvFlags_health_lookup, packetsRs_NavSatSvFlags_health [NavSatSvFlags.health]
  (repeat' split) <;> simp_all [exec]

theorem NavSatSvFlags_orbit_source (x : UInt32) :
    run program m (k + 1) [] i!"NavSatSvFlags" i!"orbit_source" [.adt [i!"NavSatSvFlags"] [.u32 x]] =
      .ok (orbitV (NavSatSvFlags.orbitSource x), wrapV i!"NavSatSvFlags" (.u32 x)) := by
  exec_fn packetsRs_NavSatSvFlags_orbit_source_lookup, packetsRs_NavSatSvFlags_orbit_source [NavSatSvFlags.orbitSource]
  (repeat' split) <;> simp_all [exec]

theorem NavSatSvFlags_sv_used (x : UInt32) :
    run program m (k + 1) [] i!"NavSatSvFlags" i!"sv_used" [.adt [i!"NavSatSvFlags"] [.u32 x]] =
      .ok (.bool (NavSatSvFlags.svUsed x), wrapV i!"NavSatSvFlags" (.u32 x)) := by
  exec_fn packetsRs_NavSatSvFlags_sv_used_lookup, packetsRs_NavSatSvFlags_sv_used [NavSatSvFlags.svUsed]
  first | done | rfl | simp

theorem NavSatSvFlags_differential_correction_available (x : UInt32) :
    run program m (k + 1) [] i!"NavSatSvFlags" i!"differential_correction_available" [.adt [i!"NavSatSvFlags"] [.u32 x]] =
      .ok (.bool (NavSatSvFlags.differentialCorrectionAvailable x), wrapV i!"NavSatSvFlags" (.u32 x)) := by
  exec_fn packetsRs_NavSatSvFlags_differential_correction_available_lookup, packetsRs_NavSatSvFlags_differential_correction_available [NavSatSvFlags.differentialCorrectionAvailable]
  first | done | rfl | simp

theorem NavSatSvFlags_smoothed (x : UInt32) :
    run program m (k + 1) [] i!"NavSatSvFlags" i!"smoothed" [.adt [i!"NavSatSvFlags"] [.u32 x]] =
      .ok (.bool (NavSatSvFlags.smoothed x), wrapV i!"NavSatSvFlags" (.u32 x)) := by
  exec_fn packetsRs_NavSatSvFlags_smoothed_lookup, packetsRs_NavSatSvFlags_smoothed [NavSatSvFlags.smoothed]
  first | done | rfl | simp

theorem NavSatSvFlags_ephemeris_available (x : UInt32) :
    run program m (k + 1) [] i!"NavSatSvFlags" i!"ephemeris_available" [.adt [i!"NavSatSvFlags"] [.u32 x]] =
      .ok (.bool (NavSatSvFlags.ephemerisAvailable x), wrapV i!"NavSatSvFlags" (.u32 x)) := by
  exec_fn packetsRs_NavSatSvFlags_ephemeris_available_lookup, packetsRs_NavSatSvFlags_ephemeris_available [NavSatSvFlags.ephemerisAvailable]
  first | done | rfl | simp

theorem NavSatSvFlags_almanac_available (x : UInt32) :
    run program m (k + 1) [] i!"NavSatSvFlags" i!"almanac_available" [.adt [i!"NavSatSvFlags"] [.u32 x]] =
      .ok (.bool (NavSatSvFlags.almanacAvailable x), wrapV i!"NavSatSvFlags" (.u32 x)) := by
  exec_fn packetsRs_NavSatSvFlags_almanac_available_lookup, packetsRs_NavSatSvFlags_almanac_available [NavSatSvFlags.almanacAvailable]
  first | done | rfl | simp

theorem NavSatSvFlags_an_offline_available (x : UInt32) :
    run program m (k + 1) [] i!"NavSatSvFlags" i!"an_offline_available" [.adt [i!"NavSatSvFlags"] [.u32 x]] =
      .ok (.bool (NavSatSvFlags.anOfflineAvailable x), wrapV i!"NavSatSvFlags" (.u32 x)) := by
  exec_fn packetsRs_NavSatSvFlags_an_offline_available_lookup, packetsRs_NavSatSvFlags_an_offline_available [NavSatSvFlags.anOfflineAvailable]
  first | done | rfl | simp

theorem NavSatSvFlags_an_auto_available (x : UInt32) :
    run program m (k + 1) [] i!"NavSatSvFlags" i!"an_auto_available" [.adt [i!"NavSatSvFlags"] [.u32 x]] =
      .ok (.bool (NavSatSvFlags.anAutoAvailable x), wrapV i!"NavSatSvFlags" (.u32 x)) := by
  exec_fn packetsRs_NavSatSvFlags_an_auto_available_lookup, packetsRs_NavSatSvFlags_an_auto_available [NavSatSvFlags.anAutoAvailable]
  first | done | rfl | simp

theorem NavSatSvFlags_sbas_corr (x : UInt32) :
    run program m (k + 1) [] i!"NavSatSvFlags" i!"sbas_corr" [.adt [i!"NavSatSvFlags"] [.u32 x]] =
      .ok (.bool (NavSatSvFlags.sbasCorr x), wrapV i!"NavSatSvFlags" (.u32 x)) := by
  exec_fn packetsRs_NavSatSvFlags_sbas_corr_lookup, packetsRs_NavSatSvFlags_sbas_corr [NavSatSvFlags.sbasCorr]
  first | done | rfl | simp

theorem NavSatSvFlags_rtcm_corr (x : UInt32) :
    run program m (k + 1) [] i!"NavSatSvFlags" i!"rtcm_corr" [.adt [i!"NavSatSvFlags"] [.u32 x]] =
      .ok (.bool (NavSatSvFlags.rtcmCorr x), wrapV i!"NavSatSvFlags" (.u32 x)) := by
  exec_fn packetsRs_NavSatSvFlags_rtcm_corr_lookup, packetsRs_NavSatSvFlags_rtcm_corr [NavSatSvFlags.rtcmCorr]
  first | done | rfl | simp

theorem NavSatSvFlags_slas_corr (x : UInt32) :
    run program m (k + 1) [] i!"NavSatSvFlags" i!"slas_corr" [.adt [i!"NavSatSvFlags"] [.u32 x]] =
      .ok (.bool (NavSatSvFlags.slasCorr x), wrapV i!"NavSatSvFlags" (.u32 x)) := by
  exec_fn packetsRs_NavSatSvFlags_slas_corr_lookup, packetsRs_NavSatSvFlags_slas_corr [NavSatSvFlags.slasCorr]
  first | done | rfl | simp

theorem NavSatSvFlags_spartn_corr (x : UInt32) :
    run program m (k + 1) [] i!"NavSatSvFlags" i!"spartn_corr" [.adt [i!"NavSatSvFlags"] [.u32 x]] =
      .ok (.bool (NavSatSvFlags.spartnCorr x), wrapV i!"NavSatSvFlags" (.u32 x)) := by
  exec_fn packetsRs_NavSatSvFlags_spartn_corr_lookup, packetsRs_NavSatSvFlags_spartn_corr [NavSatSvFlags.spartnCorr]
  first | done | rfl | simp

theorem NavSatSvFlags_pr_corr (x : UInt32) :
    run program m (k + 1) [] i!"NavSatSvFlags" i!"pr_corr" [.adt [i!"NavSatSvFlags"] [.u32 x]] =
      .ok (.bool (NavSatSvFlags.prCorr x), wrapV i!"NavSatSvFlags" (.u32 x)) := by
  exec_fn packetsRs_NavSatSvFlags_pr_corr_lookup, packetsRs_NavSatSvFlags_pr_corr [NavSatSvFlags.prCorr]
  first | done | rfl | simp

theorem NavSatSvFlags_cr_corr (x : UInt32) :
    run program m (k + 1) [] i!"NavSatSvFlags" i!"cr_corr" [.adt [i!"NavSatSvFlags"] [.u32 x]] =
      .ok (.bool (NavSatSvFlags.crCorr x), wrapV i!"NavSatSvFlags" (.u32 x)) := by
  exec_fn packetsRs_NavSatSvFlags_cr_corr_lookup, packetsRs_NavSatSvFlags_cr_corr [NavSatSvFlags.crCorr]
  first | done | rfl | simp

theorem NavSatSvFlags_do_corr (x : UInt32) :
    run program m (k + 1) [] i!"NavSatSvFlags" i!"do_corr" [.adt [i!"NavSatSvFlags"] [.u32 x]] =
      .ok (.bool (NavSatSvFlags.doCorr x), wrapV i!"NavSatSvFlags" (.u32 x)) := by
  exec_fn packetsRs_NavSatSvFlags_do_corr_lookup, packetsRs_NavSatSvFlags_do_corr [NavSatSvFlags.doCorr]
  first | done | rfl | simp

theorem TimTpFlags_time_base (x : UInt8) :
    run program m (k + 1) [] i!"TimTpFlags" i!"time_base" [.adt [i!"TimTpFlags"] [.u8 x]] =
      .ok (tpTimeBaseV (TimTpFlags.timeBase x), wrapV i!"TimTpFlags" (.u8 x)) := by
  exec_fn packetsRs_TimTpFlags_time_base_lookup, packetsRs_TimTpFlags_time_base [TimTpFlags.timeBase]
  (repeat' split) <;> simp_all [exec]

theorem TimTpFlags_raim_active (x : UInt8) :
    run program m (k + 1) [] i!"TimTpFlags" i!"raim_active" [.adt [i!"TimTpFlags"] [.u8 x]] =
      .ok (optV ((TimTpFlags.raimActive x).map .bool), wrapV i!"TimTpFlags" (.u8 x)) := by
  exec_fn packetsRs_TimTpFlags_raim_active_lookup, packetsRs_TimTpFlags_raim_active [TimTpFlags.raimActive]
  (repeat' split) <;> simp_all [exec]

theorem TimTpFlags_utc_available (x : UInt8) :
    run program m (k + 1) [] i!"TimTpFlags" i!"utc_available" [.adt [i!"TimTpFlags"] [.u8 x]] =
      .ok (.bool (TimTpFlags.utcAvailable x), wrapV i!"TimTpFlags" (.u8 x)) := by
  exec_fn packetsRs_TimTpFlags_utc_available_lookup, packetsRs_TimTpFlags_utc_available [TimTpFlags.utcAvailable]
  first | done | rfl | simp

theorem TimTpFlags_q_err_valid (x : UInt8) :
    run program m (k + 1) [] i!"TimTpFlags" i!"q_err_valid" [.adt [i!"TimTpFlags"] [.u8 x]] =
      .ok (.bool (TimTpFlags.qErrValid x), wrapV i!"TimTpFlags" (.u8 x)) := by
  exec_fn packetsRs_TimTpFlags_q_err_valid_lookup, packetsRs_TimTpFlags_q_err_valid [TimTpFlags.qErrValid]
  first | done | rfl | simp

theorem TimTpRefInfo_time_ref_gnss (x : UInt8) :
    run program m (k + 1) [] i!"TimTpRefInfo" i!"time_ref_gnss" [.adt [i!"TimTpRefInfo"] [.u8 x]] =
      .ok (optV ((TimTpRefInfo.timeRefGnss x).map refGnssV), wrapV i!"TimTpRefInfo" (.u8 x)) := by
  exec_fn packetsRs_TimTpRefInfo_time_ref_gnss_lookup, packetsRs_TimTpRefInfo_time_ref_gnss [TimTpRefInfo.timeRefGnss]
  (repeat' split) <;> simp_all [exec]

theorem TimTpRefInfo_utc_standard (x : UInt8) :
    run program m (k + 1) [] i!"TimTpRefInfo" i!"utc_standard" [.adt [i!"TimTpRefInfo"] [.u8 x]] =
      .ok (optV ((TimTpRefInfo.utcStandard x).map utcStandardV), wrapV i!"TimTpRefInfo" (.u8 x)) := by
  exec_fn packetsRs_TimTpRefInfo_utc_standard_lookup, packetsRs_TimTpRefInfo_utc_standard [TimTpRefInfo.utcStandard]
  (repeat' split) <;> simp_all [exec]

theorem TimTm2Flags_mode (x : UInt8) :
    run program m (k + 1) [] i!"TimTm2Flags" i!"mode" [.adt [i!"TimTm2Flags"] [.u8 x]] =
      .ok (tm2ModeV (TimTm2Flags.mode x), wrapV i!"TimTm2Flags" (.u8 x)) := by
  exec_fn packetsRs_TimTm2Flags_mode_lookup, packetsRs_TimTm2Flags_mode [TimTm2Flags.mode]
  (repeat' split) <;> simp_all [exec]

theorem TimTm2Flags_run (x : UInt8) :
    run program m (k + 1) [] i!"TimTm2Flags" i!"run" [.adt [i!"TimTm2Flags"] [.u8 x]] =
      .ok (tm2RunV (TimTm2Flags.run x), wrapV i!"TimTm2Flags" (.u8 x)) := by
  exec_fn packetsRs_TimTm2Flags_run_lookup, packetsRs_TimTm2Flags_run [TimTm2Flags.run]
  (repeat' split) <;> simp_all [exec]

theorem TimTm2Flags_time_base (x : UInt8) :
    run program m (k + 1) [] i!"TimTm2Flags" i!"time_base" [.adt [i!"TimTm2Flags"] [.u8 x]] =
      returns (TimTm2Flags.timeBase x) (wrapV i!"TimTm2Flags" (.u8 x)) tm2TimeBaseV := by
  exec_fn packetsRs_TimTm2Flags_time_base_lookup, packetsRs_TimTm2Flags_time_base [TimTm2Flags.timeBase]

theorem TimTm2Flags_new_falling_edge (x : UInt8) :
    run program m (k + 1) [] i!"TimTm2Flags" i!"new_falling_edge" [.adt [i!"TimTm2Flags"] [.u8 x]] =
      .ok (.bool (TimTm2Flags.newFallingEdge x), wrapV i!"TimTm2Flags" (.u8 x)) := by
  exec_fn packetsRs_TimTm2Flags_new_falling_edge_lookup, packetsRs_TimTm2Flags_new_falling_edge [TimTm2Flags.newFallingEdge]
  first | done | rfl | simp

theorem TimTm2Flags_new_rising_edge (x : UInt8) :
    run program m (k + 1) [] i!"TimTm2Flags" i!"new_rising_edge" [.adt [i!"TimTm2Flags"] [.u8 x]] =
      .ok (.bool (TimTm2Flags.newRisingEdge x), wrapV i!"TimTm2Flags" (.u8 x)) := by
  exec_fn packetsRs_TimTm2Flags_new_rising_edge_lookup, packetsRs_TimTm2Flags_new_rising_edge [TimTm2Flags.newRisingEdge]
  first | done | rfl | simp

theorem TimTm2Flags_utc_available (x : UInt8) :
    run program m (k + 1) [] i!"TimTm2Flags" i!"utc_available" [.adt [i!"TimTm2Flags"] [.u8 x]] =
      .ok (.bool (TimTm2Flags.utcAvailable x), wrapV i!"TimTm2Flags" (.u8 x)) := by
  exec_fn packetsRs_TimTm2Flags_utc_available_lookup, packetsRs_TimTm2Flags_utc_available [TimTm2Flags.utcAvailable]
  first | done | rfl | simp

theorem TimTm2Flags_time_valid (x : UInt8) :
    run program m (k + 1) [] i!"TimTm2Flags" i!"time_valid" [.adt [i!"TimTm2Flags"] [.u8 x]] =
      .ok (.bool (TimTm2Flags.timeValid x), wrapV i!"TimTm2Flags" (.u8 x)) := by
  exec_fn packetsRs_TimTm2Flags_time_valid_lookup, packetsRs_TimTm2Flags_time_valid [TimTm2Flags.timeValid]
  first | done | rfl | simp

@[exec] theorem CfgItfmBbThreshold_POSITION : run program m (k + 1) [] i!"CfgItfmBbThreshold" i!"POSITION" [] = .ok (.u32 0, .unit) := by
  exec_fn packetsRs_CfgItfmBbThreshold_POSITION_lookup, packetsRs_CfgItfmBbThreshold_POSITION []

@[exec] theorem CfgItfmBbThreshold_LENGTH : run program m (k + 1) [] i!"CfgItfmBbThreshold" i!"LENGTH" [] = .ok (.u32 4, .unit) := by
  exec_fn packetsRs_CfgItfmBbThreshold_LENGTH_lookup, packetsRs_CfgItfmBbThreshold_LENGTH []

@[exec] theorem CfgItfmBbThreshold_MASK : run program m (k + 2) [] i!"CfgItfmBbThreshold" i!"MASK" [] = .ok (.u32 15, .unit) := by
  exec_fn packetsRs_CfgItfmBbThreshold_MASK_lookup, packetsRs_CfgItfmBbThreshold_MASK []

@[exec] theorem CfgItfmBbThreshold_into_raw (x : UInt32) :
    run program m (k + 3) [] i!"CfgItfmBbThreshold" i!"into_raw" [.adt [i!"CfgItfmBbThreshold"] [.u32 x]] =
      .ok (.u32 (CfgItfmBbThreshold.intoRaw x), wrapV i!"CfgItfmBbThreshold" (.u32 x)) := by
  exec_fn packetsRs_CfgItfmBbThreshold_into_raw_lookup, packetsRs_CfgItfmBbThreshold_into_raw [CfgItfmBbThreshold.intoRaw]
  rfl

@[exec] theorem CfgItfmBbThreshold_default : run program m (k + 1) [] i!"CfgItfmBbThreshold" i!"default" [] =
    .ok (wrapV i!"CfgItfmBbThreshold" (.u32 3), .unit) := by
  exec_fn packetsRs_CfgItfmBbThreshold_Default_default_lookup, packetsRs_CfgItfmBbThreshold_Default_default []

@[exec] theorem CfgItfmBbThreshold_from (x : UInt32) : run program m (k + 1) [] i!"CfgItfmBbThreshold" i!"from" [.u32 x] =
    .ok (wrapV i!"CfgItfmBbThreshold" (.u32 x), .unit) := by
  exec_fn packetsRs_CfgItfmBbThreshold_From_u32_from_lookup, packetsRs_CfgItfmBbThreshold_From_u32_from []

@[exec] theorem CfgItfmBbThreshold_from_u32 (x : UInt32) : run program m (k + 1) [i!"From", i!"u32"] i!"CfgItfmBbThreshold" i!"from" [.u32 x] =
    .ok (wrapV i!"CfgItfmBbThreshold" (.u32 x), .unit) := by
  exec_fn packetsRs_CfgItfmBbThreshold_From_u32_from_lookup_from, packetsRs_CfgItfmBbThreshold_From_u32_from []

@[exec] theorem CfgItfmCwThreshold_POSITION : run program m (k + 1) [] i!"CfgItfmCwThreshold" i!"POSITION" [] = .ok (.u32 4, .unit) := by
  exec_fn packetsRs_CfgItfmCwThreshold_POSITION_lookup, packetsRs_CfgItfmCwThreshold_POSITION []

@[exec] theorem CfgItfmCwThreshold_LENGTH : run program m (k + 1) [] i!"CfgItfmCwThreshold" i!"LENGTH" [] = .ok (.u32 5, .unit) := by
  exec_fn packetsRs_CfgItfmCwThreshold_LENGTH_lookup, packetsRs_CfgItfmCwThreshold_LENGTH []

@[exec] theorem CfgItfmCwThreshold_MASK : run program m (k + 2) [] i!"CfgItfmCwThreshold" i!"MASK" [] = .ok (.u32 31, .unit) := by
  exec_fn packetsRs_CfgItfmCwThreshold_MASK_lookup, packetsRs_CfgItfmCwThreshold_MASK []

@[exec] theorem CfgItfmCwThreshold_into_raw (x : UInt32) :
    run program m (k + 3) [] i!"CfgItfmCwThreshold" i!"into_raw" [.adt [i!"CfgItfmCwThreshold"] [.u32 x]] =
      .ok (.u32 (CfgItfmCwThreshold.intoRaw x), wrapV i!"CfgItfmCwThreshold" (.u32 x)) := by
  exec_fn packetsRs_CfgItfmCwThreshold_into_raw_lookup, packetsRs_CfgItfmCwThreshold_into_raw [CfgItfmCwThreshold.intoRaw]
  rfl

@[exec] theorem CfgItfmCwThreshold_default : run program m (k + 1) [] i!"CfgItfmCwThreshold" i!"default" [] =
    .ok (wrapV i!"CfgItfmCwThreshold" (.u32 15), .unit) := by
  exec_fn packetsRs_CfgItfmCwThreshold_Default_default_lookup, packetsRs_CfgItfmCwThreshold_Default_default []

@[exec] theorem CfgItfmCwThreshold_from (x : UInt32) : run program m (k + 1) [] i!"CfgItfmCwThreshold" i!"from" [.u32 x] =
    .ok (wrapV i!"CfgItfmCwThreshold" (.u32 x), .unit) := by
  exec_fn packetsRs_CfgItfmCwThreshold_From_u32_from_lookup, packetsRs_CfgItfmCwThreshold_From_u32_from []

@[exec] theorem CfgItfmCwThreshold_from_u32 (x : UInt32) : run program m (k + 1) [i!"From", i!"u32"] i!"CfgItfmCwThreshold" i!"from" [.u32 x] =
    .ok (wrapV i!"CfgItfmCwThreshold" (.u32 x), .unit) := by
  exec_fn packetsRs_CfgItfmCwThreshold_From_u32_from_lookup_from, packetsRs_CfgItfmCwThreshold_From_u32_from []

@[exec] theorem CfgItfmAlgoBits_POSITION : run program m (k + 1) [] i!"CfgItfmAlgoBits" i!"POSITION" [] = .ok (.u32 9, .unit) := by
  exec_fn packetsRs_CfgItfmAlgoBits_POSITION_lookup, packetsRs_CfgItfmAlgoBits_POSITION []

@[exec] theorem CfgItfmAlgoBits_LENGTH : run program m (k + 1) [] i!"CfgItfmAlgoBits" i!"LENGTH" [] = .ok (.u32 22, .unit) := by
  exec_fn packetsRs_CfgItfmAlgoBits_LENGTH_lookup, packetsRs_CfgItfmAlgoBits_LENGTH []

@[exec] theorem CfgItfmAlgoBits_MASK : run program m (k + 2) [] i!"CfgItfmAlgoBits" i!"MASK" [] = .ok (.u32 4194303, .unit) := by
  exec_fn packetsRs_CfgItfmAlgoBits_MASK_lookup, packetsRs_CfgItfmAlgoBits_MASK []

@[exec] theorem CfgItfmAlgoBits_into_raw (x : UInt32) :
    run program m (k + 3) [] i!"CfgItfmAlgoBits" i!"into_raw" [.adt [i!"CfgItfmAlgoBits"] [.u32 x]] =
      .ok (.u32 (CfgItfmAlgoBits.intoRaw x), wrapV i!"CfgItfmAlgoBits" (.u32 x)) := by
  exec_fn packetsRs_CfgItfmAlgoBits_into_raw_lookup, packetsRs_CfgItfmAlgoBits_into_raw [CfgItfmAlgoBits.intoRaw]
  rfl

@[exec] theorem CfgItfmAlgoBits_default : run program m (k + 1) [] i!"CfgItfmAlgoBits" i!"default" [] =
    .ok (wrapV i!"CfgItfmAlgoBits" (.u32 CfgItfmAlgoBits.default), .unit) := by
  exec_fn packetsRs_CfgItfmAlgoBits_Default_default_lookup, packetsRs_CfgItfmAlgoBits_Default_default []
  rfl

@[exec] theorem CfgItfmAlgoBits_from (x : UInt32) : run program m (k + 1) [] i!"CfgItfmAlgoBits" i!"from" [.u32 x] =
    .ok (wrapV i!"CfgItfmAlgoBits" (.u32 x), .unit) := by
  exec_fn packetsRs_CfgItfmAlgoBits_From_u32_from_lookup, packetsRs_CfgItfmAlgoBits_From_u32_from []

@[exec] theorem CfgItfmAlgoBits_from_u32 (x : UInt32) : run program m (k + 1) [i!"From", i!"u32"] i!"CfgItfmAlgoBits" i!"from" [.u32 x] =
    .ok (wrapV i!"CfgItfmAlgoBits" (.u32 x), .unit) := by
  exec_fn packetsRs_CfgItfmAlgoBits_From_u32_from_lookup_from, packetsRs_CfgItfmAlgoBits_From_u32_from []

@[exec] theorem CfgItfmGeneralBits_POSITION : run program m (k + 1) [] i!"CfgItfmGeneralBits" i!"POSITION" [] = .ok (.u32 0, .unit) := by
  exec_fn packetsRs_CfgItfmGeneralBits_POSITION_lookup, packetsRs_CfgItfmGeneralBits_POSITION []

@[exec] theorem CfgItfmGeneralBits_LENGTH : run program m (k + 1) [] i!"CfgItfmGeneralBits" i!"LENGTH" [] = .ok (.u32 12, .unit) := by
  exec_fn packetsRs_CfgItfmGeneralBits_LENGTH_lookup, packetsRs_CfgItfmGeneralBits_LENGTH []

@[exec] theorem CfgItfmGeneralBits_MASK : run program m (k + 2) [] i!"CfgItfmGeneralBits" i!"MASK" [] = .ok (.u32 4095, .unit) := by
  exec_fn packetsRs_CfgItfmGeneralBits_MASK_lookup, packetsRs_CfgItfmGeneralBits_MASK []

@[exec] theorem CfgItfmGeneralBits_into_raw (x : UInt32) :
    run program m (k + 3) [] i!"CfgItfmGeneralBits" i!"into_raw" [.adt [i!"CfgItfmGeneralBits"] [.u32 x]] =
      .ok (.u32 (CfgItfmGeneralBits.intoRaw x), wrapV i!"CfgItfmGeneralBits" (.u32 x)) := by
  exec_fn packetsRs_CfgItfmGeneralBits_into_raw_lookup, packetsRs_CfgItfmGeneralBits_into_raw [CfgItfmGeneralBits.intoRaw]
  rfl

@[exec] theorem CfgItfmGeneralBits_default : run program m (k + 1) [] i!"CfgItfmGeneralBits" i!"default" [] =
    .ok (wrapV i!"CfgItfmGeneralBits" (.u32 CfgItfmGeneralBits.default), .unit) := by
  exec_fn packetsRs_CfgItfmGeneralBits_Default_default_lookup, packetsRs_CfgItfmGeneralBits_Default_default []
  rfl

@[exec] theorem CfgItfmGeneralBits_from (x : UInt32) : run program m (k + 1) [] i!"CfgItfmGeneralBits" i!"from" [.u32 x] =
    .ok (wrapV i!"CfgItfmGeneralBits" (.u32 x), .unit) := by
  exec_fn packetsRs_CfgItfmGeneralBits_From_u32_from_lookup, packetsRs_CfgItfmGeneralBits_From_u32_from []

@[exec] theorem CfgItfmGeneralBits_from_u32 (x : UInt32) : run program m (k + 1) [i!"From", i!"u32"] i!"CfgItfmGeneralBits" i!"from" [.u32 x] =
    .ok (wrapV i!"CfgItfmGeneralBits" (.u32 x), .unit) := by
  exec_fn packetsRs_CfgItfmGeneralBits_From_u32_from_lookup_from, packetsRs_CfgItfmGeneralBits_From_u32_from []

/-! ## CFG-ITFM -/

theorem CfgItfmConfig_new (e : Bool) (bb cw : UInt32) :
    run program m (k + 2) [] i!"CfgItfmConfig" i!"new" [.bool e, .u32 bb, .u32 cw] =
      .ok (itfmConfigV (CfgItfmConfig.new e bb cw), .unit) := by
  exec_fn packetsRs_CfgItfmConfig_new_lookup, packetsRs_CfgItfmConfig_new [CfgItfmConfig.new]

theorem CfgItfmConfig_into_raw (x : CfgItfmConfig) :
    run program m (k + 4) [] i!"CfgItfmConfig" i!"into_raw" [itfmConfigV x] =
      .ok (.u32 x.intoRaw, itfmConfigV x) := by
  exec_fn packetsRs_CfgItfmConfig_into_raw_lookup, packetsRs_CfgItfmConfig_into_raw [CfgItfmConfig.intoRaw]

theorem CfgItfmConfig_from (x : UInt32) :
    run program m (k + 2) [] i!"CfgItfmConfig" i!"from" [.u32 x] =
      .ok (itfmConfigV (CfgItfmConfig.from_ x), .unit) := by
  exec_fn packetsRs_CfgItfmConfig_From_u32_from_lookup, packetsRs_CfgItfmConfig_From_u32_from [CfgItfmConfig.from_]

@[exec] theorem CfgItfmAntennaSettings_from (x : UInt32) :
    run program m (k + 1) [] i!"CfgItfmAntennaSettings" i!"from" [.u32 x] =
      .ok (antennaV (CfgItfmAntennaSettings.from_ x), .unit) := by
  exec_fn packetsRs_CfgItfmAntennaSettings_From_u32_from_lookup, packetsRs_CfgItfmAntennaSettings_From_u32_from
    [CfgItfmAntennaSettings.from_]
  (repeat' split) <;> simp_all [exec]

@[exec] theorem CfgItfmAntennaSettings_from_u32 (x : UInt32) :
    run program m (k + 1) [i!"From", i!"u32"] i!"CfgItfmAntennaSettings" i!"from" [.u32 x] =
      .ok (antennaV (CfgItfmAntennaSettings.from_ x), .unit) := by
  exec_fn packetsRs_CfgItfmAntennaSettings_From_u32_from_lookup_from, packetsRs_CfgItfmAntennaSettings_From_u32_from
    [CfgItfmAntennaSettings.from_]
  (repeat' split) <;> simp_all [exec]

theorem CfgItfmConfig2_new (a : CfgItfmAntennaSettings) (s : Bool) :
    run program m (k + 2) [] i!"CfgItfmConfig2" i!"new" [antennaV a, .bool s] =
      .ok (itfmConfig2V (CfgItfmConfig2.new a s), .unit) := by
  cases a <;>
  exec_fn packetsRs_CfgItfmConfig2_new_lookup, packetsRs_CfgItfmConfig2_new [CfgItfmConfig2.new]

theorem CfgItfmConfig2_into_raw (x : CfgItfmConfig2) :
    run program m (k + 4) [] i!"CfgItfmConfig2" i!"into_raw" [itfmConfig2V x] =
      .ok (.u32 x.intoRaw, itfmConfig2V x) := by
  obtain ⟨g, a, s⟩ := x
  cases a <;>
  exec_fn packetsRs_CfgItfmConfig2_into_raw_lookup, packetsRs_CfgItfmConfig2_into_raw
    [CfgItfmConfig2.intoRaw, CfgItfmAntennaSettings.intoRaw]

theorem CfgItfmConfig2_from (x : UInt32) :
    run program m (k + 2) [] i!"CfgItfmConfig2" i!"from" [.u32 x] =
      .ok (itfmConfig2V (CfgItfmConfig2.from_ x), .unit) := by
  cases h : CfgItfmAntennaSettings.from_ x <;>
  exec_fn packetsRs_CfgItfmConfig2_From_u32_from_lookup, packetsRs_CfgItfmConfig2_From_u32_from
    [CfgItfmConfig2.from_, h]

/-! ## CFG-PRT -/

@[exec] theorem DataBits_POSITION : run program m (k + 1) [] i!"DataBits" i!"POSITION" [] = .ok (.u32 6, .unit) := by
  exec_fn packetsRs_DataBits_POSITION_lookup, packetsRs_DataBits_POSITION []

@[exec] theorem DataBits_MASK : run program m (k + 1) [] i!"DataBits" i!"MASK" [] = .ok (.u32 3, .unit) := by
  exec_fn packetsRs_DataBits_MASK_lookup, packetsRs_DataBits_MASK []

theorem DataBits_into_raw (x : DataBits) :
    run program m (k + 2) [] i!"DataBits" i!"into_raw" [dataBitsV x] = .ok (.u32 x.intoRaw, dataBitsV x) := by
  cases x <;>
  exec_fn packetsRs_DataBits_into_raw_lookup, packetsRs_DataBits_into_raw [DataBits.intoRaw] <;> rfl

@[exec] theorem DataBits_from (x : UInt32) :
    run program m (k + 2) [] i!"DataBits" i!"from" [.u32 x] = returns (DataBits.from x) .unit dataBitsV := by
  exec_fn packetsRs_DataBits_From_u32_from_lookup, packetsRs_DataBits_From_u32_from [DataBits.from]

@[exec] theorem DataBits_from_u32 (x : UInt32) :
    run program m (k + 2) [i!"From", i!"u32"] i!"DataBits" i!"from" [.u32 x] = returns (DataBits.from x) .unit dataBitsV := by
  exec_fn packetsRs_DataBits_From_u32_from_lookup_from, packetsRs_DataBits_From_u32_from [DataBits.from]

@[exec] theorem Parity_POSITION : run program m (k + 1) [] i!"Parity" i!"POSITION" [] = .ok (.u32 9, .unit) := by
  exec_fn packetsRs_Parity_POSITION_lookup, packetsRs_Parity_POSITION []

@[exec] theorem Parity_MASK : run program m (k + 1) [] i!"Parity" i!"MASK" [] = .ok (.u32 7, .unit) := by
  exec_fn packetsRs_Parity_MASK_lookup, packetsRs_Parity_MASK []

theorem Parity_into_raw (x : Parity) :
    run program m (k + 2) [] i!"Parity" i!"into_raw" [parityV x] = .ok (.u32 x.intoRaw, parityV x) := by
  cases x <;>
  exec_fn packetsRs_Parity_into_raw_lookup, packetsRs_Parity_into_raw [Parity.intoRaw] <;> rfl

@[exec] theorem Parity_from (x : UInt32) :
    run program m (k + 2) [] i!"Parity" i!"from" [.u32 x] = returns (Parity.from x) .unit parityV := by
  exec_fn packetsRs_Parity_From_u32_from_lookup, packetsRs_Parity_From_u32_from [Parity.from]
  grind

@[exec] theorem Parity_from_u32 (x : UInt32) :
    run program m (k + 2) [i!"From", i!"u32"] i!"Parity" i!"from" [.u32 x] = returns (Parity.from x) .unit parityV := by
  exec_fn packetsRs_Parity_From_u32_from_lookup_from, packetsRs_Parity_From_u32_from [Parity.from]
  grind

@[exec] theorem StopBits_POSITION : run program m (k + 1) [] i!"StopBits" i!"POSITION" [] = .ok (.u32 12, .unit) := by
  exec_fn packetsRs_StopBits_POSITION_lookup, packetsRs_StopBits_POSITION []

@[exec] theorem StopBits_MASK : run program m (k + 1) [] i!"StopBits" i!"MASK" [] = .ok (.u32 3, .unit) := by
  exec_fn packetsRs_StopBits_MASK_lookup, packetsRs_StopBits_MASK []

theorem StopBits_into_raw (x : StopBits) :
    run program m (k + 2) [] i!"StopBits" i!"into_raw" [stopBitsV x] = .ok (.u32 x.intoRaw, stopBitsV x) := by
  cases x <;>
  exec_fn packetsRs_StopBits_into_raw_lookup, packetsRs_StopBits_into_raw [StopBits.intoRaw] <;> rfl

@[exec] theorem StopBits_from (x : UInt32) :
    run program m (k + 2) [] i!"StopBits" i!"from" [.u32 x] = returns (StopBits.from x) .unit stopBitsV := by
  exec_fn packetsRs_StopBits_From_u32_from_lookup, packetsRs_StopBits_From_u32_from [StopBits.from]

@[exec] theorem StopBits_from_u32 (x : UInt32) :
    run program m (k + 2) [i!"From", i!"u32"] i!"StopBits" i!"from" [.u32 x] = returns (StopBits.from x) .unit stopBitsV := by
  exec_fn packetsRs_StopBits_From_u32_from_lookup_from, packetsRs_StopBits_From_u32_from [StopBits.from]

theorem UartMode_new (d : DataBits) (p : Parity) (b : StopBits) :
    run program m (k + 1) [] i!"UartMode" i!"new" [dataBitsV d, parityV p, stopBitsV b] =
      .ok (uartModeV ⟨d, p, b⟩, .unit) := by
  cases d <;> cases p <;> cases b <;>
  exec_fn packetsRs_UartMode_new_lookup, packetsRs_UartMode_new []

theorem UartMode_into_raw (x : UartMode) :
    run program m (k + 3) [] i!"UartMode" i!"into_raw" [uartModeV x] = .ok (.u32 x.intoRaw, uartModeV x) := by
  obtain ⟨d, p, b⟩ := x
  have h1 := DataBits_into_raw m k d
  have h2 := Parity_into_raw m k p
  have h3 := StopBits_into_raw m k b
  cases d <;> cases p <;> cases b <;> (
    simp only [exec] at h1 h2 h3
    exec_fn packetsRs_UartMode_into_raw_lookup, packetsRs_UartMode_into_raw [UartMode.intoRaw, h1, h2, h3])

theorem UartMode_from (x : UInt32) :
    run program m (k + 3) [] i!"UartMode" i!"from" [.u32 x] = returns (UartMode.from x) .unit uartModeV := by
  exec_fn packetsRs_UartMode_From_u32_from_lookup, packetsRs_UartMode_From_u32_from [UartMode.from]
  generalize DataBits.from x = d
  generalize Parity.from x = p
  generalize StopBits.from x = b
  cases d with
  | error => simp only [rust, bind, Except.bind]
  | ok d =>
    cases p with
    | error => simp only [rust, bind, Except.bind]
    | ok p =>
      cases b with
      | error => simp only [rust, bind, Except.bind]
      | ok b => cases d <;> cases p <;> cases b <;> simp only [rust, exec, bind, Except.bind, pure, Except.pure]

/-! ## Plain enumerations and masks -/

theorem ResetMode_into_raw (x : ResetMode) :
    run program m (k + 1) [] i!"ResetMode" i!"into_raw" [resetModeV x] = .ok (.u8 x.intoRaw, resetModeV x) := by
  cases x <;>
  exec_fn packetsRs_ResetMode_into_raw_lookup, packetsRs_ResetMode_into_raw [ResetMode.intoRaw]

theorem AlignmentToReferenceTime_into_raw (x : AlignmentToReferenceTime) :
    run program m (k + 1) [] i!"AlignmentToReferenceTime" i!"into_raw" [alignmentV x] =
      .ok (.u16 x.intoRaw, alignmentV x) := by
  cases x <;>
  exec_fn packetsRs_AlignmentToReferenceTime_into_raw_lookup, packetsRs_AlignmentToReferenceTime_into_raw
    [AlignmentToReferenceTime.intoRaw]

theorem StorageSize_to_usize (x : StorageSize) :
    run program m (k + 1) [] i!"StorageSize" i!"to_usize" [storageSizeV x] =
      .ok (.usize x.toUsize, storageSizeV x) := by
  cases x <;>
  exec_fn cfgHeadRs_StorageSize_to_usize_lookup, cfgHeadRs_StorageSize_to_usize [StorageSize.toUsize]

theorem KeyId_SIZE : run program m (k + 1) [] i!"KeyId" i!"SIZE" [] = .ok (.usize KeyId.SIZE, .unit) := by
  exec_fn cfgHeadRs_KeyId_SIZE_lookup, cfgHeadRs_KeyId_SIZE [KeyId.SIZE]

theorem KeyId_value_size (x : UInt32) :
    run program m (k + 1) [] i!"KeyId" i!"value_size" [.adt [i!"KeyId"] [.u32 x]] =
      .ok (storageSizeV (KeyId.valueSize x), wrapV i!"KeyId" (.u32 x)) := by
  exec_fn cfgHeadRs_KeyId_value_size_lookup, cfgHeadRs_KeyId_value_size [KeyId.valueSize]
  (repeat' split) <;> simp_all [exec]

theorem KeyId_group_id (x : UInt32) :
    run program m (k + 1) [] i!"KeyId" i!"group_id" [.adt [i!"KeyId"] [.u32 x]] =
      .ok (.u8 (KeyId.groupId x), wrapV i!"KeyId" (.u32 x)) := by
  exec_fn cfgHeadRs_KeyId_group_id_lookup, cfgHeadRs_KeyId_group_id [KeyId.groupId]

theorem KeyId_item_id (x : UInt32) :
    run program m (k + 1) [] i!"KeyId" i!"item_id" [.adt [i!"KeyId"] [.u32 x]] =
      .ok (.u8 (KeyId.itemId x), wrapV i!"KeyId" (.u32 x)) := by
  exec_fn cfgHeadRs_KeyId_item_id_lookup, cfgHeadRs_KeyId_item_id [KeyId.itemId]

theorem CfgLayer_default :
    run program m (k + 1) [] i!"CfgLayer" i!"default" [] = .ok (.flags i!"CfgLayer" 7, .unit) := by
  exec_fn packetsRs_CfgLayer_Default_default_lookup, packetsRs_CfgLayer_Default_default []

@[exec] theorem find_navBbrMask : program.flags.find? (fun d => d.name == "NavBbrMask") = some navBbrMask_ := by
  kernel_rfl

theorem NavBbrPredefinedMask_HOT_START :
    run program m (k + 1) [] i!"NavBbrPredefinedMask" i!"HOT_START" [] =
      .ok (wrapV i!"NavBbrPredefinedMask" (.u16 NavBbrPredefinedMask.HOT_START.bits), .unit) := by
  exec_fn packetsRs_NavBbrPredefinedMask_HOT_START_lookup, packetsRs_NavBbrPredefinedMask_HOT_START
    [NavBbrPredefinedMask.HOT_START]

theorem NavBbrPredefinedMask_WARM_START :
    run program m (k + 1) [] i!"NavBbrPredefinedMask" i!"WARM_START" [] =
      .ok (wrapV i!"NavBbrPredefinedMask" (.u16 NavBbrPredefinedMask.WARM_START.bits), .unit) := by
  exec_fn packetsRs_NavBbrPredefinedMask_WARM_START_lookup, packetsRs_NavBbrPredefinedMask_WARM_START
    [NavBbrPredefinedMask.WARM_START]

theorem NavBbrPredefinedMask_COLD_START :
    run program m (k + 1) [] i!"NavBbrPredefinedMask" i!"COLD_START" [] =
      .ok (wrapV i!"NavBbrPredefinedMask" (.u16 NavBbrPredefinedMask.COLD_START.bits), .unit) := by
  exec_fn packetsRs_NavBbrPredefinedMask_COLD_START_lookup, packetsRs_NavBbrPredefinedMask_COLD_START
    [NavBbrPredefinedMask.COLD_START]

theorem NavBbrMask_from (x : NavBbrPredefinedMask) :
    run program m (k + 1) [] i!"NavBbrMask" i!"from" [wrapV i!"NavBbrPredefinedMask" (.u16 x.bits)] =
      .ok (.flags i!"NavBbrMask" (navBbrMask_.fromBitsTruncate x.bits.toNat), .unit) := by
  exec_fn packetsRs_NavBbrMask_From_NavBbrPredefinedMask_from_lookup,
    packetsRs_NavBbrMask_From_NavBbrPredefinedMask_from [show navBbrMask_.nbits = 16 from rfl]

end Ublox.Exec
