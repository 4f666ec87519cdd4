import Verif.Lemmas.ExecMeta

/-!
# Evaluation of the hand-written `Debug::fmt`
-/

namespace Ublox.Exec

open Code Spec Gen

attribute [local irreducible] Exec.run Code.lift Exec.runFn

variable (m : Mach) (k : Nat)

/-! The values of the four types under names that simplification does not unfold -/

def mapMatchingD : MapMatchingStatus → W := mapMatchingV
def qualityD : NavSatQualityIndicator → W := qualityV
def healthD : NavSatSvHealth → W := healthV
def orbitD : NavSatOrbitSource → W := orbitV

theorem map_matching_D (x : UInt8) :
    run program m (k + 1) [] i!"FixStatusInfo" i!"map_matching" [.adt [i!"FixStatusInfo"] [.u8 x]] =
      returns (FixStatusInfo.mapMatching x) (wrapV i!"FixStatusInfo" (.u8 x)) mapMatchingD := FixStatusInfo_map_matching m k x
theorem quality_ind_D (x : UInt32) :
    run program m (k + 1) [] i!"NavSatSvFlags" i!"quality_ind" [.adt [i!"NavSatSvFlags"] [.u32 x]] =
      returns (NavSatSvFlags.qualityInd x) (wrapV i!"NavSatSvFlags" (.u32 x)) qualityD := NavSatSvFlags_quality_ind m k x
theorem health_D (x : UInt32) :
    run program m (k + 1) [] i!"NavSatSvFlags" i!"health" [.adt [i!"NavSatSvFlags"] [.u32 x]] =
      .ok (healthD (NavSatSvFlags.health x), wrapV i!"NavSatSvFlags" (.u32 x)) := NavSatSvFlags_health m k x
theorem orbit_source_D (x : UInt32) :
    run program m (k + 1) [] i!"NavSatSvFlags" i!"orbit_source" [.adt [i!"NavSatSvFlags"] [.u32 x]] =
      .ok (orbitD (NavSatSvFlags.orbitSource x), wrapV i!"NavSatSvFlags" (.u32 x)) := NavSatSvFlags_orbit_source m k x

theorem debugText_mapMatching (q : MapMatchingStatus) : debugText (mapMatchingD q) = some q.debug := by
  cases q <;> kernel_rfl
theorem debugText_quality (q : NavSatQualityIndicator) : debugText (qualityD q) = some q.debug := by
  cases q <;> kernel_rfl
theorem debugText_health (q : NavSatSvHealth) : debugText (healthD q) = some q.debug := by
  cases q with
  | unknown x =>
    show some (nameStr i!"Unknown" ++ "(" ++ numeral 10 x.toNat ++ ")") = _
    rw [show nameStr i!"Unknown" = "Unknown" from by kernel_rfl]; rfl
  | _ => kernel_rfl
theorem debugText_orbit (q : NavSatOrbitSource) : debugText (orbitD q) = some q.debug := by
  cases q with
  | other x =>
    show some (nameStr i!"Other" ++ "(" ++ numeral 10 x.toNat ++ ")") = _
    rw [show nameStr i!"Other" = "Other" from by kernel_rfl]; rfl
  | _ => kernel_rfl
theorem debugText_bool (b : Bool) : debugText (.bool b) = some (debugBool b) := rfl

theorem debugFields_nil : debugFields [] = some [] := rfl
theorem debugFields_cons (n : Name) (v : W) (fs : List (Name × W)) (t : String) (r : List (String × String))
    (h : debugText v = some t) (h' : debugFields fs = some r) : debugFields ((n, v) :: fs) = some ((nameStr n, t) :: r) := by
  rw [debugFields, h, h']

theorem FixStatusInfo_fmt (x : UInt8) :
    run program m (k + 2) [] i!"FixStatusInfo" i!"fmt" [.adt [i!"FixStatusInfo"] [.u8 x], .formatter] =
      returns (FixStatusInfo.debug x) (wrapV i!"FixStatusInfo" (.u8 x)) .string := by
  rw [run_fn packetsRs_FixStatusInfo_fmt_Debug_fmt_lookup]; unfold packetsRs_FixStatusInfo_fmt_Debug_fmt
  simp only [rust, exec, debugFields, debugText_bool, debugText_mapMatching, debugText_quality, debugText_health,
    debugText_orbit, FixStatusInfo_has_pr_prr_correction, map_matching_D, FixStatusInfo.debug, lift_bindR, lift_pureR]

theorem NavSatSvFlags_fmt (x : UInt32) :
    run program m (k + 2) [] i!"NavSatSvFlags" i!"fmt" [.adt [i!"NavSatSvFlags"] [.u32 x], .formatter] =
      returns (NavSatSvFlags.debug x) (wrapV i!"NavSatSvFlags" (.u32 x)) .string := by
  rw [run_fn packetsRs_NavSatSvFlags_fmt_Debug_fmt_lookup]; unfold packetsRs_NavSatSvFlags_fmt_Debug_fmt
  simp only [rust, exec, debugFields, debugText_bool, debugText_mapMatching, debugText_quality, debugText_health,
    debugText_orbit, quality_ind_D, NavSatSvFlags_sv_used, health_D, NavSatSvFlags_differential_correction_available, NavSatSvFlags_smoothed, orbit_source_D, NavSatSvFlags_ephemeris_available, NavSatSvFlags_almanac_available, NavSatSvFlags_an_offline_available, NavSatSvFlags_an_auto_available, NavSatSvFlags_sbas_corr, NavSatSvFlags_rtcm_corr, NavSatSvFlags_slas_corr, NavSatSvFlags_spartn_corr, NavSatSvFlags_pr_corr, NavSatSvFlags_cr_corr, NavSatSvFlags_do_corr, NavSatSvFlags.debug, lift_bindR, lift_pureR]

end Ublox.Exec
