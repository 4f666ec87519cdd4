import Verif.Model.Types
import Verif.Model.Error

/-!
# Debug texts of the flags

The `Debug` implementations written by hand in `ublox/src/ubx_packets/packets.rs`, printed with
`{:?}`.
-/

namespace Ublox

/-- `core::fmt::Formatter::debug_struct` with its calls of `field` and `finish`, without the
alternate flag.  (Rust's standard library; no code of `/repo`.) -/
def debugStruct (name : String) : List (String × String) → String
  | [] => name
  | (k, v) :: rest =>
    name ++ " { " ++ k ++ ": " ++ v ++ rest.foldr (fun e t => ", " ++ e.1 ++ ": " ++ e.2 ++ t) " }"

/-- `Debug` of `bool`.  (Rust's standard library.) -/
def debugBool (b : Bool) : String := if b then "true" else "false"

/-- `packets.rs:536-545`, the derived `Debug` of `MapMatchingStatus` -/
def MapMatchingStatus.debug : MapMatchingStatus → String
  | .none => "None"
  | .valid => "Valid"
  | .used => "Used"
  | .dr => "Dr"

/-- `packets.rs:690-699`, the derived `Debug` of `NavSatQualityIndicator` -/
def NavSatQualityIndicator.debug : NavSatQualityIndicator → String
  | .noSignal => "NoSignal"
  | .searching => "Searching"
  | .signalAcquired => "SignalAcquired"
  | .signalDetected => "SignalDetected"
  | .codeLock => "CodeLock"
  | .carrierLock => "CarrierLock"

/-- `packets.rs:701-707`, the derived `Debug` of `NavSatSvHealth` -/
def NavSatSvHealth.debug : NavSatSvHealth → String
  | .healthy => "Healthy"
  | .unhealthy => "Unhealthy"
  | .unknown x => "Unknown(" ++ numeral 10 x.toNat ++ ")"

/-- `packets.rs:709-718`, the derived `Debug` of `NavSatOrbitSource` -/
def NavSatOrbitSource.debug : NavSatOrbitSource → String
  | .noInfoAvailable => "NoInfoAvailable"
  | .ephemeris => "Ephemeris"
  | .almanac => "Almanac"
  | .assistNowOffline => "AssistNowOffline"
  | .assistNowAutonomous => "AssistNowAutonomous"
  | .other x => "Other(" ++ numeral 10 x.toNat ++ ")"

/-- `packets.rs:525-532`, `Debug` of `FixStatusInfo` -/
def FixStatusInfo.debug (x : UInt8) : R String := do
  return debugStruct "FixStatusInfo" [
    ("has_pr_prr_correction", debugBool (FixStatusInfo.hasPrPrrCorrection x)),
    ("map_matching", (← FixStatusInfo.mapMatching x).debug)]

/-- `packets.rs:663-688`, `Debug` of `NavSatSvFlags` -/
def NavSatSvFlags.debug (x : UInt32) : R String := do
  return debugStruct "NavSatSvFlags" [
    ("quality_ind", (← NavSatSvFlags.qualityInd x).debug),
    ("sv_used", debugBool (NavSatSvFlags.svUsed x)),
    ("health", (NavSatSvFlags.health x).debug),
    ("differential_correction_available",
      debugBool (NavSatSvFlags.differentialCorrectionAvailable x)),
    ("smoothed", debugBool (NavSatSvFlags.smoothed x)),
    ("orbit_source", (NavSatSvFlags.orbitSource x).debug),
    ("ephemeris_available", debugBool (NavSatSvFlags.ephemerisAvailable x)),
    ("almanac_available", debugBool (NavSatSvFlags.almanacAvailable x)),
    ("an_offline_available", debugBool (NavSatSvFlags.anOfflineAvailable x)),
    ("an_auto_available", debugBool (NavSatSvFlags.anAutoAvailable x)),
    ("sbas_corr", debugBool (NavSatSvFlags.sbasCorr x)),
    ("rtcm_corr", debugBool (NavSatSvFlags.rtcmCorr x)),
    ("slas_corr", debugBool (NavSatSvFlags.slasCorr x)),
    ("spartn_corr", debugBool (NavSatSvFlags.spartnCorr x)),
    ("pr_corr", debugBool (NavSatSvFlags.prCorr x)),
    ("cr_corr", debugBool (NavSatSvFlags.crCorr x)),
    ("do_corr", debugBool (NavSatSvFlags.doCorr x))]

end Ublox
