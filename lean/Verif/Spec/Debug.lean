import Verif.Spec.Bits

/-!
# Specification of the debug texts of flags

Which bits stand behind which name, after the u-blox interface description.
-/

namespace Ublox.Spec

/-- The texts with a comma and a space between them. -/
def commas : List String → String
  | [] => ""
  | [s] => s
  | s :: t :: ss => s ++ ", " ++ commas (t :: ss)

/-- `Name { a: x, b: y }` -/
def Shown (name : String) (entries : List (String × String)) (text : String) : Prop :=
  text = name ++ " { " ++ commas (entries.map fun e => e.1 ++ ": " ++ e.2) ++ " }"

/-- A single bit. -/
def flagText : Nat → String
  | 0 => "false"
  | _ => "true"

/-- NAV-STATUS `fixStat`, bits 7..6 -/
def mapMatchingText : Nat → String
  | 0 => "None"
  | 1 => "Valid"
  | 2 => "Used"
  | _ => "Dr"

/-- NAV-SAT `flags`, bits 2..0 -/
def qualityText : Nat → String
  | 0 => "NoSignal"
  | 1 => "Searching"
  | 2 => "SignalAcquired"
  | 3 => "SignalDetected"
  | 4 => "CodeLock"
  | _ => "CarrierLock"

/-- NAV-SAT `flags`, bits 5..4 -/
def healthText : Nat → String
  | 0 => "Unknown(0)"
  | 1 => "Healthy"
  | 2 => "Unhealthy"
  | _ => "Unknown(3)"

/-- NAV-SAT `flags`, bits 10..8 -/
def orbitText : Nat → String
  | 0 => "NoInfoAvailable"
  | 1 => "Ephemeris"
  | 2 => "Almanac"
  | 3 => "AssistNowOffline"
  | 4 => "AssistNowAutonomous"
  | 5 => "Other(5)"
  | 6 => "Other(6)"
  | _ => "Other(7)"

/-- A part of a word of flags: its name, its lowest bit, its width and its texts. -/
structure FlagPart where
  name : String
  low : Nat
  width : Nat
  text : Nat → String

/-- What a part shows of a word. -/
def FlagPart.shows (p : FlagPart) (w : Nat) : String := p.text (field w p.low p.width)

/-- NAV-STATUS `fixStat` -/
def fixStatusParts : List FlagPart := [
  ⟨"has_pr_prr_correction", 0, 1, flagText⟩,
  ⟨"map_matching", 6, 2, mapMatchingText⟩]

/-- NAV-SAT `flags` -/
def svFlagsParts : List FlagPart := [
  ⟨"quality_ind", 0, 3, qualityText⟩,
  ⟨"sv_used", 3, 1, flagText⟩,
  ⟨"health", 4, 2, healthText⟩,
  ⟨"differential_correction_available", 6, 1, flagText⟩,
  ⟨"smoothed", 7, 1, flagText⟩,
  ⟨"orbit_source", 8, 3, orbitText⟩,
  ⟨"ephemeris_available", 11, 1, flagText⟩,
  ⟨"almanac_available", 12, 1, flagText⟩,
  ⟨"an_offline_available", 13, 1, flagText⟩,
  ⟨"an_auto_available", 14, 1, flagText⟩,
  ⟨"sbas_corr", 16, 1, flagText⟩,
  ⟨"rtcm_corr", 17, 1, flagText⟩,
  ⟨"slas_corr", 18, 1, flagText⟩,
  ⟨"spartn_corr", 19, 1, flagText⟩,
  ⟨"pr_corr", 20, 1, flagText⟩,
  ⟨"cr_corr", 21, 1, flagText⟩,
  ⟨"do_corr", 22, 1, flagText⟩]

end Ublox.Spec
