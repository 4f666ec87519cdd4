import Verif.Spec.Protocol

/-!
# The names under which values are printed and serialized

The accessors of some values are called by a long name (often with the unit); debug output and
serialized maps show them under the short name of the interface description.
-/

namespace Ublox.Spec.Protocol

/-- Short names of angles and their accuracy (NAV-ATT, HNR-ATT). -/
def attitudeNames : List (String × String) :=
  [("vehicle_roll", "roll"), ("vehicle_pitch", "pitch"), ("vehicle_heading", "heading"),
    ("vehicle_roll_accuracy", "acc_roll"), ("vehicle_pitch_accuracy", "acc_pitch"),
    ("vehicle_heading_accuracy", "acc_heading")]

/-- Short names of rates and accelerations (ESF-INS, HNR-INS). -/
def dynamicsNames : List (String × String) :=
  ["x", "y", "z"].flatMap fun c =>
    [(c ++ "_angular_rate", c ++ "_ang_rate"), (c ++ "_acceleration", c ++ "_accel")]

/-- Short names of coordinates in degrees. -/
def degreeNames : List (String × String) := [("lon_degrees", "lon"), ("lat_degrees", "lat")]

/-- For each packet: accessor and short name. -/
def shortNames : List (String × List (String × String)) :=
  [("NavPosLlh", degreeNames),
   ("NavVelNed", [("heading_degrees", "heading")]),
   ("NavHpPosLlh", degreeNames ++ [("lon_hp_degrees", "lon_hp"), ("lat_hp_degrees", "lat_hp")]),
   ("NavHpPosEcef", ["x", "y", "z"].flatMap fun c =>
     [("ecef_" ++ c ++ "_cm", "ecef_" ++ c), ("ecef_" ++ c ++ "_hp_mm", "ecef_" ++ c ++ "_hp")]),
   ("NavPvt", degreeNames ++ [("heading_degrees", "heading"),
     ("heading_of_vehicle_degrees", "heading_of_vehicle"),
     ("magnetic_declination_degrees", "magnetic_declination"),
     ("magnetic_declination_accuracy_degrees", "magnetic_declination_accuracy")]),
   ("NavAtt", attitudeNames), ("HnrAtt", attitudeNames),
   ("EsfIns", dynamicsNames), ("HnrIns", dynamicsNames),
   ("HnrPvt", [("longitude", "lon"), ("latitude", "lat"), ("height_above_ellipsoid", "height"),
     ("ground_speed_2d", "g_speed"), ("speed_3d", "speed"), ("heading_motion", "head_mot"),
     ("heading_vehicle", "head_veh"), ("heading_accurracy", "head_acc")])]

/-- The name under which the value of an accessor is shown: the short one, if there is one. -/
def keyOf (packet accessor : String) : String :=
  match shortNames.lookup packet with
  | some names => (names.lookup accessor).getD accessor
  | none => accessor

end Ublox.Spec.Protocol
