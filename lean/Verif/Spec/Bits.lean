import Verif.Model.Types

/-!
# Specification of bit fields

The bit fields of the flag words as the u-blox protocol description defines them, in terms of the
number that the word denotes.
-/

namespace Ublox.Spec

/-- The `n` bits of `x` from bit `lo` on, as a number. -/
def field (x lo n : Nat) : Nat := x / 2 ^ lo % 2 ^ n

/-- Bit `k` of `x`. -/
def bit (x k : Nat) : Bool := x / 2 ^ k % 2 == 1

/-- NAV-STATUS `fixStat`, bits 7..6 -/
def mapMatchingOf : Nat → MapMatchingStatus
  | 0 => .none
  | 1 => .valid
  | 2 => .used
  | _ => .dr

/-- NAV-SAT `flags`, bits 2..0 -/
def qualityOf : Nat → NavSatQualityIndicator
  | 0 => .noSignal
  | 1 => .searching
  | 2 => .signalAcquired
  | 3 => .signalDetected
  | 4 => .codeLock
  | _ => .carrierLock

/-- NAV-SAT `flags`, bits 5..4 -/
def healthOf : Nat → NavSatSvHealth
  | 1 => .healthy
  | 2 => .unhealthy
  | n => .unknown (UInt8.ofNat n)

/-- NAV-SAT `flags`, bits 10..8 -/
def orbitSourceOf : Nat → NavSatOrbitSource
  | 0 => .noInfoAvailable
  | 1 => .ephemeris
  | 2 => .almanac
  | 3 => .assistNowOffline
  | 4 => .assistNowAutonomous
  | n => .other (UInt8.ofNat n)

/-- TIM-TP `flags`, bits 3..2: 1 = RAIM not active, 2 = RAIM active -/
def raimOf : Nat → Option Bool
  | 1 => some false
  | 2 => some true
  | _ => none

/-- TIM-TP `refInfo`, bits 3..0 -/
def timeRefGnssOf : Nat → Option TimTpRefInfoTimeRefGnss
  | 0 => some .gps
  | 1 => some .glo
  | 2 => some .bds
  | 3 => some .gal
  | 4 => some .navIc
  | _ => none

/-- TIM-TP `refInfo`, bits 7..4 -/
def utcStandardOf : Nat → Option TimTpRefInfoUtcStandard
  | 1 => some .crl
  | 2 => some .nist
  | 3 => some .usno
  | 4 => some .bipm
  | 5 => some .eu
  | 6 => some .su
  | 7 => some .ntsc
  | 8 => some .npli
  | _ => none

/-- TIM-TM2 `flags`, bits 4..3; the value 3 is not defined -/
def timTm2TimeBaseOf : Nat → Option TimTm2TimeBase
  | 0 => some .receiver
  | 1 => some .gnss
  | 2 => some .utc
  | _ => none

/-- CFG-PRT `mode`, bits 7..6 -/
def dataBitsCode : DataBits → Nat
  | .seven => 2
  | .eight => 3

/-- CFG-PRT `mode`, bits 11..9; `10x` is no parity, encoded as `100` -/
def parityCode : Parity → Nat
  | .even => 0
  | .odd => 1
  | .none => 4

/-- CFG-PRT `mode`, bits 13..12 -/
def stopBitsCode : StopBits → Nat
  | .one => 0
  | .oneHalf => 1
  | .two => 2
  | .half => 3

/-- The settings in a CFG-PRT `mode` word, `none` where the crate has no value for them. -/
def dataBitsOf (n : Nat) : Option DataBits :=
  match n with
  | 2 => some .seven
  | 3 => some .eight
  | _ => none

/-- Parity in a CFG-PRT `mode` word. -/
def parityOf (n : Nat) : Option Parity :=
  match n with
  | 0 => some .even
  | 1 => some .odd
  | 4 => some .none
  | 5 => some .none
  | _ => none

/-- Stop bits in a CFG-PRT `mode` word. -/
def stopBitsOf (n : Nat) : Option StopBits :=
  match n with
  | 0 => some .one
  | 1 => some .oneHalf
  | 2 => some .two
  | 3 => some .half
  | _ => none

/-- CFG-ITFM `config2`, bits 13..12, as the crate numbers them (the interface description has 1 and 2
exchanged, see `c58_antenna_wrong`) -/
def antennaCode : CfgItfmAntennaSettings → Nat
  | .unknown => 0
  | .active => 1
  | .passive => 2

end Ublox.Spec
