import Verif.Model.GenPackets

/-!
# The predefined masks of CFG-RST
-/

namespace Ublox

/-- `ublox/src/ubx_packets/packets.rs:1727-1730`, `NavBbrPredefinedMask(u16)` -/
structure NavBbrPredefinedMask where
  bits : UInt16
  deriving DecidableEq, Repr

/-- `packets.rs:1739` -/
def NavBbrPredefinedMask.HOT_START : NavBbrPredefinedMask := ⟨0⟩

/-- `packets.rs:1740` -/
def NavBbrPredefinedMask.WARM_START : NavBbrPredefinedMask := ⟨1⟩

/-- `packets.rs:1741` -/
def NavBbrPredefinedMask.COLD_START : NavBbrPredefinedMask := ⟨0xFFFF⟩

/-- `packets.rs:1732-1736`, `impl From<NavBbrPredefinedMask> for NavBbrMask`; the result is a value of
the field type of `nav_bbr_mask`. -/
def NavBbrPredefinedMask.toMask (x : NavBbrPredefinedMask) : Val :=
  .flags (Gen.navBbrMask_.fromBitsTruncate x.bits.toNat)

/-- `packets.rs:1321-1333`, `CfgRstBuilder`: the values of the fields of a builder, as the structure
literal `CfgRstBuilder { nav_bbr_mask, reset_mode, reserved1 }`. -/
def cfgRstBuilder (mask : Val) (mode : ResetMode) (reserved1 : UInt8) : Builder :=
  [mask, .resetMode mode, .raw (.u8 reserved1)]

end Ublox
