import Verif.Spec.Exec

/-!
# Configuration values as values of the language
-/

namespace Ublox.Spec

open Exec

/-- The values of `ublox/src/ubx_packets/cfg_val.rs:212-301`, by their types -/
def cfgValueV : CfgValue → W
  | .bool b => .bool b
  | .u8 v => .u8 v
  | .u16 v => .u16 v
  | .i16 v => .i16 v
  | .u32 v => .u32 v
  | .u64 v => .u64 v
  | .cfgInfMask bits => .flags i!"CfgInfMask" bits.toNat
  | .dataBits v => dataBitsV v
  | .parity v => parityV v
  | .stopBits v => stopBitsV v
  | .alignment v => alignmentV v
  | .tpPulse .period => varV i!"TpPulse" i!"Period"
  | .tpPulse .freq => varV i!"TpPulse" i!"Freq"
  | .tpPulseLength .ratio => varV i!"TpPulseLength" i!"Ratio"
  | .tpPulseLength .length => varV i!"TpPulseLength" i!"Length"

/-- The identifier of an item -/
def itemName (i : CfgItem) : Code.Name := Code.name (Src.codes i.name)

/-- `Abc(v)`, the structure of an item -/
def cfgItemV (v : CfgVal) : W := wrapV (itemName v.item) (cfgValueV v.value)

/-- `CfgVal::Abc(v)` -/
def cfgValV (v : CfgVal) : W := .adt [i!"CfgVal", itemName v.item] [cfgValueV v.value]

end Ublox.Spec
