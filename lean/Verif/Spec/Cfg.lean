import Verif.Spec.Wire
import Verif.Model.CfgVal

/-!
# Specification of configuration key-value pairs

The u-blox configuration interface stores an item as its 32-bit key followed by its value, both
little-endian; the width of the value is fixed by the type of the item.
-/

namespace Ublox.Spec

/-- Number of value bytes of a type. -/
def cfgWidth : CfgTy → Nat
  | .u16 => 2
  | .i16 => 2
  | .u32 => 4
  | .u64 => 8
  | _ => 1

/-- The number that encodes a value (two's complement for signed values; for the enumerations the
codes of the interface description). -/
def cfgNat : CfgValue → Nat
  | .bool b => if b then 1 else 0
  | .u8 v => v.toNat
  | .u16 v => v.toNat
  | .i16 v => (v.toInt % 65536).toNat
  | .u32 v => v.toNat
  | .u64 v => v.toNat
  | .cfgInfMask bits => bits.toNat
  | .dataBits v => match v with | .eight => 0 | .seven => 1
  | .parity v => match v with | .none => 0 | .odd => 1 | .even => 2
  | .stopBits v => match v with | .half => 0 | .one => 1 | .oneHalf => 2 | .two => 3
  | .alignment v => match v with | .utc => 0 | .gps => 1 | .glo => 2 | .bds => 3 | .gal => 4
  | .tpPulse v => match v with | .period => 0 | .freq => 1
  | .tpPulseLength v => match v with | .ratio => 0 | .length => 1

/-- The key-value pair of a configuration value. -/
def cfgKv (v : CfgVal) : Bytes :=
  natLe 4 v.item.key.toNat ++ natLe (cfgWidth v.item.ty) (cfgNat v.value)

/-- Number of value bytes announced by bits 30..28 of a key, `none` for undefined codes. -/
def keyWidth (key : Nat) : Option Nat :=
  match key / 2 ^ 28 % 8 with
  | 1 => some 1
  | 2 => some 1
  | 3 => some 2
  | 4 => some 4
  | 5 => some 8
  | _ => none

/-- `v` is a value of the Rust enum `CfgVal`: its item is in the table and its value has the type
of the item. -/
def IsCfgVal (items : List CfgItem) (v : CfgVal) : Prop := v.item ∈ items ∧ v.value.ty = v.item.ty

instance (items : List CfgItem) (v : CfgVal) : Decidable (IsCfgVal items v) :=
  inferInstanceAs (Decidable (_ ∧ _))

/-- The key-value pairs of a list of values. -/
def cfgKvs (vs : List CfgVal) : Bytes := vs.flatMap cfgKv

/-- The answers of `n` calls of a `next` function, and the state after them. -/
def iterate {σ α : Type} (next : σ → R (Option α × σ)) : Nat → σ → R (List (Option α) × σ)
  | 0, s => .ok ([], s)
  | n + 1, s => do
    let (a, s) ← next s
    let (as, s) ← iterate next n s
    return (a :: as, s)

end Ublox.Spec
