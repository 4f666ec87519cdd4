import Verif.Model.Reset
import Verif.Props.Build

/-! # C70: resetting the receiver -/

namespace Ublox.Props
open Spec Gen

/-- The start that is asked for. -/
inductive Start where
  | hot | warm | cold
  deriving DecidableEq, Repr

/-- The value of `navBbrMask` for it in the interface description. -/
def Start.code : Start → Nat
  | .hot => 0x0000
  | .warm => 0x0001
  | .cold => 0xffff

/-- The constant of the crate for it. -/
def Start.mask : Start → NavBbrPredefinedMask
  | .hot => .HOT_START
  | .warm => .WARM_START
  | .cold => .COLD_START

/-- **C70**: CFG-RST with a mask of sections is the frame with that mask, the code of the reset mode and
the reserved byte. -/
theorem c70_any_mask (b : Nat) (hb : b < 65536) (mode : ResetMode) (r : UInt8) :
    cfgRst_.intoPacketBytes (cfgRstBuilder (.flags b) mode r) =
      .ok (frame 0x06 0x04
        [UInt8.ofNat (b % 256), UInt8.ofNat (b / 256), UInt8.ofNat (resetCode mode), r]) := by
  have h := c18_any_declaration (d := cfgRst_) (by decide +kernel) (by decide +kernel)
    (by decide +kernel) (b := cfgRstBuilder (.flags b) mode r)
    (blocks := [[UInt8.ofNat (b % 256), UInt8.ofNat (b / 256)], [UInt8.ofNat (resetCode mode)], [r]])
    rfl rfl ?_
  · exact h
  · intro i f v k hf hv hk
    match i with
    | 0 =>
      simp only [cfgRst_, cfgRstBuilder, List.getElem?_cons_zero, Option.some.injEq] at hf hv hk
      subst hf hv hk
      have ht := navBbrMask_.fromBitsTruncate_eq (x := b) hb
      refine ⟨?_, rfl⟩
      simp only [FieldDesc.bytes, Conv.intoRaw, ht]
      have h16 : (UInt16.ofNat b).toNat = b := by rw [UInt16.toNat_ofNat']; omega
      simp [navBbrMask_, RawVal.ofUnsigned, RawVal.toLeBytes, Bind.bind, Except.bind, pure, Except.pure,
        u16ToLe]
      constructor <;> apply UInt8.toNat_inj.mp
      · simp
      · simp only [UInt16.toNat_toUInt8, UInt16.toNat_shiftRight, h16, UInt8.toNat_ofNat']
        simp [Nat.shiftRight_eq_div_pow]
    | 1 =>
      simp only [cfgRst_, cfgRstBuilder, List.getElem?_cons_succ, List.getElem?_cons_zero,
        Option.some.injEq] at hf hv hk
      subst hf hv hk
      cases mode <;> exact ⟨rfl, rfl⟩
    | 2 =>
      simp only [cfgRst_, cfgRstBuilder, List.getElem?_cons_succ, List.getElem?_cons_zero,
        Option.some.injEq] at hf hv hk
      subst hf hv hk
      exact ⟨rfl, rfl⟩
    | n + 3 => simp [cfgRstBuilder] at hv

/-- **C70**: the predefined masks for a hot, warm and cold start are sent as the values that the
interface description has for them, all bits for a cold start, whatever the reset mode. -/
theorem c70_start (s : Start) (mode : ResetMode) (r : UInt8) :
    cfgRst_.intoPacketBytes (cfgRstBuilder s.mask.toMask mode r) =
      .ok (frame 0x06 0x04
        [UInt8.ofNat (s.code % 256), UInt8.ofNat (s.code / 256), UInt8.ofNat (resetCode mode), r]) := by
  have h : s.mask.toMask = .flags s.code := by
    cases s <;> decide +kernel
  rw [h]
  exact c70_any_mask _ (by cases s <;> decide) mode r

/-- **C70**: a cold start clears every section that has a name, a warm start the ephemeris only, a hot
start none. -/
theorem c70_sections (s : Start) : ∃ b, s.mask.toMask = .flags b ∧
    ∀ c ∈ navBbrMask_.consts, (flagsContains b c.2 = true ↔
      s = .cold ∨ s = .warm ∧ c.1 = "EPHEMERIS") := by
  cases s
  · exact ⟨0, by decide +kernel, by decide +kernel⟩
  · exact ⟨1, by decide +kernel, by decide +kernel⟩
  · exact ⟨0xffff, by decide +kernel, by decide +kernel⟩

/-- The frame of a cold start with a controlled software reset. -/
example : cfgRst_.intoPacketBytes
    (cfgRstBuilder NavBbrPredefinedMask.COLD_START.toMask .controlledSoftwareReset 0) =
      .ok [0xb5, 0x62, 0x06, 0x04, 0x04, 0x00, 0xff, 0xff, 0x01, 0x00, 0x0d, 0x5f] := by
  rw [show NavBbrPredefinedMask.COLD_START = Start.cold.mask from rfl, c70_start]
  decide +kernel

end Ublox.Props
