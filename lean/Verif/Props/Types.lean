import Verif.Lemmas.Types
import Verif.Lemmas.Bits
import Verif.Lemmas.Raw

/-! # Properties of the field types: C26 to C31 -/

namespace Ublox.Props
open Ublox Spec

/-! ## C26: flag wrappers -/

/-- C26: `FixStatusInfo` -/
theorem c26_fixStatusInfo (x : UInt8) :
    FixStatusInfo.hasPrPrrCorrection x = bit x.toNat 0 ∧
    FixStatusInfo.mapMatching x = .ok (mapMatchingOf (field x.toNat 6 2)) := by
  revert x; decide +kernel

/-- C26: `NavSatSvFlags` -/
theorem c26_navSatSvFlags (x : UInt32) :
    NavSatSvFlags.qualityInd x = .ok (qualityOf (field x.toNat 0 3)) ∧
    NavSatSvFlags.svUsed x = bit x.toNat 3 ∧
    NavSatSvFlags.health x = healthOf (field x.toNat 4 2) ∧
    NavSatSvFlags.differentialCorrectionAvailable x = bit x.toNat 6 ∧
    NavSatSvFlags.smoothed x = bit x.toNat 7 ∧
    NavSatSvFlags.orbitSource x = orbitSourceOf (field x.toNat 8 3) ∧
    NavSatSvFlags.ephemerisAvailable x = bit x.toNat 11 ∧
    NavSatSvFlags.almanacAvailable x = bit x.toNat 12 ∧
    NavSatSvFlags.anOfflineAvailable x = bit x.toNat 13 ∧
    NavSatSvFlags.anAutoAvailable x = bit x.toNat 14 ∧
    NavSatSvFlags.sbasCorr x = bit x.toNat 16 ∧
    NavSatSvFlags.rtcmCorr x = bit x.toNat 17 ∧
    NavSatSvFlags.slasCorr x = bit x.toNat 18 ∧
    NavSatSvFlags.spartnCorr x = bit x.toNat 19 ∧
    NavSatSvFlags.prCorr x = bit x.toNat 20 ∧
    NavSatSvFlags.crCorr x = bit x.toNat 21 ∧
    NavSatSvFlags.doCorr x = bit x.toNat 22 := by
  refine ⟨?_, u32_bit x 3 (by omega), ?_, u32_bit x 6 (by omega), u32_bit x 7 (by omega), ?_,
    u32_bit x 11 (by omega), u32_bit x 12 (by omega), u32_bit x 13 (by omega),
    u32_bit x 14 (by omega), u32_bit x 16 (by omega), u32_bit x 17 (by omega),
    u32_bit x 18 (by omega), u32_bit x 19 (by omega), u32_bit x 20 (by omega),
    u32_bit x 21 (by omega), u32_bit x 22 (by omega)⟩
  · have h := u32_and x 3 (by omega)
    have hlt : field x.toNat 0 3 < 8 := Nat.mod_lt _ (by omega)
    unfold NavSatSvFlags.qualityInd
    have e : (x &&& 0x7) = UInt32.ofNat (field x.toNat 0 3) :=
      (u32_eq_iff _ _ (by omega)).mpr h
    rw [e]
    generalize field x.toNat 0 3 = n at hlt
    revert n; decide +kernel
  · have h := u32_shr_and x 4 2 (by omega) (by omega)
    have hlt : field x.toNat 4 2 < 4 := Nat.mod_lt _ (by omega)
    unfold NavSatSvFlags.health
    have e : ((x >>> 4) &&& 0x3) = UInt32.ofNat (field x.toNat 4 2) :=
      (u32_eq_iff _ _ (by omega)).mpr h
    rw [e]
    generalize field x.toNat 4 2 = n at hlt
    revert n; decide +kernel
  · have h := u32_shr_and x 8 3 (by omega) (by omega)
    have hlt : field x.toNat 8 3 < 8 := Nat.mod_lt _ (by omega)
    unfold NavSatSvFlags.orbitSource
    have e : ((x >>> 8) &&& 0x7) = UInt32.ofNat (field x.toNat 8 3) :=
      (u32_eq_iff _ _ (by omega)).mpr h
    rw [e]
    generalize field x.toNat 8 3 = n at hlt
    revert n; decide +kernel

/-- C26: `TimTpFlags` -/
theorem c26_timTpFlags (x : UInt8) :
    TimTpFlags.timeBase x = (if bit x.toNat 0 then .utc else .gnss) ∧
    TimTpFlags.utcAvailable x = bit x.toNat 1 ∧
    TimTpFlags.raimActive x = raimOf (field x.toNat 2 2) ∧
    TimTpFlags.qErrValid x = !bit x.toNat 4 := by
  revert x; decide +kernel

/-- C26: `TimTpRefInfo` -/
theorem c26_timTpRefInfo (x : UInt8) :
    TimTpRefInfo.timeRefGnss x = timeRefGnssOf (field x.toNat 0 4) ∧
    TimTpRefInfo.utcStandard x = utcStandardOf (field x.toNat 4 4) := by
  revert x; decide +kernel

/-- C26: `TimTm2Flags`.  Full claim: `time_base` returns `timTm2TimeBaseOf` of bits 4..3 for every
byte.  The code compares the masked bits without shifting them: it panics for every byte whose bits
4..3 are not zero, and this theorem says so exactly; see `c26_timTm2_timeBase_violated`. -/
theorem c26_timTm2Flags_partial (x : UInt8) :
    TimTm2Flags.mode x = (if bit x.toNat 0 then .running else .single) ∧
    TimTm2Flags.run x = (if bit x.toNat 1 then .stopped else .armed) ∧
    TimTm2Flags.newFallingEdge x = bit x.toNat 2 ∧
    TimTm2Flags.utcAvailable x = bit x.toNat 5 ∧
    TimTm2Flags.timeValid x = bit x.toNat 6 ∧
    TimTm2Flags.newRisingEdge x = bit x.toNat 7 ∧
    TimTm2Flags.timeBase x =
      (if field x.toNat 3 2 = 0 then .ok .receiver else .error .explicit) := by
  revert x; decide +kernel

/-- C26 fails for `TimTm2Flags::time_base`: a byte with time base 1 (GNSS) makes it panic. -/
theorem c26_timTm2_timeBase_violated :
    ∃ x : UInt8, timTm2TimeBaseOf (field x.toNat 3 2) = some .gnss ∧
      TimTm2Flags.timeBase x = .error .explicit :=
  ⟨0x08, by decide, by decide⟩

example : FixStatusInfo.mapMatching 0xC1 = .ok .dr := by decide
example : NavSatSvFlags.health 0x00401925 = .unhealthy := by decide

/-! ## C27: open enums -/

/-- The discriminants and names that the enums of the crate declare are distinct, and no declared
name begins with `Reserved`. -/
theorem enums_distinct : ∀ e ∈ Gen.allEnums,
    (e.variants.map (·.2)).Nodup ∧ (e.variants.map (·.1)).Nodup ∧
    ∀ v ∈ e.variants, v.1.toList.take 8 ≠ "Reserved".toList := by decide +kernel

/-- C27: for every enum declared with `rest_reserved`, `from` never panics, returns a variant of the
enum with the numeric value of the byte, reaches every variant from exactly its byte, keeps the
declared names for the declared bytes, and the variants have distinct names. -/
theorem c27_open_enums (e : EnumDesc) (he : e ∈ Gen.allEnums) (hr : e.rest = some .reserved) :
    (∀ x, ∃ v ∈ e.allVariants, e.from x = .ok v ∧ v.2 = x) ∧
    (∀ x y v, e.from x = .ok v → e.from y = .ok v → x = y) ∧
    (∀ v ∈ e.allVariants, e.from v.2 = .ok v) ∧
    (∀ v ∈ e.variants, e.from v.2 = .ok v) ∧
    (e.allVariants.map (·.1)).Nodup := by
  obtain ⟨h1, h2, h3⟩ := enums_distinct e he
  have hfrom : ∀ v ∈ e.allVariants, e.from v.2 = .ok v := by
    intro v hv
    have := EnumDesc.find?_eq_of_nodup _ (EnumDesc.nodup_discr h1) hv
    unfold EnumDesc.from EnumDesc.lookup
    rw [this]
  refine ⟨?_, ?_, hfrom, ?_, EnumDesc.nodup_names h2 h3⟩
  · intro x
    obtain ⟨v, hv⟩ := EnumDesc.lookup_total hr x
    obtain ⟨hm, hx⟩ := EnumDesc.lookup_some hv
    exact ⟨v, hm, by unfold EnumDesc.from; rw [hv], hx⟩
  · intro x y v hx hy
    unfold EnumDesc.from at hx hy
    cases hlx : e.lookup x <;> rw [hlx] at hx <;> simp at hx
    cases hly : e.lookup y <;> rw [hly] at hy <;> simp at hy
    subst hx; subst hy
    rw [← (EnumDesc.lookup_some hlx).2, ← (EnumDesc.lookup_some hly).2]
  · intro v hv
    exact hfrom v (by unfold EnumDesc.allVariants; rw [if_pos hr]; exact List.mem_append_left _ hv)

example : Gen.gpsFix_ ∈ Gen.allEnums ∧ Gen.gpsFix_.rest = some .reserved ∧
    Gen.gpsFix_.from 3 = .ok ("Fix3D", 3) ∧ Gen.gpsFix_.from 200 = .ok ("Reserved200", 200) := by
  decide +kernel

/-- Every enum with `from` is declared with `rest_reserved`, every enum with `from_unchecked` with
`rest_error`: the generated `match` of `from` is exhaustive. -/
theorem c27_from_exhaustive (e : EnumDesc) (he : e ∈ Gen.allEnums) :
    (e.fromFn = some .from → e.rest = some .reserved) ∧
    (e.fromFn = some .fromUnchecked → e.rest = some .errorProne) := by
  revert e; decide +kernel

/-! ## C28: closed enums -/

/-- C28: for every enum declared with `rest_error`: `is_valid` accepts exactly the bytes that
`from_unchecked` accepts, which are the declared ones; the variant has the numeric value of the
byte; and every variant comes back from its raw value. -/
theorem c28_closed_enums (e : EnumDesc) (he : e ∈ Gen.allEnums) (hr : e.rest = some .errorProne) :
    (∀ x, e.isValid x = true ↔ ∃ v, e.fromUnchecked x = .ok v) ∧
    (∀ x, e.isValid x = true ↔ ∃ v ∈ e.variants, v.2 = x) ∧
    (∀ x, e.isValid x = false → e.fromUnchecked x = .error .explicit) ∧
    (∀ x v, e.fromUnchecked x = .ok v → v ∈ e.variants ∧ v.2 = x) ∧
    (∀ v ∈ e.variants, e.isValid (EnumDesc.intoRawVal v) = true ∧
      e.fromUnchecked (EnumDesc.intoRawVal v) = .ok v) ∧
    (e.variants.map (·.1)).Nodup := by
  obtain ⟨h1, h2, -⟩ := enums_distinct e he
  have hv : e.allVariants = e.variants := by
    unfold EnumDesc.allVariants; rw [if_neg (by simp [hr])]
  have hval : ∀ x, e.isValid x = true ↔ ∃ v ∈ e.variants, v.2 = x := by
    intro x; unfold EnumDesc.isValid; rw [hv]; simp
  have hfrom : ∀ v ∈ e.variants, e.fromUnchecked v.2 = .ok v := by
    intro v hm
    have := EnumDesc.find?_eq_of_nodup _ h1 hm
    unfold EnumDesc.fromUnchecked EnumDesc.lookup
    rw [hv, this]
  have hsome : ∀ x v, e.fromUnchecked x = .ok v → v ∈ e.variants ∧ v.2 = x := by
    intro x v h
    unfold EnumDesc.fromUnchecked at h
    cases hl : e.lookup x <;> rw [hl] at h <;> simp at h
    subst h
    rw [← hv]; exact EnumDesc.lookup_some hl
  have hiff : ∀ x, e.isValid x = true ↔ ∃ v, e.fromUnchecked x = .ok v := by
    intro x
    rw [hval]
    constructor
    · rintro ⟨v, hm, rfl⟩; exact ⟨v, hfrom v hm⟩
    · rintro ⟨v, h⟩; exact ⟨v, hsome x v h⟩
  refine ⟨hiff, hval, ?_, hsome, ?_, h2⟩
  · intro x hx
    have hn : ¬ ∃ v, e.fromUnchecked x = .ok v := by rw [← hiff, hx]; simp
    cases hl : e.lookup x with
    | none => unfold EnumDesc.fromUnchecked; rw [hl]
    | some v => exact absurd ⟨v, by unfold EnumDesc.fromUnchecked; rw [hl]⟩ hn
  · intro v hm
    exact ⟨(hval v.2).mpr ⟨v, hm, rfl⟩, hfrom v hm⟩

example : Gen.odoProfile_ ∈ Gen.allEnums ∧ Gen.odoProfile_.rest = some .errorProne ∧
    Gen.odoProfile_.isValid 4 = true ∧ Gen.odoProfile_.isValid 5 = false := by decide +kernel

/-! ## C29: bit flags -/

/-- What the macro checks about the flag types of the crate, and the sizes and names. -/
theorem flags_table : ∀ d ∈ Gen.allFlags,
    d.accepted = true ∧ (d.nbits = 8 ∨ d.nbits = 16 ∨ d.nbits = 32) ∧
    (∀ c ∈ d.consts, c ∈ d.items) ∧ (d.consts.map (·.1)).Nodup ∧ (d.consts.map (·.2)).Nodup := by
  decide +kernel

/-- C29: for every flag type and every raw value of its width: all bits are kept by `from`, and by
`into_raw` after `from`; every declared flag is a single bit and is contained exactly if that bit is
set; distinct flags are distinct bits. -/
theorem c29_flags_keep_bits (d : FlagsDesc) (hd : d ∈ Gen.allFlags) :
    (d.nbits = 8 ∨ d.nbits = 16 ∨ d.nbits = 32) ∧
    (∀ raw, raw < 2 ^ d.nbits → d.fromBitsTruncate raw = raw) ∧
    (∀ c ∈ d.consts, ∃ k < d.nbits, c.2 = 2 ^ k ∧
      ∀ raw, raw < 2 ^ d.nbits →
        flagsContains (d.fromBitsTruncate raw) c.2 = bit raw k) ∧
    (d.consts.map (·.2)).Nodup ∧ (d.consts.map (·.1)).Nodup := by
  obtain ⟨-, hn, hc, h1, h2⟩ := flags_table d hd
  refine ⟨hn, fun raw h => d.fromBitsTruncate_eq h, ?_, h2, h1⟩
  intro c hcm
  have hi := hc c hcm
  have : c.2 ∈ d.items.map (·.2) := List.mem_map.mpr ⟨c, hi, rfl⟩
  rw [FlagsDesc.items_snd] at this
  obtain ⟨k, hk, hkc⟩ := List.mem_map.mp this
  rw [Nat.one_shiftLeft] at hkc
  refine ⟨k, List.mem_range.mp hk, hkc.symm, ?_⟩
  intro raw hraw
  rw [d.fromBitsTruncate_eq hraw, ← hkc, FlagsDesc.contains_two_pow]
  unfold bit
  rw [Nat.testBit_eq_decide_div_mod_eq]
  rfl

example : Gen.navStatusFlags_ ∈ Gen.allFlags ∧ Gen.navStatusFlags_.consts.length = 4 := by
  decide +kernel

/-! ## C30: `UartMode` -/

/-- C30: decoding a mode word depends on the three documented fields only: it succeeds exactly if
all three hold a setting that the crate knows, and then returns these settings. -/
theorem c30_uart_from (w : UInt32) :
    UartMode.from w =
      match dataBitsOf (field w.toNat 6 2), parityOf (field w.toNat 9 3),
        stopBitsOf (field w.toNat 12 2) with
      | some d, some p, some s => .ok ⟨d, p, s⟩
      | _, _, _ => .error .explicit := by
  have h1 := u32_shr_and w 6 2 (by omega) (by omega)
  have h2 := u32_shr_and w 9 3 (by omega) (by omega)
  have h3 := u32_shr_and w 12 2 (by omega) (by omega)
  have e1 : ((w >>> 6) &&& 0b11) = UInt32.ofNat (field w.toNat 6 2) :=
    (u32_eq_iff _ _ (Nat.lt_of_lt_of_le (Nat.mod_lt _ (by decide)) (by decide))).mpr h1
  have e2 : ((w >>> 9) &&& 0b111) = UInt32.ofNat (field w.toNat 9 3) :=
    (u32_eq_iff _ _ (Nat.lt_of_lt_of_le (Nat.mod_lt _ (by decide)) (by decide))).mpr h2
  have e3 : ((w >>> 12) &&& 0b11) = UInt32.ofNat (field w.toNat 12 2) :=
    (u32_eq_iff _ _ (Nat.lt_of_lt_of_le (Nat.mod_lt _ (by decide)) (by decide))).mpr h3
  have l1 : field w.toNat 6 2 < 4 := Nat.mod_lt _ (by decide)
  have l2 : field w.toNat 9 3 < 8 := Nat.mod_lt _ (by decide)
  have l3 : field w.toNat 12 2 < 4 := Nat.mod_lt _ (by decide)
  unfold UartMode.from DataBits.from Parity.from StopBits.from
  rw [e1, e2, e3]
  generalize field w.toNat 6 2 = a at l1
  generalize field w.toNat 9 3 = b at l2
  generalize field w.toNat 12 2 = c at l3
  revert a b c; decide +kernel

/-- C30: encoding puts the code of each setting into its field and nothing else into the word. -/
theorem c30_uart_into (m : UartMode) :
    m.intoRaw.toNat = dataBitsCode m.dataBits * 2 ^ 6 + parityCode m.parity * 2 ^ 9
      + stopBitsCode m.stopBits * 2 ^ 12 := by
  rcases m with ⟨d, p, s⟩
  cases d <;> cases p <;> cases s <;> rfl

/-- C30: encoding and decoding gives the same settings, whatever the unrelated bits are. -/
theorem c30_uart_roundtrip (m : UartMode) (w : UInt32)
    (h1 : field w.toNat 6 2 = field m.intoRaw.toNat 6 2)
    (h2 : field w.toNat 9 3 = field m.intoRaw.toNat 9 3)
    (h3 : field w.toNat 12 2 = field m.intoRaw.toNat 12 2) :
    UartMode.from w = .ok m := by
  rw [c30_uart_from, h1, h2, h3]
  rcases m with ⟨d, p, s⟩
  cases d <;> cases p <;> cases s <;> rfl

example : UartMode.from 0xFFFF28EF = .ok ⟨.eight, .none, .two⟩ := by decide
example : (⟨.eight, .none, .one⟩ : UartMode).intoRaw = 0x8C0 := by decide

/-! ## C31: CFG-ITFM -/

theorem itfmConfig_toNat (c : CfgItfmConfig) :
    c.intoRaw.toNat = c.bbThreshold.toNat % 2 ^ 4 + 2 ^ 4 * (c.cwThreshold.toNat % 2 ^ 5)
      + 2 ^ 9 * (c.algorithmBits.toNat % 2 ^ 22) + 2 ^ 31 * (if c.enable then 1 else 0) := by
  have e : c.intoRaw = CfgItfmBbThreshold.intoRaw c.bbThreshold
      ||| CfgItfmCwThreshold.intoRaw c.cwThreshold
      ||| CfgItfmAlgoBits.intoRaw c.algorithmBits ||| boolU32 c.enable <<< 31 := by
    exact u32_or4 _ _ _ _
  have m1 : (((1 : UInt32) <<< 4) - 1) = UInt32.ofNat (2 ^ 4 - 1) := by decide
  have m2 : (((1 : UInt32) <<< 5) - 1) = UInt32.ofNat (2 ^ 5 - 1) := by decide
  have m3 : (((1 : UInt32) <<< 22) - 1) = UInt32.ofNat (2 ^ 22 - 1) := by decide
  have f1 : field c.bbThreshold.toNat 0 4 = c.bbThreshold.toNat % 2 ^ 4 := by simp [field]
  have f2 : field c.cwThreshold.toNat 0 5 = c.cwThreshold.toNat % 2 ^ 5 := by simp [field]
  have f3 : field c.algorithmBits.toNat 0 22 = c.algorithmBits.toNat % 2 ^ 22 := by simp [field]
  have l1 : c.bbThreshold.toNat % 2 ^ 4 < 2 ^ 4 := Nat.mod_lt _ (by decide)
  have l2 : c.cwThreshold.toNat % 2 ^ 5 < 2 ^ 5 := Nat.mod_lt _ (by decide)
  have l3 : c.algorithmBits.toNat % 2 ^ 22 < 2 ^ 22 := Nat.mod_lt _ (by decide)
  have b1 : (CfgItfmBbThreshold.intoRaw c.bbThreshold).toNat = c.bbThreshold.toNat % 2 ^ 4 := by
    unfold CfgItfmBbThreshold.intoRaw
    rw [m1, UInt32.toNat_shiftLeft, u32_and _ _ (by omega), f1]
    have : (0 : UInt32).toNat % 32 = 0 := rfl
    rw [this, Nat.shiftLeft_zero]; omega
  have b2 : (CfgItfmCwThreshold.intoRaw c.cwThreshold).toNat
      = (c.cwThreshold.toNat % 2 ^ 5) <<< 4 := by
    unfold CfgItfmCwThreshold.intoRaw
    rw [m2, UInt32.toNat_shiftLeft, u32_and _ _ (by omega), f2]
    have : (4 : UInt32).toNat % 32 = 4 := rfl
    rw [this, Nat.mod_eq_of_lt]; rw [Nat.shiftLeft_eq]; omega
  have b3 : (CfgItfmAlgoBits.intoRaw c.algorithmBits).toNat
      = (c.algorithmBits.toNat % 2 ^ 22) <<< 9 := by
    unfold CfgItfmAlgoBits.intoRaw
    rw [m3, UInt32.toNat_shiftLeft, u32_and _ _ (by omega), f3]
    have : (9 : UInt32).toNat % 32 = 9 := rfl
    rw [this, Nat.mod_eq_of_lt]; rw [Nat.shiftLeft_eq]; omega
  have b4 : (boolU32 c.enable <<< 31).toNat = (if c.enable then 1 else 0) <<< 31 := by
    cases c.enable <;> rfl
  rw [e, UInt32.toNat_or, UInt32.toNat_or, UInt32.toNat_or, b1, b2, b3, b4]
  rw [or_shift _ (c.cwThreshold.toNat % 2 ^ 5) 4 (by omega),
    or_shift _ (c.algorithmBits.toNat % 2 ^ 22) 9 (by omega),
    or_shift _ (if c.enable then 1 else 0) 31 (by omega)]

/-- C31, encoding of `CfgItfmConfig`: each part is reduced to its width and placed at its documented
bits (bb 3..0, cw 8..4, algorithm 30..9, enable 31). -/
theorem c31_config_into (c : CfgItfmConfig) :
    field c.intoRaw.toNat 0 4 = c.bbThreshold.toNat % 2 ^ 4 ∧
    field c.intoRaw.toNat 4 5 = c.cwThreshold.toNat % 2 ^ 5 ∧
    field c.intoRaw.toNat 9 22 = c.algorithmBits.toNat % 2 ^ 22 ∧
    bit c.intoRaw.toNat 31 = c.enable := by
  rw [itfmConfig_toNat]
  have l1 : c.bbThreshold.toNat % 2 ^ 4 < 2 ^ 4 := Nat.mod_lt _ (by decide)
  have l2 : c.cwThreshold.toNat % 2 ^ 5 < 2 ^ 5 := Nat.mod_lt _ (by decide)
  have l3 : c.algorithmBits.toNat % 2 ^ 22 < 2 ^ 22 := Nat.mod_lt _ (by decide)
  generalize c.bbThreshold.toNat % 2 ^ 4 = a at *
  generalize c.cwThreshold.toNat % 2 ^ 5 = b at *
  generalize c.algorithmBits.toNat % 2 ^ 22 = d at *
  unfold field bit
  refine ⟨by omega, by omega, by cases c.enable <;> simp <;> omega, ?_⟩
  cases c.enable
  · simp only [Bool.false_eq_true, if_false, beq_eq_false_iff_ne, ne_eq]; omega
  · simp only [if_true, beq_iff_eq]; omega

/-- C31, configurations made with `new` or `default`: the algorithm bits have the value that the
interface description asks for, the thresholds those that were given (by default 3 and 15). -/
theorem c31_config_new (enable : Bool) (bb cw : UInt32) :
    field (CfgItfmConfig.new enable bb cw).intoRaw.toNat 9 22 = 0x16B156 ∧
    field (CfgItfmConfig.new enable bb cw).intoRaw.toNat 0 4 = bb.toNat % 2 ^ 4 ∧
    field (CfgItfmConfig.new enable bb cw).intoRaw.toNat 4 5 = cw.toNat % 2 ^ 5 ∧
    bit (CfgItfmConfig.new enable bb cw).intoRaw.toNat 31 = enable ∧
    field CfgItfmConfig.default.intoRaw.toNat 9 22 = 0x16B156 ∧
    field CfgItfmConfig.default.intoRaw.toNat 0 4 = 3 ∧
    field CfgItfmConfig.default.intoRaw.toNat 4 5 = 15 ∧
    bit CfgItfmConfig.default.intoRaw.toNat 31 = false := by
  obtain ⟨h1, h2, h3, h4⟩ := c31_config_into (CfgItfmConfig.new enable bb cw)
  exact ⟨h3.trans (by rfl), h1, h2, h4, by decide, by decide, by decide, by decide⟩

/-- The decoded enable flag is bit 31. -/
theorem itfm_enable (w : UInt32) : decide ((w &&& 0x80000000) > 0) = bit w.toNat 31 :=
  u32_mask w 31 (by omega)

/-- C31, read-modify-write of `CfgItfmConfig`.  Full claim: all four fields of the word survive.
The code survives for the enable flag and the broadband threshold only: the continuous-wave
threshold and the algorithm bits are taken from the low bits of the word
(`c31_config_violated`). -/
theorem c31_config_rmw_partial (w : UInt32) :
    bit (CfgItfmConfig.from_ w).intoRaw.toNat 31 = bit w.toNat 31 ∧
    field (CfgItfmConfig.from_ w).intoRaw.toNat 0 4 = field w.toNat 0 4 ∧
    field (CfgItfmConfig.from_ w).intoRaw.toNat 4 5 = field w.toNat 0 5 ∧
    field (CfgItfmConfig.from_ w).intoRaw.toNat 9 22 = field w.toNat 0 22 := by
  obtain ⟨h1, h2, h3, h4⟩ := c31_config_into (CfgItfmConfig.from_ w)
  refine ⟨h4.trans (itfm_enable w), h1.trans ?_, h2.trans ?_, h3.trans ?_⟩ <;>
    simp [field, CfgItfmConfig.from_]

/-- C31 fails: the default configuration (cw threshold 15, algorithm bits `0x16B156`) does not
survive decoding and encoding. -/
theorem c31_config_violated :
    ∃ w : UInt32, w = CfgItfmConfig.default.intoRaw ∧
      field w.toNat 4 5 ≠ field (CfgItfmConfig.from_ w).intoRaw.toNat 4 5 ∧
      field w.toNat 9 22 ≠ field (CfgItfmConfig.from_ w).intoRaw.toNat 9 22 :=
  ⟨_, rfl, by decide, by decide⟩

theorem itfmConfig2_toNat (c : CfgItfmConfig2) :
    c.intoRaw.toNat = (c.general.toNat % 2 ^ 12 ||| antennaCode c.antenna)
      + 2 ^ 14 * (if c.scanAuxBands then 1 else 0) := by
  have e : c.intoRaw = (CfgItfmGeneralBits.intoRaw c.general ||| c.antenna.intoRaw.toUInt32)
      ||| boolU32 c.scanAuxBands <<< 14 := by
    exact u32_or3 _ _ _
  have m1 : (((1 : UInt32) <<< 12) - 1) = UInt32.ofNat (2 ^ 12 - 1) := by decide
  have f1 : field c.general.toNat 0 12 = c.general.toNat % 2 ^ 12 := by simp [field]
  have l1 : c.general.toNat % 2 ^ 12 < 2 ^ 12 := Nat.mod_lt _ (by decide)
  have b1 : (CfgItfmGeneralBits.intoRaw c.general).toNat = c.general.toNat % 2 ^ 12 := by
    unfold CfgItfmGeneralBits.intoRaw
    rw [m1, UInt32.toNat_shiftLeft, u32_and _ _ (by omega), f1]
    have : (0 : UInt32).toNat % 32 = 0 := rfl
    rw [this, Nat.shiftLeft_zero]; omega
  have b2 : c.antenna.intoRaw.toUInt32.toNat = antennaCode c.antenna := by
    cases c.antenna <;> rfl
  have b4 : (boolU32 c.scanAuxBands <<< 14).toNat = (if c.scanAuxBands then 1 else 0) <<< 14 := by
    cases c.scanAuxBands <;> rfl
  have l2 : antennaCode c.antenna < 2 ^ 12 := by cases c.antenna <;> decide
  have l3 := Nat.or_lt_two_pow l1 l2
  rw [e, UInt32.toNat_or, UInt32.toNat_or, b1, b2, b4,
    or_shift _ (if c.scanAuxBands then 1 else 0) 14 (by omega)]

/-- C31, encoding of `CfgItfmConfig2`.  Full claim: general bits 11..0, antenna 13..12, auxiliary
bands 14.  The auxiliary band flag is placed correctly; the antenna setting is merged into the
general bits instead of bits 13..12, so the word is as documented exactly for the antenna setting
"unknown" (and for those general bits that already contain the antenna code, with bits 13..12
zero). -/
theorem c31_config2_into_partial (c : CfgItfmConfig2) :
    bit c.intoRaw.toNat 14 = c.scanAuxBands ∧
    field c.intoRaw.toNat 12 2 = 0 ∧
    field c.intoRaw.toNat 0 12 = (c.general.toNat % 2 ^ 12 ||| antennaCode c.antenna) ∧
    (c.antenna = .unknown → field c.intoRaw.toNat 0 12 = c.general.toNat % 2 ^ 12 ∧
      field c.intoRaw.toNat 12 2 = antennaCode c.antenna) := by
  rw [itfmConfig2_toNat]
  have l1 : c.general.toNat % 2 ^ 12 < 2 ^ 12 := Nat.mod_lt _ (by decide)
  have l2 : antennaCode c.antenna < 2 ^ 12 := by cases c.antenna <;> decide
  have l3 := Nat.or_lt_two_pow l1 l2
  have h0 : c.antenna = .unknown →
      (c.general.toNat % 2 ^ 12 ||| antennaCode c.antenna) = c.general.toNat % 2 ^ 12 := by
    intro h; rw [h]; simp [antennaCode]
  have h1 : c.antenna = .unknown → antennaCode c.antenna = 0 := by intro h; rw [h]; rfl
  generalize c.general.toNat % 2 ^ 12 = g at *
  generalize (g ||| antennaCode c.antenna) = a at *
  unfold field bit
  refine ⟨?_, ?_, ?_, fun h => ⟨?_, ?_⟩⟩
  · cases c.scanAuxBands
    · simp only [Bool.false_eq_true, if_false, beq_eq_false_iff_ne, ne_eq]; omega
    · simp only [if_true, beq_iff_eq]; omega
  · cases c.scanAuxBands <;> simp <;> omega
  · cases c.scanAuxBands <;> simp <;> omega
  · have := h0 h
    cases c.scanAuxBands <;> simp <;> omega
  · rw [h1 h]
    cases c.scanAuxBands <;> simp <;> omega

/-- C31, second words made with `new`: general bits `0x31E` (for an unknown antenna; an active or passive
antenna is merged into them, see `c31_config2_violated`) and the auxiliary band flag. -/
theorem c31_config2_new_partial (scan : Bool) :
    field (CfgItfmConfig2.new .unknown scan).intoRaw.toNat 0 12 = 0x31E ∧
    field (CfgItfmConfig2.new .unknown scan).intoRaw.toNat 12 2 = 0 ∧
    bit (CfgItfmConfig2.new .unknown scan).intoRaw.toNat 14 = scan := by
  cases scan <;> decide

/-- C31, decoding of `CfgItfmConfig2`: antenna setting and auxiliary band flag are read from their
documented bits. -/
theorem c31_config2_from (w : UInt32) :
    (CfgItfmConfig2.from_ w).scanAuxBands = bit w.toNat 14 ∧
    (CfgItfmConfig2.from_ w).general.toNat % 2 ^ 12 = field w.toNat 0 12 ∧
    (field w.toNat 12 2 ≤ 2 →
      antennaCode (CfgItfmConfig2.from_ w).antenna = field w.toNat 12 2) ∧
    (field w.toNat 12 2 = 3 → (CfgItfmConfig2.from_ w).antenna = .unknown) := by
  refine ⟨?_, by simp [field, CfgItfmConfig2.from_], ?_⟩
  · exact u32_mask w 14 (by omega)
  · have e : ((w &&& 0x3000) >>> 12) = UInt32.ofNat (field w.toNat 12 2) := by
      refine (u32_eq_iff _ _ (Nat.lt_of_lt_of_le (Nat.mod_lt _ (by decide)) (by decide))).mpr ?_
      show _ = field w.toNat 12 2
      rw [← u32_shr_and w 12 2 (by omega) (by omega)]
      rw [UInt32.toNat_shiftRight, UInt32.toNat_and, UInt32.toNat_and, UInt32.toNat_shiftRight]
      have e1 : (12 : UInt32).toNat % 32 = 12 := rfl
      have e2 : (UInt32.ofNat 12).toNat % 32 = 12 := rfl
      rw [e1, e2, Nat.shiftRight_and_distrib]
      rfl
    have l : field w.toNat 12 2 < 4 := Nat.mod_lt _ (by decide)
    unfold CfgItfmConfig2.from_ CfgItfmAntennaSettings.from_
    simp only [e]
    generalize field w.toNat 12 2 = n at l
    revert n; decide +kernel

/-- C31 fails: an active antenna is not encoded in bits 13..12 but changes the general bits. -/
theorem c31_config2_violated :
    ∃ c : CfgItfmConfig2, c.antenna = .active ∧
      field c.intoRaw.toNat 12 2 ≠ antennaCode c.antenna ∧
      field c.intoRaw.toNat 0 12 ≠ c.general.toNat % 2 ^ 12 ∧
      (CfgItfmConfig2.from_ c.intoRaw).antenna ≠ c.antenna :=
  ⟨CfgItfmConfig2.new .active true, by decide, by decide, by decide, by decide⟩

example : CfgItfmConfig.default.intoRaw = 0x2D62ACF3 := by decide

end Ublox.Props
