import Verif.Props.Reading
import Verif.Props.Build
import Verif.Lemmas.Time

/-!
# C48: the setters of AID-INI

The interface description of the receiver defines the message: the date is sent as `YYMM` (year since
2000, month 1 to 12), the time as `DDHHMMSS`, the position as latitude and longitude in 1e-7 degrees
and altitude in centimetres; bit 0 of `flags` says that the position is valid, bit 5 that it is
latitude, longitude and altitude, bit 1 that the time is valid and bit 10 that it is UTC.
-/

namespace Ublox.Props

open Spec Gen

/-- A date and time that `chrono::DateTime<Utc>` can hold; the nanoseconds of a leap second go
beyond 10^9. -/
def ChronoDateTime (t : DateTime) : Prop :=
  RealDate t.year t.month t.day ∧ t.hour < 24 ∧ t.nanosecond < 2000000000 ∧
    NaiveDate.minYear ≤ t.year ∧ t.year ≤ NaiveDate.maxYear

/-- `t` is `w` truncated toward zero. -/
def TruncatedTo (w : Rat) (t : Int) : Prop :=
  (0 ≤ w → (t : Rat) ≤ w ∧ w < t + 1) ∧ (w < 0 → (t : Rat) - 1 < w ∧ w ≤ t)

/-- What is stored for the finite float `q`, given in units of `1 / k`: a number that is `q * k` up to
the rounding of one product, truncated toward zero and saturated. -/
def StoredAs (k q : Rat) (m : Int32) : Prop :=
  ∃ (w : Rat) (t : Int), |w - q * k| ≤ |q * k| / 2 ^ 53 + 1 / 2 ^ 200 ∧ TruncatedTo w t ∧
    m.toInt = clamp (-2147483648) 2147483647 t

theorem truncRat_spec (w : Rat) : TruncatedTo w (Fl.truncRat w) := by
  unfold Fl.truncRat
  constructor
  · intro h
    rw [if_pos h]
    have h2 := Rat.lt_floor_add_one w
    push_cast at h2
    exact ⟨Rat.floor_le w, h2⟩
  · intro h
    rw [if_neg (not_le.mpr h)]
    have h1 := Rat.floor_le (-w)
    have h2 := Rat.lt_floor_add_one (-w)
    push_cast at h2 ⊢
    constructor <;> linarith

theorem asI32_toInt (x : Fl) :
    (AidIniBuilder.asI32 x).toInt = x.asInt (-2147483648) 2147483647 := by
  unfold AidIniBuilder.asI32
  refine int32_toInt_ofInt ?_ ?_
  all_goals
    unfold Fl.asInt
    split <;> omega

theorem storedAs_mul {k : Rat} (hk : Fl.lit fmt64 k = .fin k) {x : Fl} {q : Rat}
    (hx : x.val? = some q) : StoredAs k q (AidIniBuilder.asI32 (Fl.mul fmt64 x (Fl.lit fmt64 k))) := by
  have htiny := tiny64
  have herr := round_err_any fmt64 (q * k)
  rw [u64] at herr
  rw [hk]
  rcases Fl.mul_cases fmt64 (b := k) hx with ⟨h1, h2⟩ | ⟨h1, h2⟩
  · have h3 : (2 : Rat) ^ (128 : Int) ≤ 2 ^ fmt64.emax := zpow_le_zpow_right₀ (by norm_num) (by decide)
    have h3' : (2 : Rat) ^ (128 : Int) = 2 ^ 128 := by norm_num
    have h4 : |fmt64.round (q * k)| ≤ |fmt64.round (q * k) - q * k| + |q * k| := by
      have := abs_add_le (fmt64.round (q * k) - q * k) (q * k)
      simpa using this
    have h5 : (1 : Rat) / 2 ^ 200 ≤ 1 := by norm_num
    have h6 : (2 : Rat) ^ 100 ≤ |q * k| := by
      have e : (2 : Rat) ^ 100 * 4 + 1 ≤ 2 ^ 128 := by norm_num
      have hq0 := abs_nonneg (q * k)
      linarith
    have h7 : |fmt64.round (q * k) - q * k| < |q * k| := by
      have e : (1 : Rat) < 2 ^ 90 := by norm_num
      linarith
    obtain ⟨h8, h9⟩ := abs_lt.mp h7
    have hsp := truncRat_spec (q * k)
    refine ⟨q * k, Fl.truncRat (q * k), by rw [sub_self, abs_zero]; positivity, hsp, ?_⟩
    rw [asI32_toInt, h2]
    have hbig : ((2147483648 : Int) : Rat) + 1 < 2 ^ 100 := by norm_num
    rcases lt_or_ge (q * k) 0 with hneg | hpos
    · rw [abs_of_neg hneg] at h6 h8 h9
      have hr : fmt64.round (q * k) < 0 := by linarith
      rw [decide_eq_true hr]
      have h10 := (hsp.2 hneg).1
      have h11 : Fl.truncRat (q * k) ≤ -2147483648 := by
        have : ((Fl.truncRat (q * k) : Int) : Rat) < ((-2147483648 : Int) : Rat) := by
          push_cast at hbig ⊢; linarith
        exact le_of_lt (by exact_mod_cast this)
      show (-2147483648 : Int) = _
      unfold clamp
      omega
    · rw [abs_of_nonneg hpos] at h6 h8 h9
      have hr : ¬ fmt64.round (q * k) < 0 := by linarith
      rw [decide_eq_false hr]
      have h10 := (hsp.1 hpos).2
      have h11 : 2147483647 ≤ Fl.truncRat (q * k) := by
        have : ((2147483647 : Int) : Rat) < ((Fl.truncRat (q * k) : Int) : Rat) := by
          push_cast at hbig ⊢; linarith
        exact le_of_lt (by exact_mod_cast this)
      show (2147483647 : Int) = _
      unfold clamp
      omega
  · refine ⟨fmt64.round (q * k), Fl.truncRat (fmt64.round (q * k)), ?_, truncRat_spec _, ?_⟩
    · rw [div_eq_mul_one_div]
      linarith
    · rw [asI32_toInt]
      revert h2
      generalize Fl.mul fmt64 x (.fin k) = y
      generalize fmt64.round (q * k) = w
      intro h2
      cases y with
      | nan s => simp [Fl.val?] at h2
      | inf s => simp [Fl.val?] at h2
      | negZero =>
        simp only [Fl.val?, Option.some.injEq] at h2
        subst h2
        decide +kernel
      | fin z =>
        simp only [Fl.val?, Option.some.injEq] at h2
        subst h2
        rfl

theorem lit_ten7 : Fl.lit fmt64 10000000 = .fin 10000000 := by decide +kernel
theorem lit_hundred : Fl.lit fmt64 100 = .fin 100 := by decide +kernel

/-- What `as i32` makes of something that is not a finite number. -/
def StoredSpecial : Fl → Int32 → Prop
  | .nan _, m => m.toInt = 0
  | .inf neg, m => m.toInt = if neg then -2147483648 else 2147483647
  | _, _ => True

/-- What is stored for any `f64`. -/
def Stored (k : Rat) (x : Fl) (m : Int32) : Prop :=
  StoredSpecial x m ∧ ∀ q, x.val? = some q → StoredAs k q m

theorem stored_mul {k : Rat} (hk : Fl.lit fmt64 k = .fin k) (hk0 : 0 < k) (x : Fl) :
    Stored k x (AidIniBuilder.asI32 (Fl.mul fmt64 x (Fl.lit fmt64 k))) := by
  refine ⟨?_, fun q hq => storedAs_mul hk hq⟩
  cases x with
  | nan s => rw [hk]; show Int32.toInt _ = _; rw [asI32_toInt]; rfl
  | inf s =>
    rw [hk]
    show Int32.toInt _ = _
    rw [asI32_toInt]
    have h0 : ¬ (some k = some (0 : Rat)) := by simpa using hk0.ne'
    have h1 : ¬ k < 0 := not_lt.mpr hk0.le
    simp only [Fl.mul, Fl.val?, Fl.signNeg, if_neg h0, decide_eq_false h1, Bool.xor_false]
    cases s <;> rfl
  | negZero => trivial
  | fin q => trivial

/-- **C48** `set_position` stores latitude and longitude in 1e-7 degrees and the altitude in
centimetres, truncated toward zero and saturated, sets bits 0 and 5 of the flags and changes nothing
else. -/
theorem c48_set_position (b : AidIniBuilder) (pos : Position) :
    let b' := b.setPosition pos
    Stored 10000000 pos.lat b'.ecefXOrLat ∧ Stored 10000000 pos.lon b'.ecefYOrLon ∧
    Stored 100 pos.alt b'.ecefZOrAlt ∧
    (∀ i, b'.flags.toNat.testBit i = (b.flags.toNat.testBit i || decide (i = 0 ∨ i = 5))) ∧
    b' = { b with ecefXOrLat := b'.ecefXOrLat, ecefYOrLon := b'.ecefYOrLon,
                  ecefZOrAlt := b'.ecefZOrAlt, flags := b'.flags } := by
  refine ⟨stored_mul lit_ten7 (by norm_num) _, stored_mul lit_ten7 (by norm_num) _,
    stored_mul lit_hundred (by norm_num) _, fun i => ?_, rfl⟩
  show (b.flags ||| _).toNat.testBit i = _
  rw [UInt32.toNat_or, Nat.testBit_or]
  congr 1
  show Nat.testBit 33 i = _
  by_cases h : i < 6
  · exact (by decide : ∀ i < 6, Nat.testBit 33 i = decide (i = 0 ∨ i = 5)) i h
  · rw [Nat.testBit_lt_two_pow (lt_of_lt_of_le (by norm_num : 33 < 2 ^ 6)
      (Nat.pow_le_pow_right (by norm_num) (by omega)))]
    rw [decide_eq_false (by omega)]

/-- 1.5 cm below zero is stored as -1 cm, 300 degrees (beyond the range) saturate. -/
example : (AidIniBuilder.asI32 (Fl.mul fmt64 (.fin (-3/200)) (Fl.lit fmt64 100))).toInt = -1 ∧
    (AidIniBuilder.asI32 (Fl.mul fmt64 (.fin 300) (Fl.lit fmt64 10000000))).toInt = 2147483647 := by
  decide +kernel

/-! ## Time -/

theorem chrono_month {t : DateTime} (h : ChronoDateTime t) : 1 ≤ t.month ∧ t.month ≤ 12 := by
  obtain ⟨h1, len, h2, -⟩ := h.1
  refine ⟨h1, ?_⟩
  have := (List.getElem?_eq_some_iff.mp h2).1
  simp [monthLengths] at this
  omega

/-- What `set_time` returns. -/
theorem setTime_eq (b : AidIniBuilder) {t : DateTime} (h : ChronoDateTime t) (hy : 2000 ≤ t.year) :
    b.setTime t = .ok { b with
      weekOrYm := UInt16.ofNat ((t.year.toNat - 2000) * 100 + (t.month - 1))
      towOrHms := UInt32.ofNat (t.hour * 10000 + t.minute * 100 + t.second)
      towNs := Int32.ofNat t.nanosecond
      flags := b.flags ||| (((1 : UInt32) <<< 1) ||| ((1 : UInt32) <<< 10)) } := by
  obtain ⟨m1, m2⟩ := chrono_month h
  obtain ⟨-, hh, hn, -, hmax⟩ := h
  unfold NaiveDate.maxYear at hmax
  have e1 : t.yearCe = (true, t.year.toNat) := by
    unfold DateTime.yearCe
    rw [if_pos (by omega)]
  have hmin : t.minute < 60 := by unfold DateTime.minute; omega
  have hsec : t.second < 60 := by unfold DateTime.second; omega
  unfold AidIniBuilder.setTime
  rw [e1]
  simp only
  have e2 : usub t.year.toNat 2000 = .ok (t.year.toNat - 2000) := by
    unfold usub; rw [if_pos (by omega)]
  have e3 : AidIniBuilder.umul AidIniBuilder.u32Max (t.year.toNat - 2000) 100 =
      .ok ((t.year.toNat - 2000) * 100) := by
    unfold AidIniBuilder.umul AidIniBuilder.u32Max; rw [if_pos (by omega)]
  have e4 : uadd AidIniBuilder.u32Max ((t.year.toNat - 2000) * 100) t.month0 =
      .ok ((t.year.toNat - 2000) * 100 + (t.month - 1)) := by
    have : t.month0 = t.month - 1 := rfl
    rw [this]
    unfold uadd AidIniBuilder.u32Max; rw [if_pos (by omega)]
  have e5 : AidIniBuilder.umul AidIniBuilder.u32Max t.hour 10000 = .ok (t.hour * 10000) := by
    unfold AidIniBuilder.umul AidIniBuilder.u32Max; rw [if_pos (by omega)]
  have e6 : AidIniBuilder.umul AidIniBuilder.u32Max t.minute 100 = .ok (t.minute * 100) := by
    unfold AidIniBuilder.umul AidIniBuilder.u32Max; rw [if_pos (by omega)]
  have e7 : uadd AidIniBuilder.u32Max (t.hour * 10000) (t.minute * 100) =
      .ok (t.hour * 10000 + t.minute * 100) := by
    unfold uadd AidIniBuilder.u32Max; rw [if_pos (by omega)]
  have e8 : uadd AidIniBuilder.u32Max (t.hour * 10000 + t.minute * 100) t.second =
      .ok (t.hour * 10000 + t.minute * 100 + t.second) := by
    unfold uadd AidIniBuilder.u32Max; rw [if_pos (by omega)]
  simp only [e2, e3, e4, e5, e6, e7, e8, Except.ok_bind]
  rfl

/-- The year and the month as `YYMM`. -/
def yymm (t : DateTime) : Int := 100 * (t.year - 2000) + t.month
/-- The day and the time of day as `DDHHMMSS`. -/
def ddhhmmss (t : DateTime) : Nat := 1000000 * t.day + 10000 * t.hour + 100 * t.minute + t.second

/-- **C48** (partial) `set_time` does not panic for the years from 2000 on, sets the nanoseconds and
bits 1 and 10 of the flags and changes nothing else but the date and the time of day.  In the place of
`YYMM` it stores a number that is one too small (modulo 2^16), in the place of `DDHHMMSS` only
`HHMMSS`; see `c48_date_wrong` and `c48_day_wrong`. -/
theorem c48_set_time_partial (b : AidIniBuilder) {t : DateTime} (h : ChronoDateTime t)
    (hy : 2000 ≤ t.year) :
    ∃ b', b.setTime t = .ok b' ∧ b'.towNs.toInt = t.nanosecond ∧
      (b'.weekOrYm.toNat : Int) = (yymm t - 1) % 65536 ∧
      b'.towOrHms.toNat + 1000000 * t.day = ddhhmmss t ∧
      (∀ i, b'.flags.toNat.testBit i = (b.flags.toNat.testBit i || decide (i = 1 ∨ i = 10))) ∧
      b' = { b with weekOrYm := b'.weekOrYm, towOrHms := b'.towOrHms, towNs := b'.towNs,
                    flags := b'.flags } := by
  obtain ⟨m1, m2⟩ := chrono_month h
  refine ⟨_, setTime_eq b h hy, ?_, ?_, ?_, fun i => ?_, rfl⟩
  · have := h.2.2.1
    show (Int32.ofNat t.nanosecond).toInt = _
    exact int32_toInt_ofInt (m := t.nanosecond) (by omega) (by omega)
  · show ((UInt16.ofNat _).toNat : Int) = _
    unfold yymm
    rw [UInt16.toNat_ofNat']
    omega
  · have hh := h.2.1
    have hmin : t.minute < 60 := by unfold DateTime.minute; omega
    have hsec : t.second < 60 := by unfold DateTime.second; omega
    show (UInt32.ofNat _).toNat + _ = _
    unfold ddhhmmss
    have hlt : t.hour * 10000 + t.minute * 100 + t.second < 4294967296 := by omega
    rw [UInt32.toNat_ofNat', Nat.mod_eq_of_lt hlt]
    omega
  · show (b.flags ||| _).toNat.testBit i = _
    rw [UInt32.toNat_or, Nat.testBit_or]
    congr 1
    show Nat.testBit 1026 i = _
    by_cases h : i < 11
    · exact (by decide : ∀ i < 11, Nat.testBit 1026 i = decide (i = 1 ∨ i = 10)) i h
    · rw [Nat.testBit_lt_two_pow (lt_of_lt_of_le (by norm_num : 1026 < 2 ^ 11)
        (Nat.pow_le_pow_right (by norm_num) (by omega)))]
      rw [decide_eq_false (by omega)]

/-- 16 November 2026, 11:22:33.5 -/
example : ChronoDateTime ⟨⟨2026, 11, 16⟩, ⟨40953, 500000000⟩⟩ :=
  ⟨⟨by decide, 30, by decide, by decide, by decide⟩, by decide, by decide, by decide, by decide⟩

/-- **C48** is false: the stored date is never the year and month of the time. -/
theorem c48_date_wrong (b : AidIniBuilder) {t : DateTime} (h : ChronoDateTime t)
    (hy : 2000 ≤ t.year) :
    ∃ b', b.setTime t = .ok b' ∧ (b'.weekOrYm.toNat : Int) ≠ yymm t := by
  obtain ⟨b', h1, -, h2, -⟩ := c48_set_time_partial b h hy
  exact ⟨b', h1, by omega⟩

/-- **C48** is false: the stored time of day is never the day and time. -/
theorem c48_day_wrong (b : AidIniBuilder) {t : DateTime} (h : ChronoDateTime t)
    (hy : 2000 ≤ t.year) :
    ∃ b', b.setTime t = .ok b' ∧ b'.towOrHms.toNat ≠ ddhhmmss t := by
  obtain ⟨b', h1, -, -, h2, -⟩ := c48_set_time_partial b h hy
  obtain ⟨-, len, -, h3, -⟩ := h.1
  exact ⟨b', h1, by omega⟩

/-- **C48** Years before 2000: `set_time` panics. -/
theorem c48_before_2000 (b : AidIniBuilder) {t : DateTime} (hy : t.year < 2000) :
    b.setTime t = .error .underflow ∨ b.setTime t = .error .explicit := by
  unfold AidIniBuilder.setTime DateTime.yearCe
  by_cases h : 1 ≤ t.year
  · left
    rw [if_pos h]
    simp only
    have : usub t.year.toNat 2000 = .error .underflow := by
      unfold usub; rw [if_neg (by omega)]
    rw [this]
    rfl
  · right
    rw [if_neg h]
    rfl

example : (⟨⟨1999, 12, 31⟩, ⟨0, 0⟩⟩ : DateTime).year < 2000 := by decide

/-! ## The message -/

/-- **C48** The message built from the builder has the 48 bytes of its fields as payload, in the
order of the declaration. -/
theorem c48_message (b : AidIniBuilder) :
    ∃ p, aidIni_.intoPacketBytes b.toBuilder = .ok (frame 0x0b 0x01 p) ∧ p.length = 48 ∧
      i32At p 0 = b.ecefXOrLat.toInt ∧ i32At p 4 = b.ecefYOrLon.toInt ∧
      i32At p 8 = b.ecefZOrAlt.toInt ∧ u32At p 12 = b.posAccuracy.toNat ∧
      leNat ((p.drop 16).take 2) = b.timeCfg.toNat ∧ leNat ((p.drop 18).take 2) = b.weekOrYm.toNat ∧
      u32At p 20 = b.towOrHms.toNat ∧ i32At p 24 = b.towNs.toInt ∧
      u32At p 28 = b.tmAccuracyMs.toNat ∧ u32At p 32 = b.tmAccuracyNs.toNat ∧
      i32At p 36 = b.clkDriftOrFreq.toInt ∧ u32At p 40 = b.clkDriftOrFreqAccuracy.toNat ∧
      u32At p 44 = b.flags.toNat := by
  have hi : ∀ x : Int32, signedOf 32 (leNat (u32ToLe x.toUInt32)) = x.toInt := fun x =>
    (RawVal.denotes_toLeBytes (.i32 x)).2.symm
  have hu : ∀ x : UInt32, leNat (u32ToLe x) = x.toNat := fun x =>
    (RawVal.denotes_toLeBytes (.u32 x)).2.symm
  have hs : ∀ x : UInt16, leNat (u16ToLe x) = x.toNat := fun x =>
    (RawVal.denotes_toLeBytes (.u16 x)).2.symm
  have hbuild := c18_any_declaration (d := aidIni_) (b := b.toBuilder)
    (blocks := [u32ToLe b.ecefXOrLat.toUInt32, u32ToLe b.ecefYOrLon.toUInt32,
      u32ToLe b.ecefZOrAlt.toUInt32, u32ToLe b.posAccuracy, u16ToLe b.timeCfg, u16ToLe b.weekOrYm,
      u32ToLe b.towOrHms, u32ToLe b.towNs.toUInt32, u32ToLe b.tmAccuracyMs, u32ToLe b.tmAccuracyNs,
      u32ToLe b.clkDriftOrFreq.toUInt32, u32ToLe b.clkDriftOrFreqAccuracy, u32ToLe b.flags])
    (by decide) (by decide +kernel) (by decide +kernel) rfl rfl
    (by
      intro i f v k hf hv hk
      match i with
      | 0 => cases hf; cases hv; cases hk; exact ⟨rfl, rfl⟩
      | 1 => cases hf; cases hv; cases hk; exact ⟨rfl, rfl⟩
      | 2 => cases hf; cases hv; cases hk; exact ⟨rfl, rfl⟩
      | 3 => cases hf; cases hv; cases hk; exact ⟨rfl, rfl⟩
      | 4 => cases hf; cases hv; cases hk; exact ⟨rfl, rfl⟩
      | 5 => cases hf; cases hv; cases hk; exact ⟨rfl, rfl⟩
      | 6 => cases hf; cases hv; cases hk; exact ⟨rfl, rfl⟩
      | 7 => cases hf; cases hv; cases hk; exact ⟨rfl, rfl⟩
      | 8 => cases hf; cases hv; cases hk; exact ⟨rfl, rfl⟩
      | 9 => cases hf; cases hv; cases hk; exact ⟨rfl, rfl⟩
      | 10 => cases hf; cases hv; cases hk; exact ⟨rfl, rfl⟩
      | 11 => cases hf; cases hv; cases hk; exact ⟨rfl, rfl⟩
      | 12 => cases hf; cases hv; cases hk; exact ⟨rfl, rfl⟩
      | n + 13 => cases hf)
  refine ⟨_, hbuild, rfl, ?_, ?_, ?_, ?_, hs _, hs _, ?_, ?_, ?_, ?_, ?_, ?_, ?_⟩
  · exact congrArg Int.cast (hi b.ecefXOrLat)
  · exact congrArg Int.cast (hi b.ecefYOrLon)
  · exact congrArg Int.cast (hi b.ecefZOrAlt)
  · exact congrArg Nat.cast (hu b.posAccuracy)
  · exact congrArg Nat.cast (hu b.towOrHms)
  · exact congrArg Int.cast (hi b.towNs)
  · exact congrArg Nat.cast (hu b.tmAccuracyMs)
  · exact congrArg Nat.cast (hu b.tmAccuracyNs)
  · exact congrArg Int.cast (hi b.clkDriftOrFreq)
  · exact congrArg Nat.cast (hu b.clkDriftOrFreqAccuracy)
  · exact congrArg Nat.cast (hu b.flags)

/-! ## C51: handing a received position back to the receiver -/

theorem handed_back {x : Fl} {n : Int} (h : ApproxRel x ((n : Rat) / 10000000))
    (h0 : -2147483648 ≤ n) (h1 : n ≤ 2147483647) :
    let m := (AidIniBuilder.asI32 (Fl.mul fmt64 x (Fl.lit fmt64 10000000))).toInt
    m = n ∨ (0 < n ∧ m = n - 1) ∨ (n < 0 ∧ m = n + 1) := by
  obtain ⟨q, hq, hqe⟩ := h
  obtain ⟨w, t, hw, ht, hm⟩ := storedAs_mul lit_ten7 hq
  intro m
  have hm' : m = clamp (-2147483648) 2147483647 t := hm
  have hn : |(n : Rat)| ≤ 2147483648 := by
    rw [abs_le]
    have a1 : ((-2147483648 : Int) : Rat) ≤ n := by exact_mod_cast h0
    have a2 : (n : Rat) ≤ ((2147483647 : Int) : Rat) := by exact_mod_cast h1
    push_cast at a1 a2
    constructor <;> linarith
  rw [abs_div, abs_of_pos (by norm_num : (0 : Rat) < 10000000)] at hqe
  have e1 : |q * 10000000 - n| ≤ |(n : Rat)| / 2 ^ 51 := by
    have e : q * 10000000 - n = (q - n / 10000000) * 10000000 := by ring
    rw [e, abs_mul, abs_of_pos (by norm_num : (0 : Rat) < 10000000)]
    calc _ ≤ |(n : Rat)| / 10000000 / 2 ^ 51 * 10000000 := mul_le_mul_of_nonneg_right hqe (by norm_num)
      _ = _ := by ring
  have e2 : |q * 10000000| ≤ 2 ^ 33 := by
    have := abs_add_le (q * 10000000 - n) n
    rw [sub_add_cancel] at this
    linarith
  have e3 : |w - n| < 1 / 4 := by
    have := abs_add_le (w - q * 10000000) (q * 10000000 - n)
    rw [sub_add_sub_cancel] at this
    have e4 : (1 : Rat) / 2 ^ 200 ≤ 1 / 16 := by norm_num
    linarith
  obtain ⟨e5, e6⟩ := abs_lt.mp e3
  have key : t = n ∨ (0 < n ∧ t = n - 1) ∨ (n < 0 ∧ t = n + 1) := by
    rcases le_or_gt 0 w with hw0 | hw0
    · obtain ⟨t1, t2⟩ := ht.1 hw0
      have a1 : (t : Rat) < ((n + 1 : Int) : Rat) := by push_cast; linarith
      have a2 : ((n - 2 : Int) : Rat) < t := by push_cast; linarith
      have a3 : ((-1 : Int) : Rat) < n := by push_cast; linarith
      have a4 : ((-1 : Int) : Rat) < t := by push_cast; linarith
      have b1 : t < n + 1 := by exact_mod_cast a1
      have b2 : n - 2 < t := by exact_mod_cast a2
      have b3 : -1 < n := by exact_mod_cast a3
      have b4 : -1 < t := by exact_mod_cast a4
      omega
    · obtain ⟨t1, t2⟩ := ht.2 hw0
      have a1 : (t : Rat) < ((n + 2 : Int) : Rat) := by push_cast; linarith
      have a2 : ((n - 1 : Int) : Rat) < t := by push_cast; linarith
      have a3 : (n : Rat) < ((1 : Int) : Rat) := by push_cast; linarith
      have a4 : (t : Rat) < ((1 : Int) : Rat) := by push_cast; linarith
      have b1 : t < n + 2 := by exact_mod_cast a1
      have b2 : n - 1 < t := by exact_mod_cast a2
      have b3 : n < 1 := by exact_mod_cast a3
      have b4 : t < 1 := by exact_mod_cast a4
      omega
  unfold clamp at hm'
  omega

theorem i32_range (p : Bytes) (o : Nat) :
    -2147483648 ≤ signedOf 32 (leNat ((p.drop o).take 4)) ∧
      signedOf 32 (leNat ((p.drop o).take 4)) ≤ 2147483647 := by
  have h1 := leNat_lt ((p.drop o).take 4)
  have h2 : 256 ^ ((p.drop o).take 4).length ≤ 256 ^ 4 := by
    refine Nat.pow_le_pow_right (by norm_num) ?_
    rw [List.length_take]; omega
  unfold signedOf
  split <;> omega

/-- The stored integer is the received one or its neighbour in the direction of zero. -/
def AlmostBack (m : Int32) (n : Rat) : Prop :=
  (m.toInt : Rat) = n ∨ (0 < n ∧ (m.toInt : Rat) = n - 1) ∨ (n < 0 ∧ (m.toInt : Rat) = n + 1)

theorem almostBack {x : Fl} {p : Bytes} {o : Nat} (h : ApproxRel x (i32At p o / 10000000)) :
    AlmostBack (AidIniBuilder.asI32 (Fl.mul fmt64 x (Fl.lit fmt64 10000000))) (i32At p o) := by
  obtain ⟨h0, h1⟩ := i32_range p o
  have := handed_back h h0 h1
  simp only at this
  unfold AlmostBack i32At
  rcases this with h | ⟨h, h'⟩ | ⟨h, h'⟩
  · left; exact_mod_cast h
  · right; left
    refine ⟨by exact_mod_cast h, ?_⟩
    rw [h']; push_cast; rfl
  · right; right
    refine ⟨by exact_mod_cast h, ?_⟩
    rw [h']; push_cast; rfl

/-- **C51** (partial) The position of a NAV-POSLLH packet handed to `set_position`: the message
contains the received latitude and longitude or the next integer toward zero.  It should contain the
received ones, see `c51_lost_unit`. -/
theorem c51_navPosLlh_partial {cls id : UInt8} {payload p : Bytes} (b : AidIniBuilder)
    (h : matchPacket cls id payload = .ok (.ok (.known navPosLlh_ p))) :
    ∃ pos, positionFromNavPosLlh p = .ok pos ∧
      AlmostBack (b.setPosition pos).ecefXOrLat (i32At p 8) ∧
      AlmostBack (b.setPosition pos).ecefYOrLon (i32At p 4) := by
  obtain ⟨pos, h1, h2, h3, -⟩ := c44_navPosLlh h
  exact ⟨pos, h1, almostBack h3, almostBack h2⟩

/-- **C51** (partial) The same for NAV-PVT. -/
theorem c51_navPvt_partial {cls id : UInt8} {payload p : Bytes} (b : AidIniBuilder)
    (h : matchPacket cls id payload = .ok (.ok (.known navPvt_ p))) :
    ∃ pos, positionFromNavPvt p = .ok pos ∧
      AlmostBack (b.setPosition pos).ecefXOrLat (i32At p 28) ∧
      AlmostBack (b.setPosition pos).ecefYOrLon (i32At p 24) := by
  obtain ⟨pos, h1, h2, h3, -⟩ := c44_navPvt_position h
  exact ⟨pos, h1, almostBack h3, almostBack h2⟩

/-- A NAV-POSLLH payload with longitude 13e-7 degrees. -/
def lostUnit : Bytes := [0, 0, 0, 0, 13, 0, 0, 0] ++ List.replicate 20 0

/-- **C51** is false: the longitude 13e-7 degrees comes back as 12e-7 degrees. -/
theorem c51_lost_unit (b : AidIniBuilder) :
    matchPacket 0x01 0x02 lostUnit = .ok (.ok (.known navPosLlh_ lostUnit)) ∧ i32At lostUnit 4 = 13 ∧
    ∃ pos, positionFromNavPosLlh lostUnit = .ok pos ∧ (b.setPosition pos).ecefYOrLon = 12 := by
  refine ⟨by decide +kernel, by decide +kernel, ?_⟩
  have hok : (positionFromNavPosLlh lostUnit).map (fun pos =>
      AidIniBuilder.asI32 (Fl.mul fmt64 pos.lon (Fl.lit fmt64 10000000))) = .ok 12 := by
    decide +kernel
  cases hpos : positionFromNavPosLlh lostUnit with
  | error e => rw [hpos] at hok; cases hok
  | ok pos =>
    rw [hpos] at hok
    exact ⟨pos, rfl, Except.ok.inj hok⟩

end Ublox.Props
