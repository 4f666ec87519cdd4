import Verif.Lemmas.Time
import Verif.Props.Packet

/-!
# C41: the time of NAV-PVT
-/

namespace Ublox.Props

open Spec Gen

/-- The raw value of an unmapped field of a delivered NAV-PVT packet. -/
theorem navPvt_raw {p : Bytes} (hv : Valid navPvt_ p) {i : Nat} {f : FieldDesc}
    (hf : navPvt_.fields[i]? = some f) (ht : f.ty ≠ .tail) (hm : f.map = none) :
    ∃ r : RawVal, r.ofTy f.ty = true ∧
      Denotes r ((p.drop (start navPvt_.fields i)).take (width f.ty)) ∧
      navPvt_.get f.getName p = .ok (.raw r) := by
  obtain ⟨r, h1, h2, h3, -⟩ := c21_accessor (d := navPvt_) (by decide +kernel) (by decide +kernel)
    hf ht (lenOk_total_le hv.1)
  exact ⟨r, h1, h2, h3 hm⟩

theorem navPvt_u8 {p : Bytes} (hv : Valid navPvt_ p) {i : Nat} {f : FieldDesc}
    (hf : navPvt_.fields[i]? = some f) (ht : f.ty = .u8) (hm : f.map = none) :
    ∃ v : UInt8, navPvt_.getU8 f.getName p = .ok v ∧
      v.toNat = leNat ((p.drop (start navPvt_.fields i)).take 1) := by
  obtain ⟨r, h1, h2, h3⟩ := navPvt_raw hv hf (by rw [ht]; simp) hm
  rw [ht] at h1 h2
  cases r <;> simp [RawVal.ofTy] at h1
  rename_i v
  exact ⟨v, by unfold PackDesc.getU8; rw [h3]; rfl, h2.2⟩

/-- The year of a NAV-PVT payload, and so on. -/
structure PvtTime where
  year : Nat
  month : Nat
  day : Nat
  hour : Nat
  min : Nat
  sec : Nat
  ns : Int

/-- The time in a NAV-PVT payload: a 16-bit year at offset 4, then month, day, hour, minute and
second in one byte each, and a signed 32-bit number of nanoseconds at offset 16. -/
def pvtTime (p : Bytes) : PvtTime where
  year := leNat ((p.drop 4).take 2)
  month := leNat ((p.drop 6).take 1)
  day := leNat ((p.drop 7).take 1)
  hour := leNat ((p.drop 8).take 1)
  min := leNat ((p.drop 9).take 1)
  sec := leNat ((p.drop 10).take 1)
  ns := signedOf 32 (leNat ((p.drop 16).take 4))

theorem wrappingAbs_lt (x : Int32) :
    (wrappingAbs x).toUInt32.toNat < 1000000000 ↔ -1000000000 < x.toInt ∧ x.toInt < 1000000000 := by
  have h1 := x.minValue_le_toInt
  have h2 := x.toInt_le
  have e1 : (Int32.minValue).toInt = -2147483648 := rfl
  have e2 : (Int32.maxValue).toInt = 2147483647 := rfl
  have key : ∀ n : Int, 0 ≤ n → n ≤ 2147483648 → (Int32.ofInt n).toUInt32.toNat = n.toNat := by
    intro n h0 h3
    show (BitVec.ofInt 32 n).toNat = n.toNat
    rw [BitVec.toNat_ofInt]
    omega
  unfold wrappingAbs
  split
  · rw [key _ (by omega) (by omega)]; omega
  · have := key x.toInt (by omega) (by omega)
    rw [Int32.ofInt_toInt] at this
    rw [this]; omega

/-- **C41** The conversion of a delivered NAV-PVT packet to a date and time never panics.  It fails
with `InvalidDate` if there is no such date, otherwise with `InvalidTime` if there is no such time of
day, otherwise with `InvalidNanoseconds` if there is a second or more of them; otherwise the result is
an existing date and time, and its instant is that of the fields plus the signed number of
nanoseconds. -/
theorem c41_time {cls id : UInt8} {payload p : Bytes}
    (h : matchPacket cls id payload = .ok (.ok (.known navPvt_ p))) :
    let f := pvtTime p
    (¬ RealDate f.year f.month f.day → dateTimeFromNavPvt p = .ok (.error .invalidDate)) ∧
    (RealDate f.year f.month f.day → ¬ (f.hour ≤ 23 ∧ f.min ≤ 59 ∧ f.sec ≤ 59) →
      dateTimeFromNavPvt p = .ok (.error .invalidTime)) ∧
    (RealDate f.year f.month f.day → (f.hour ≤ 23 ∧ f.min ≤ 59 ∧ f.sec ≤ 59) →
      ¬ (-1000000000 < f.ns ∧ f.ns < 1000000000) →
      dateTimeFromNavPvt p = .ok (.error .invalidNanoseconds)) ∧
    (RealDate f.year f.month f.day → (f.hour ≤ 23 ∧ f.min ≤ 59 ∧ f.sec ≤ 59) →
      (-1000000000 < f.ns ∧ f.ns < 1000000000) →
      ∃ t, dateTimeFromNavPvt p = .ok (.ok t) ∧ RealDateTime t ∧
        instantOf t = instant f.year f.month f.day f.hour f.min f.sec f.ns) := by
  obtain ⟨-, hv⟩ := delivered h
  have s1 : start navPvt_.fields 1 = 4 := by decide +kernel
  have s2 : start navPvt_.fields 2 = 6 := by decide +kernel
  have s3 : start navPvt_.fields 3 = 7 := by decide +kernel
  have s4 : start navPvt_.fields 4 = 8 := by decide +kernel
  have s5 : start navPvt_.fields 5 = 9 := by decide +kernel
  have s6 : start navPvt_.fields 6 = 10 := by decide +kernel
  have s9 : start navPvt_.fields 9 = 16 := by decide +kernel
  obtain ⟨year, hy, hy'⟩ : ∃ v : UInt16, navPvt_.getU16 "year" p = .ok v ∧
      v.toNat = leNat ((p.drop 4).take 2) := by
    obtain ⟨r, h1, h2, h3⟩ := navPvt_raw hv (i := 1) rfl (by simp) rfl
    rw [s1] at h2
    cases r <;> simp [RawVal.ofTy] at h1
    rename_i v
    simp only [FieldDesc.getName, Option.getD_none] at h3
    exact ⟨v, by unfold PackDesc.getU16; rw [h3]; rfl, h2.2⟩
  obtain ⟨ns, hns, hns'⟩ : ∃ v : Int32, navPvt_.getI32 "nanosecond" p = .ok v ∧
      v.toInt = signedOf 32 (leNat ((p.drop 16).take 4)) := by
    obtain ⟨r, h1, h2, h3⟩ := navPvt_raw hv (i := 9) rfl (by simp) rfl
    rw [s9] at h2
    cases r <;> simp [RawVal.ofTy] at h1
    rename_i v
    simp only [FieldDesc.getName, Option.getD_none] at h3
    exact ⟨v, by unfold PackDesc.getI32; rw [h3]; rfl, h2.2⟩
  obtain ⟨month, hmo, hmo'⟩ := navPvt_u8 hv (i := 2) rfl rfl rfl
  obtain ⟨day, hd, hd'⟩ := navPvt_u8 hv (i := 3) rfl rfl rfl
  obtain ⟨hour, hh, hh'⟩ := navPvt_u8 hv (i := 4) rfl rfl rfl
  obtain ⟨min, hmi, hmi'⟩ := navPvt_u8 hv (i := 5) rfl rfl rfl
  obtain ⟨sec, hs, hs'⟩ := navPvt_u8 hv (i := 6) rfl rfl rfl
  simp only [FieldDesc.getName, Option.getD_none, s2, s3, s4, s5, s6] at hmo hmo' hd hd' hh hh' hmi hmi' hs hs'
  have hylt := year.toNat_lt
  have hdate : ∀ t, NaiveDate.fromYmdOpt year.toNat month.toNat day.toNat = t ↔
      (RealDate year.toNat month.toNat day.toNat ∧ some ⟨year.toNat, month.toNat, day.toNat⟩ = t) ∨
      (¬ RealDate year.toNat month.toNat day.toNat ∧ none = t) := by
    intro t
    have hb : NaiveDate.minYear ≤ (year.toNat : Int) ∧ (year.toNat : Int) ≤ NaiveDate.maxYear := by
      unfold NaiveDate.minYear NaiveDate.maxYear; omega
    unfold NaiveDate.fromYmdOpt
    rw [realDate_iff]
    by_cases hr : 1 ≤ day.toNat ∧ day.toNat ≤ NaiveDate.daysIn year.toNat month.toNat
    · rw [if_pos ⟨hb.1, hb.2, hr⟩]; simp [hr]
    · rw [if_neg (fun hc => hr hc.2.2)]; simp [hr]
  have htime := wrappingAbs_lt ns
  simp only [pvtTime, ← hy', ← hmo', ← hd', ← hh', ← hmi', ← hs', ← hns']
  unfold dateTimeFromNavPvt
  simp only [hy, hmo, hd, hh, hmi, hs, hns, Except.ok_bind]
  by_cases hr : RealDate year.toNat month.toNat day.toNat
  · rw [(hdate _).mpr (.inl ⟨hr, rfl⟩)]
    simp only
    unfold NaiveTime.fromHmsOpt
    refine ⟨fun hn => absurd hr hn, fun _ hn => ?_, fun _ ht hn => ?_, fun _ ht hn => ?_⟩
    · rw [if_neg (by omega)]; rfl
    · rw [if_pos (by omega)]
      simp only
      rw [if_pos (by omega)]; rfl
    · rw [if_pos (by omega)]
      simp only
      rw [if_neg (by omega)]
      obtain ⟨u, h1, h2, h3⟩ := addNanoseconds_eq
        (t := ⟨⟨year.toNat, month.toNat, day.toNat⟩, ⟨hour.toNat * 3600 + min.toNat * 60 + sec.toNat, 0⟩⟩)
        (n := ns.toInt) hr (by simp only; omega) (by simp) (by omega) (by omega)
        (by simp only [DateTime.year, NaiveDate.minYear]; omega)
        (by simp only [DateTime.year, NaiveDate.maxYear]; omega)
      rw [h1, Except.ok_bind]
      refine ⟨u, rfl, h2, ?_⟩
      rw [h3, instantOf_eq]
      unfold instant
      simp only [DateTime.year, DateTime.month, DateTime.day]
      generalize dayNumber year.toNat month.toNat day.toNat = D
      omega
  · rw [(hdate _).mpr (.inr ⟨hr, rfl⟩)]
    refine ⟨fun _ => rfl, fun h => absurd h hr, fun h => absurd h hr, fun h => absurd h hr⟩

/-- 1 March 2024 00:00:00 minus one nanosecond is 29 February. -/
example :
    let p : Bytes := [0, 0, 0, 0, 0xe8, 0x07, 3, 1, 0, 0, 0, 0, 0, 0, 0, 0, 0xff, 0xff, 0xff, 0xff] ++
      List.replicate 72 0
    matchPacket 0x01 0x07 p = .ok (.ok (.known navPvt_ p)) ∧
    dateTimeFromNavPvt p = .ok (.ok ⟨⟨2024, 2, 29⟩, ⟨86399, 999999999⟩⟩) := by decide +kernel

/-- 29 February 2023 -/
example :
    let p : Bytes := [0, 0, 0, 0, 0xe7, 0x07, 2, 29] ++ List.replicate 84 0
    dateTimeFromNavPvt p = .ok (.error .invalidDate) := by decide +kernel

/-- **C41** The instant determines the date and time, so that the result of the conversion is
determined by `c41_time`. -/
theorem c41_unique {t u : DateTime} (ht : RealDateTime t) (hu : RealDateTime u)
    (h : instantOf t = instantOf u) : t = u := by
  obtain ⟨t1, t2, -, -, t5⟩ := ht
  obtain ⟨u1, u2, -, -, u5⟩ := hu
  rw [instantOf_eq, instantOf_eq] at h
  have hday : dayNumber t.year t.month t.day = dayNumber u.year u.month u.day := by
    revert h
    generalize dayNumber t.year t.month t.day = D
    generalize dayNumber u.year u.month u.day = E
    unfold DateTime.hour DateTime.nanosecond at *
    omega
  obtain ⟨e1, e2, e3⟩ := dayNumber_inj t1 u1 hday
  rw [hday] at h
  generalize dayNumber u.year u.month u.day = E at h
  unfold DateTime.hour DateTime.nanosecond at *
  have e4 : t.time.secs = u.time.secs := by omega
  have e5 : t.time.frac = u.time.frac := by omega
  obtain ⟨⟨_, _, _⟩, ⟨_, _⟩⟩ := t
  obtain ⟨⟨_, _, _⟩, ⟨_, _⟩⟩ := u
  simp only [DateTime.year, DateTime.month, DateTime.day] at e1 e2 e3 e4 e5
  subst e1 e2 e3 e4 e5
  rfl

/-- 1 January 1970 is 719528 days after 1 January of year 0. -/
example : RealDateTime ⟨⟨1970, 1, 1⟩, ⟨0, 0⟩⟩ ∧ dayNumber 1970 1 1 - dayNumber 0 1 1 = 719528 := by
  refine ⟨⟨⟨by decide, 31, by decide, by decide, by decide⟩, by decide, by decide, by decide, by decide⟩, by decide⟩

end Ublox.Props
