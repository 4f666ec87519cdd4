import Verif.Spec.Time
import Verif.Lemmas.Buffer

namespace Ublox
open Spec

theorem leap_iff (y : Int) : NaiveDate.leap y = true ↔ LeapYear y := by
  unfold NaiveDate.leap LeapYear
  simp only [Bool.and_eq_true, Bool.or_eq_true, beq_iff_eq, bne_iff_ne]
  omega

theorem daysIn_eq (y : Int) (m : Nat) :
    NaiveDate.daysIn y m = if 1 ≤ m then ((monthLengths y)[m - 1]?).getD 0 else 0 := by
  have hl : (if NaiveDate.leap y = true then 29 else 28) = (if LeapYear y then 29 else 28) := by
    by_cases h : LeapYear y
    · rw [if_pos h, if_pos ((leap_iff y).mpr h)]
    · rw [if_neg h, if_neg (fun hh => h ((leap_iff y).mp hh))]
  unfold NaiveDate.daysIn monthLengths
  rw [hl]
  match m with
  | 0 => rfl
  | 1 => rfl
  | 2 => rfl
  | 3 => rfl
  | 4 => rfl
  | 5 => rfl
  | 6 => rfl
  | 7 => rfl
  | 8 => rfl
  | 9 => rfl
  | 10 => rfl
  | 11 => rfl
  | 12 => rfl
  | n + 13 =>
    rw [if_neg (by omega), if_neg (by omega), if_neg (by omega), if_pos (by omega)]
    rfl

theorem realDate_iff (y : Int) (m d : Nat) :
    RealDate y m d ↔ 1 ≤ d ∧ d ≤ NaiveDate.daysIn y m := by
  rw [daysIn_eq]
  unfold RealDate
  by_cases h : 1 ≤ m
  · rw [if_pos h]
    cases (monthLengths y)[m - 1]? with
    | none => simp; omega
    | some len => simp [h]
  · rw [if_neg h]; omega

theorem realDate_month {y : Int} {m d : Nat} (h : RealDate y m d) : 1 ≤ m ∧ m ≤ 12 := by
  obtain ⟨h1, len, h2, -, -⟩ := h
  have := (List.getElem?_eq_some_iff.mp h2).1
  have e : (monthLengths y).length = 12 := rfl
  omega

theorem dayNumber_month (y : Int) (m : Nat) (h1 : 1 ≤ m) (h2 : m ≤ 12) (d : Nat) :
    dayNumber y (m + 1) d = dayNumber y m d + NaiveDate.daysIn y m := by
  have e := daysIn_eq y m
  rw [if_pos h1] at e
  unfold dayNumber
  obtain ⟨k, rfl⟩ : ∃ k, m = k + 1 := ⟨m - 1, by omega⟩
  have hk : k < (monthLengths y).length := by change k < 12; omega
  simp only [Nat.add_sub_cancel] at e ⊢
  rw [List.getElem?_eq_getElem hk] at e
  simp only [Option.getD_some] at e
  rw [List.take_succ_eq_append_getElem hk, List.sum_append, e]
  simp
  omega

theorem daysBeforeYear_succ (y : Int) :
    daysBeforeYear (y + 1) = daysBeforeYear y + (if LeapYear y then 366 else 365) := by
  unfold daysBeforeYear
  by_cases h : LeapYear y
  · rw [if_pos h]; unfold LeapYear at h; omega
  · rw [if_neg h]; unfold LeapYear at h; omega

theorem monthLengths_sum (y : Int) : (monthLengths y).sum = if LeapYear y then 366 else 365 := by
  unfold monthLengths
  split <;> rfl

theorem dayNumber_year (y : Int) (d : Nat) : dayNumber (y + 1) 1 d = dayNumber y 13 d := by
  have : (monthLengths y).take 12 = monthLengths y := by rw [List.take_of_length_le]; exact Nat.le_refl 12
  unfold dayNumber
  rw [daysBeforeYear_succ]
  simp only [Nat.reduceSub, List.take_zero, List.sum_nil, this, monthLengths_sum]
  split <;> simp

theorem realDate_daysIn {y : Int} {m d : Nat} (h : RealDate y m d) :
    RealDate y m (NaiveDate.daysIn y m) := by
  rw [realDate_iff] at h ⊢; omega

theorem daysIn_pos (y : Int) {m : Nat} (h1 : 1 ≤ m) (h2 : m ≤ 12) : 1 ≤ NaiveDate.daysIn y m := by
  unfold NaiveDate.daysIn
  split
  · split <;> omega
  · split
    · omega
    · rw [if_pos ⟨h1, h2⟩]; omega

theorem daysIn_12 (y : Int) : NaiveDate.daysIn y 12 = 31 := rfl

theorem succOpt_eq {t : NaiveDate} (h : RealDate t.year t.month t.day)
    (hy : NaiveDate.minYear ≤ t.year) (hy2 : t.year < NaiveDate.maxYear) :
    ∃ u, t.succOpt = some u ∧ RealDate u.year u.month u.day ∧
      dayNumber u.year u.month u.day = dayNumber t.year t.month t.day + 1 := by
  obtain ⟨m1, m12⟩ := realDate_month h
  have hd := (realDate_iff _ _ _).mp h
  unfold NaiveDate.succOpt
  by_cases h1 : t.day < NaiveDate.daysIn t.year t.month
  · rw [if_pos h1]
    refine ⟨_, rfl, (realDate_iff _ _ _).mpr ⟨by simp, h1⟩, ?_⟩
    unfold dayNumber; simp; omega
  · rw [if_neg h1]
    have hday : t.day = NaiveDate.daysIn t.year t.month := by omega
    by_cases h2 : t.month < 12
    · rw [if_pos h2]
      refine ⟨_, rfl, (realDate_iff _ _ _).mpr
        ⟨Nat.le_refl 1, daysIn_pos t.year (m := t.month + 1) (by omega) (by omega)⟩, ?_⟩
      simp only
      rw [dayNumber_month t.year t.month m1 m12, ← hday]
      unfold dayNumber; omega
    · rw [if_neg h2]
      have hm : t.month = 12 := by omega
      unfold NaiveDate.fromYmdOpt
      rw [if_pos ⟨by omega, by omega, Nat.le_refl 1, daysIn_pos _ (by omega) (by omega)⟩]
      refine ⟨_, rfl, (realDate_iff _ _ _).mpr ⟨Nat.le_refl 1, daysIn_pos _ (m := 1) (by omega) (by omega)⟩, ?_⟩
      simp only
      have h31 := daysIn_12 t.year
      rw [dayNumber_year, show (13 : Nat) = 12 + 1 from rfl, dayNumber_month t.year 12 (by omega) (by omega),
        hm, hday, hm]
      unfold dayNumber; omega

theorem predOpt_eq {t : NaiveDate} (h : RealDate t.year t.month t.day)
    (hy : NaiveDate.minYear < t.year) (hy2 : t.year ≤ NaiveDate.maxYear) :
    ∃ u, t.predOpt = some u ∧ RealDate u.year u.month u.day ∧
      dayNumber u.year u.month u.day = dayNumber t.year t.month t.day - 1 := by
  obtain ⟨m1, m12⟩ := realDate_month h
  have hd := (realDate_iff _ _ _).mp h
  unfold NaiveDate.predOpt
  by_cases h1 : 1 < t.day
  · rw [if_pos h1]
    refine ⟨_, rfl, (realDate_iff _ _ _).mpr ⟨by simp; omega, by simp; omega⟩, ?_⟩
    unfold dayNumber; simp; omega
  · rw [if_neg h1]
    have hday : t.day = 1 := by omega
    by_cases h2 : 1 < t.month
    · rw [if_pos h2]
      refine ⟨_, rfl, (realDate_iff _ _ _).mpr
        ⟨daysIn_pos t.year (m := t.month - 1) (by omega) (by omega), Nat.le_refl _⟩, ?_⟩
      simp only
      have := dayNumber_month t.year (t.month - 1) (by omega) (by omega) t.day
      rw [Nat.sub_add_cancel m1] at this
      rw [this, hday]
      unfold dayNumber; omega
    · rw [if_neg h2]
      have hm : t.month = 1 := by omega
      unfold NaiveDate.fromYmdOpt
      rw [if_pos ⟨by omega, by omega, by omega, by rw [daysIn_12]; omega⟩]
      refine ⟨_, rfl, (realDate_iff _ _ _).mpr ⟨by simp, by rw [daysIn_12]; simp⟩, ?_⟩
      simp only
      have e1 := dayNumber_year (t.year - 1) 1
      rw [Int.sub_add_cancel] at e1
      have e2 := dayNumber_month (t.year - 1) 12 (by omega) (by omega) 1
      rw [daysIn_12] at e2
      rw [hm, hday, e1, e2]
      unfold dayNumber; omega

theorem instantOf_eq (t : DateTime) :
    instantOf t = (dayNumber t.year t.month t.day * 86400 + t.time.secs) * 1000000000
      + t.time.frac := by
  unfold instantOf instant DateTime.hour DateTime.minute DateTime.second DateTime.nanosecond
  generalize dayNumber t.year t.month t.day = D
  omega

theorem addNanoseconds_eq {t : DateTime} {n : Int} (h : RealDate t.year t.month t.day)
    (hs : t.time.secs < 86400) (hf : t.time.frac < 1000000000) (hn : -86400000000000 ≤ n)
    (hn2 : n ≤ 86400000000000) (hy : NaiveDate.minYear < t.year) (hy2 : t.year < NaiveDate.maxYear) :
    ∃ u, t.addNanoseconds n = .ok u ∧ RealDateTime u ∧ instantOf u = instantOf t + n := by
  have key : ∀ (d : NaiveDate) (total : Int), RealDate d.year d.month d.day → 0 ≤ total →
      total < 86400000000000 →
      dayNumber d.year d.month d.day * 86400000000000 + total = instantOf t + n →
      RealDateTime ⟨d, ⟨(total / 1000000000).toNat, (total % 1000000000).toNat⟩⟩ ∧
      instantOf ⟨d, ⟨(total / 1000000000).toNat, (total % 1000000000).toNat⟩⟩ = instantOf t + n := by
    intro d total hd h0 h1 he
    have b1 : (total / 1000000000).toNat < 86400 := by omega
    have b2 : (total % 1000000000).toNat < 1000000000 := by omega
    refine ⟨⟨hd, ?_, ?_, ?_, b2⟩, ?_⟩
    · simp only [DateTime.hour]; omega
    · simp only [DateTime.minute]; omega
    · simp only [DateTime.second]; omega
    · rw [instantOf_eq, ← he]
      simp only [DateTime.year, DateTime.month, DateTime.day]
      generalize dayNumber d.year d.month d.day = D
      omega
  have hi := instantOf_eq t
  unfold DateTime.addNanoseconds
  simp only
  by_cases h1 : (t.time.secs : Int) * 1000000000 + t.time.frac + n < 0
  · rw [if_pos h1]
    obtain ⟨d, e1, e2, e3⟩ := predOpt_eq (t := t.date) h hy (by unfold DateTime.year at hy2; omega)
    rw [e1]
    exact ⟨_, rfl, key d _ e2 (by omega) (by omega) (by
      rw [e3, hi]
      simp only [DateTime.year, DateTime.month, DateTime.day]
      omega)⟩
  · rw [if_neg h1]
    by_cases h2 : (t.time.secs : Int) * 1000000000 + t.time.frac + n < 86400000000000
    · rw [if_pos h2]
      exact ⟨_, rfl, key t.date _ h (by omega) h2 (by
        rw [hi]
        simp only [DateTime.year, DateTime.month, DateTime.day]
        omega)⟩
    · rw [if_neg h2]
      obtain ⟨d, e1, e2, e3⟩ := succOpt_eq (t := t.date) h (by unfold DateTime.year at hy; omega) hy2
      rw [e1]
      exact ⟨_, rfl, key d _ e2 (by omega) (by omega) (by
        rw [e3, hi]
        simp only [DateTime.year, DateTime.month, DateTime.day]
        omega)⟩

/-! ## An instant has one date -/

theorem take_sum_le (l : List Nat) (i j : Nat) (h : i ≤ j) : (l.take i).sum ≤ (l.take j).sum := by
  induction l generalizing i j with
  | nil => simp
  | cons a l ih =>
    cases i with
    | zero => simp
    | succ i =>
      cases j with
      | zero => omega
      | succ j => simp only [List.take_succ_cons, List.sum_cons]; have := ih i j (by omega); omega

theorem dayNumber_mono_month (y : Int) {m m' d d' : Nat} (h : RealDate y m d) (h' : RealDate y m' d')
    (hlt : m < m') : dayNumber y m d < dayNumber y m' d' := by
  obtain ⟨m1, m12⟩ := realDate_month h
  have hd := (realDate_iff _ _ _).mp h
  have hd' := (realDate_iff _ _ _).mp h'
  have e := dayNumber_month y m m1 m12 d
  have e2 : dayNumber y (m + 1) d ≤ dayNumber y m' d := by
    unfold dayNumber
    have := take_sum_le (monthLengths y) (m + 1 - 1) (m' - 1) (by omega)
    omega
  unfold dayNumber at *
  omega

theorem dayNumber_bounds {y : Int} {m d : Nat} (h : RealDate y m d) :
    daysBeforeYear y < dayNumber y m d ∧ dayNumber y m d ≤ daysBeforeYear (y + 1) := by
  obtain ⟨m1, m12⟩ := realDate_month h
  have hd := (realDate_iff _ _ _).mp h
  constructor
  · unfold dayNumber; omega
  · have e := dayNumber_month y m m1 m12 0
    have e2 : dayNumber y (m + 1) 0 ≤ dayNumber y 13 0 := by
      unfold dayNumber
      have := take_sum_le (monthLengths y) (m + 1 - 1) (13 - 1) (by omega)
      omega
    rw [← dayNumber_year] at e2
    unfold dayNumber at *
    simp only [Nat.sub_self, List.take_zero, List.sum_nil] at e2
    omega

theorem daysBeforeYear_mono {y y' : Int} (h : y ≤ y') : daysBeforeYear y ≤ daysBeforeYear y' := by
  obtain ⟨k, rfl⟩ := Int.le.dest h
  clear h
  induction k with
  | zero => simp
  | succ k ih =>
    have := daysBeforeYear_succ (y + k)
    have e : y + ((k + 1 : Nat) : Int) = y + k + 1 := by omega
    rw [e, this]
    split <;> omega

theorem dayNumber_inj {y y' : Int} {m m' d d' : Nat} (h : RealDate y m d) (h' : RealDate y' m' d')
    (e : dayNumber y m d = dayNumber y' m' d') : y = y' ∧ m = m' ∧ d = d' := by
  have hy : y = y' := by
    have b := dayNumber_bounds h
    have b' := dayNumber_bounds h'
    rcases Int.lt_trichotomy y y' with hlt | he | hlt
    · have := daysBeforeYear_mono (y := y + 1) (y' := y') (by omega); omega
    · exact he
    · have := daysBeforeYear_mono (y := y' + 1) (y' := y) (by omega); omega
  subst hy
  have hm : m = m' := by
    rcases Nat.lt_trichotomy m m' with hlt | he | hlt
    · have := dayNumber_mono_month y h h' hlt; omega
    · exact he
    · have := dayNumber_mono_month y h' h hlt; omega
  subst hm
  refine ⟨rfl, rfl, ?_⟩
  unfold dayNumber at e
  omega

end Ublox
