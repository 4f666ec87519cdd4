import Verif.Model.GenPackets
import Verif.Lemmas.Scale

/-! # Properties of scaled fields: C42 and C43 -/

namespace Ublox.Props
open Ublox Spec Gen

/-- A float as the value of a field that is mapped to `f32` or `f64`. -/
def floatVal : Conv → Fl → Option Val
  | .f32, x => some (.f32 x)
  | .f64, x => some (.f64 x)
  | _, _ => none

/-- How much the comparison of neighbouring integers may be off in each format. -/
def slack : Conv → Rat
  | .f32 => 1 / 50
  | _ => 1 / 400000

/-- The scaled fields of the buildable packets. -/
def scaledB (f : FieldDesc) : Bool :=
  match f.scale with
  | none => true
  | some s => decide (1 / 1000000 ≤ s) && decide (s ≤ 1) && (intRange f.ty).isSome &&
    match f.map with
    | some .f32 => f.ty != .u32 && f.ty != .i32
    | some .f64 => true
    | _ => false

/-- Every scaled field of a packet with a builder has an integer type and a float type that holds
all its integers. -/
theorem scaled_table : (allPackets.all fun d => !d.hasBuilder || d.fields.all scaledB) = true := by
  decide +kernel

theorem scaled_field {d : PackDesc} {f : FieldDesc} {s : Rat} (hd : d ∈ allPackets)
    (hb : d.hasBuilder = true) (hf : f ∈ d.fields) (hs : f.scale = some s) :
    ∃ lo hi, ScaleOk s ∧ intRange f.ty = some (lo, hi) ∧
      (f.map = some .f32 ∧ RangeOk fmt32 lo hi ∧ f.ty ≠ .u32 ∧ f.ty ≠ .i32 ∨
       f.map = some .f64 ∧ RangeOk fmt64 lo hi) := by
  have h1 := List.all_eq_true.mp scaled_table d hd
  rw [hb, Bool.not_true, Bool.false_or] at h1
  have h2 := List.all_eq_true.mp h1 f hf
  unfold scaledB at h2
  rw [hs] at h2
  simp only [Bool.and_eq_true, decide_eq_true_eq] at h2
  obtain ⟨⟨⟨a, b⟩, c⟩, e⟩ := h2
  obtain ⟨⟨lo, hi⟩, hr⟩ := Option.isSome_iff_exists.mp c
  refine ⟨lo, hi, ⟨a, b⟩, hr, ?_⟩
  revert e
  split
  · rename_i hm
    intro e
    simp only [Bool.and_eq_true, bne_iff_ne] at e
    exact Or.inl ⟨hm, intRange_f32 hr e.1 e.2, e.1, e.2⟩
  · rename_i hm
    intro _
    exact Or.inr ⟨hm, intRange_f64 hr⟩
  · intro e; cases e

/-! ## C42: scaled fields survive building and reading -/

theorem scaled_back {fmt : FloatFmt} (h : FmtOk fmt) {s : Rat} (hs : ScaleOk s) {lo hi m : Int}
    {r : RawVal} {ty : RawTy} (hr : intRange ty = some (lo, hi)) (ho : RangeOk fmt lo hi)
    (ht : r.ofTy ty = true) (hm : intOf r = some m) (h0 : lo ≤ m) (h1 : m ≤ hi) :
    (ScaleBack.ofScale fmt s).asRaw ty (Fl.mul fmt (Fl.ofInt m) (Fl.lit fmt s)) = .ok r := by
  have habs : |m| * 64 < 2 ^ fmt.p ∧ |m| < 2 ^ 32 := by
    have a1 := ho.hip
    have a2 := ho.lop
    have a3 := ho.hi33
    have a4 := ho.lo33
    rcases le_total 0 m with h | h
    · rw [abs_of_nonneg h]; omega
    · rw [abs_of_nonpos h]; omega
  have hmR : |(m : Rat)| * 64 < 2 ^ (fmt.p : Int) := by
    have : ((|m| * 64 : Int) : Rat) < ((2 ^ fmt.p : Int) : Rat) := by exact_mod_cast habs.1
    push_cast at this
    rw [zpow_natCast]; exact this
  have hm32 : |(m : Rat)| ≤ 2 ^ (32 : Int) := by
    have : ((|m| : Int) : Rat) ≤ ((2 ^ 32 : Int) : Rat) := by exact_mod_cast habs.2.le
    push_cast at this
    exact this
  have hsc := scaled_mul h hs (n := m) (by
    rw [zpow_neg]
    have hp : (0 : Rat) < 2 ^ (fmt.p : Int) := by positivity
    rw [← mul_assoc, ← div_eq_mul_inv, div_lt_iff₀ hp]
    linarith) hm32
  obtain ⟨r', e1, e2, e3⟩ := asRaw_val (s := ScaleBack.ofScale fmt s) h hr ho hsc
  have : clamp lo hi m = m := by unfold clamp; omega
  rw [this] at e3
  rw [e1, intOf_inj ht e2 hm e3]

/-- C42: for every scaled field of every packet that can be both built and received, and every raw
value of the field, the accessor's conversion succeeds and putting the float that it returns into
the builder gives the bytes of the same raw value. -/
theorem c42_scaled_round_trip {d : PackDesc} {f : FieldDesc} {s : Rat} (hd : d ∈ allPackets)
    (hk : d.kind = .recvSend) (hf : f ∈ d.fields) (hs : f.scale = some s) {r : RawVal}
    (hr : r.ofTy f.ty = true) :
    ∃ v, f.convert r = .ok v ∧ f.bytes v = .ok r.toLeBytes := by
  have hb : d.hasBuilder = true := by unfold PackDesc.hasBuilder; rw [hk]; rfl
  obtain ⟨lo, hi, hso, hrg, hcase⟩ := scaled_field hd hb hf hs
  obtain ⟨m, hm, h0, h1⟩ := intOf_range hr hrg
  rcases hcase with ⟨hmap, ho, hu, hi'⟩ | ⟨hmap, ho⟩
  · refine ⟨.f32 (Fl.mul fmt32 (Fl.ofInt m) (Fl.lit fmt32 s)), ?_, ?_⟩
    · unfold FieldDesc.convert
      rw [hmap, hs]
      have : r.toInt16? = some m := by
        revert hm hr hu hi'
        cases r <;> cases f.ty <;> simp [RawVal.ofTy, intOf, RawVal.toInt16?]
      simp only [Conv.convert, this]
      rfl
    · unfold FieldDesc.bytes
      rw [hmap, hs]
      simp only [Conv.intoRaw]
      rw [scaled_back fmt32_ok hso hrg ho hr hm h0 h1]
      rfl
  · refine ⟨.f64 (Fl.mul fmt64 (Fl.ofInt m) (Fl.lit fmt64 s)), ?_, ?_⟩
    · unfold FieldDesc.convert
      rw [hmap, hs]
      have : r.toInt? = some m := by
        revert hm; cases r <;> simp [intOf, RawVal.toInt?]
      simp only [Conv.convert, this]
      rfl
    · unfold FieldDesc.bytes
      rw [hmap, hs]
      simp only [Conv.intoRaw]
      rw [scaled_back fmt64_ok hso hrg ho hr hm h0 h1]
      rfl

/-- The claim is about 25 fields of four packets. -/
example : ((allPackets.filter fun d => d.kind == .recvSend).map fun d =>
    (d.name, (d.fields.filter fun f => f.scale.isSome).length)).filter (fun p => p.2 != 0) =
    [("CfgTp5", 7), ("CfgTmode2", 5), ("CfgTmode3", 8), ("CfgNav5", 5)] := by decide +kernel

/-- A field of the claim with a raw value. -/
example : ∃ d ∈ allPackets, d.kind = .recvSend ∧ ∃ f ∈ d.fields, f.name = "pdop" ∧
    f.scale = some (mkRat 1 10) ∧ (RawVal.u16 250).ofTy f.ty = true := by decide +kernel

/-! ## C43: saturation -/

/-- C43, finite values: putting a finite float `q` into a scaled field gives the integer nearest to
`q / scale`, saturating at the bounds of the integer type, and does not panic.  The only deviation
from exact rounding is that near the middle between two integers the other neighbour may be chosen:
the distance is at most `1/2 + 1/50` for `f32` and `1/2 + 1/400000` for `f64`. -/
theorem c43_finite_partial {d : PackDesc} {f : FieldDesc} {s q : Rat} {c : Conv} {x : Fl} {v : Val}
    (hd : d ∈ allPackets) (hb : d.hasBuilder = true) (hf : f ∈ d.fields) (hs : f.scale = some s)
    (hc : f.map = some c) (hv : floatVal c x = some v) (hx : x.val? = some q) :
    ∃ r m lo hi, f.bytes v = .ok r.toLeBytes ∧ r.ofTy f.ty = true ∧ intOf r = some m ∧
      intRange f.ty = some (lo, hi) ∧ Near lo hi (slack c) (q / s) m := by
  obtain ⟨lo, hi, hso, hrg, hcase⟩ := scaled_field hd hb hf hs
  rcases hcase with ⟨hmap, ho, hu, hi'⟩ | ⟨hmap, ho⟩
  · rw [hc] at hmap
    simp only [Option.some.injEq] at hmap
    subst hmap
    simp only [floatVal, Option.some.injEq] at hv
    subst hv
    have e : ∀ r, (ScaleBack.ofScale fmt32 s).asRaw f.ty x = .ok r →
        f.bytes (.f32 x) = .ok r.toLeBytes := by
      intro r hr
      unfold FieldDesc.bytes
      rw [hc, hs]
      simp only [Conv.intoRaw]
      rw [hr]; rfl
    have hb : hi ≤ 65535 ∧ -65535 ≤ lo := by
      revert hrg hu hi'
      cases f.ty <;> simp [intRange] <;> omega
    have hbR : (hi : Rat) ≤ 65535 ∧ (-65535 : Rat) ≤ lo := by
      exact ⟨by exact_mod_cast hb.1, by exact_mod_cast hb.2⟩
    have hp : (2 : Rat) ^ (-(fmt32.p : Int)) = 1 / 16777216 := by
      show (2 : Rat) ^ (-24 : Int) = _
      norm_num
    have he : (2 : Rat) ^ fmt32.emin ≤ 1 / 1000000 := by
      show (2 : Rat) ^ (-149 : Int) ≤ _
      norm_num
    have := ho.hi33
    have := ho.lo33
    rcases scaled_near fmt32_ok hso (lo := lo) (hi := hi) (δ := 1 / 50) ho.lo0 ho.hi0 (by omega)
      (by omega) (by rw [hp]; linarith [hbR.1]) (by rw [hp]; linarith [hbR.2]) (by norm_num) hx with
      ⟨n, h1, h2⟩ | ⟨neg, h1, h2⟩
    · obtain ⟨r, r1, r2, r3⟩ := asRaw_val (s := ScaleBack.ofScale fmt32 s) fmt32_ok hrg ho h1
      exact ⟨r, _, lo, hi, e r r1, r2, r3, hrg, h2⟩
    · obtain ⟨r, r1, r2, r3⟩ := asRaw_inf (s := ScaleBack.ofScale fmt32 s) fmt32_ok hrg ho h1
      exact ⟨r, _, lo, hi, e r r1, r2, r3, hrg, h2⟩
  · rw [hc] at hmap
    simp only [Option.some.injEq] at hmap
    subst hmap
    simp only [floatVal, Option.some.injEq] at hv
    subst hv
    have e : ∀ r, (ScaleBack.ofScale fmt64 s).asRaw f.ty x = .ok r →
        f.bytes (.f64 x) = .ok r.toLeBytes := by
      intro r hr
      unfold FieldDesc.bytes
      rw [hc, hs]
      simp only [Conv.intoRaw]
      rw [hr]; rfl
    have hb : hi ≤ 4294967295 ∧ -4294967295 ≤ lo := by
      have := ho.hi33
      have := ho.lo33
      omega
    have hbR : (hi : Rat) ≤ 4294967295 ∧ (-4294967295 : Rat) ≤ lo := by
      exact ⟨by exact_mod_cast hb.1, by exact_mod_cast hb.2⟩
    have hp : (2 : Rat) ^ (-(fmt64.p : Int)) = 1 / 9007199254740992 := by
      show (2 : Rat) ^ (-53 : Int) = _
      norm_num
    have he : (2 : Rat) ^ fmt64.emin ≤ 1 / 100000000 := by
      have : (2 : Rat) ^ (-30 : Int) ≤ 1 / 100000000 := by norm_num
      exact (zpow_le_zpow_right₀ (by norm_num) (by decide)).trans this
    have := ho.hi33
    have := ho.lo33
    rcases scaled_near fmt64_ok hso (lo := lo) (hi := hi) (δ := 1 / 400000) ho.lo0 ho.hi0 (by omega)
      (by omega) (by rw [hp]; linarith [hbR.1]) (by rw [hp]; linarith [hbR.2]) (by norm_num) hx with
      ⟨n, h1, h2⟩ | ⟨neg, h1, h2⟩
    · obtain ⟨r, r1, r2, r3⟩ := asRaw_val (s := ScaleBack.ofScale fmt64 s) fmt64_ok hrg ho h1
      exact ⟨r, _, lo, hi, e r r1, r2, r3, hrg, h2⟩
    · obtain ⟨r, r1, r2, r3⟩ := asRaw_inf (s := ScaleBack.ofScale fmt64 s) fmt64_ok hrg ho h1
      exact ⟨r, _, lo, hi, e r r1, r2, r3, hrg, h2⟩

/-- The factor of the generated code, the float next to `1 / scale` where `scale` is itself rounded,
is exactly `1 / scale` for every scaled field that can be built. -/
theorem factors_exact : (allPackets.all fun d => !d.hasBuilder || d.fields.all fun f =>
    match f.scale, f.map with
    | some s, some .f32 => decide ((ScaleBack.ofScale fmt32 s).factor = .fin (1 / s))
    | some s, some .f64 => decide ((ScaleBack.ofScale fmt64 s).factor = .fin (1 / s))
    | _, _ => true) = true := by
  decide +kernel

/-- C43: where the float is exactly in the middle between two integers of the field, the one that is
farther from zero is sent. -/
theorem c43_ties {d : PackDesc} {f : FieldDesc} {s q : Rat} {c : Conv} {x : Fl} {v : Val}
    (hd : d ∈ allPackets) (hb : d.hasBuilder = true) (hf : f ∈ d.fields) (hs : f.scale = some s)
    (hc : f.map = some c) (hv : floatVal c x = some v) (hx : x.val? = some q) {lo hi n : Int}
    (hr : intRange f.ty = some (lo, hi)) (h0 : lo ≤ n) (h1 : n + 1 ≤ hi)
    (hq : q / s = n + 1 / 2) :
    ∃ r, f.bytes v = .ok r.toLeBytes ∧ r.ofTy f.ty = true ∧
      intOf r = some (if 0 ≤ n then n + 1 else n) := by
  obtain ⟨lo', hi', hso, hrg, hcase⟩ := scaled_field hd hb hf hs
  rw [hr] at hrg
  simp only [Option.some.injEq, Prod.mk.injEq] at hrg
  obtain ⟨rfl, rfl⟩ := hrg
  have hfac := List.all_eq_true.mp factors_exact d hd
  rw [hb, Bool.not_true, Bool.false_or] at hfac
  replace hfac := List.all_eq_true.mp hfac f hf
  rw [hs, hc] at hfac
  have key : ∀ fmt, FmtOk fmt → RangeOk fmt lo hi →
      (ScaleBack.ofScale fmt s).factor = .fin (1 / s) →
      ∃ r, (ScaleBack.ofScale fmt s).asRaw f.ty x = .ok r ∧ r.ofTy f.ty = true ∧
        intOf r = some (if 0 ≤ n then n + 1 else n) := by
    intro fmt hfm ho hfa
    have hdy : fmt.round ((n : Rat) + 1 / 2) = (n : Rat) + 1 / 2 := by
      have e : (n : Rat) + 1 / 2 = ((2 * n + 1 : Int) : Rat) / 2 ^ 1 := by push_cast; ring
      rw [e]
      refine round_dyadic fmt ?_ ?_
      · have := hfm.emin; simp only [Nat.cast_one]; omega
      · have := ho.hip; have := ho.lop
        rw [abs_lt]
        constructor <;> omega
    have hprod : q * (1 / s) = n + 1 / 2 := by rw [mul_one_div]; exact hq
    have hmul : (Fl.mul fmt x (.fin (1 / s))).val? = some ((n : Rat) + 1 / 2) := by
      rcases Fl.mul_cases fmt (b := 1 / s) hx with ⟨hbig, -⟩ | ⟨-, h⟩
      · rw [hprod, hdy] at hbig
        have b1 : |(n : Rat) + 1 / 2| < 2 ^ (34 : Int) := by
          have := ho.hi33; have := ho.lo33
          have a1 : (n : Rat) < 2 ^ 33 := by exact_mod_cast (by omega : n < 2 ^ 33)
          have a2 : -(2 ^ 33 : Rat) < n := by exact_mod_cast (by omega : -2 ^ 33 < n)
          rw [abs_lt]
          constructor <;> norm_num at * <;> linarith
        have b2 : (2 : Rat) ^ (34 : Int) ≤ 2 ^ fmt.emax :=
          zpow_le_zpow_right₀ (by norm_num) (by have := hfm.emax; omega)
        linarith
      · rwa [hprod, hdy] at h
    have hsc : ((ScaleBack.ofScale fmt s).scaled x).val? =
        some (((if 0 ≤ n then n + 1 else n : Int)) : Rat) := by
      unfold ScaleBack.scaled
      rw [hfa]
      have := Fl.roundInt_val hmul
      rw [roundHalfAway_half] at this
      exact this
    obtain ⟨r, r1, r2, r3⟩ := asRaw_val (s := ScaleBack.ofScale fmt s) hfm hr ho hsc
    refine ⟨r, r1, r2, ?_⟩
    rw [r3]
    unfold clamp
    congr 1
    split <;> omega
  rcases hcase with ⟨hmap, ho, -, -⟩ | ⟨hmap, ho⟩ <;> rw [hc] at hmap <;>
    simp only [Option.some.injEq] at hmap <;> subst hmap <;>
    simp only [floatVal, Option.some.injEq] at hv <;> subst hv <;>
    simp only [decide_eq_true_eq] at hfac
  · obtain ⟨r, r1, r2, r3⟩ := key fmt32 fmt32_ok ho hfac
    refine ⟨r, ?_, r2, r3⟩
    unfold FieldDesc.bytes
    rw [hc, hs]
    simp only [Conv.intoRaw]
    rw [r1]; rfl
  · obtain ⟨r, r1, r2, r3⟩ := key fmt64 fmt64_ok ho hfac
    refine ⟨r, ?_, r2, r3⟩
    unfold FieldDesc.bytes
    rw [hc, hs]
    simp only [Conv.intoRaw]
    rw [r1]; rfl

/-- An altitude of -0.125 m in centimetres is in the middle between -13 and -12. -/
example : ∃ d ∈ allPackets, d.hasBuilder = true ∧ ∃ f ∈ d.fields, f.name = "fixed_alt" ∧
    f.scale = some (mkRat 1 100) ∧ f.map = some .f64 ∧
    intRange f.ty = some (-2147483648, 2147483647) ∧
    (Fl.fin (mkRat (-1) 8)).val? = some (mkRat (-1) 8) ∧
    mkRat (-1) 8 / mkRat 1 100 = ((-13 : Int) : Rat) + 1 / 2 := by
  decide +kernel

/-- A signed field of the claim, with a value that is out of range. -/
example : ∃ d ∈ allPackets, d.hasBuilder = true ∧ ∃ f ∈ d.fields, f.name = "ecef_x_or_lat_hp" ∧
    f.scale.isSome ∧ f.map = some .f32 ∧ intRange f.ty = some (-128, 127) ∧
    floatVal .f32 (.fin 1000) = some (.f32 (.fin 1000)) ∧ (Fl.fin 1000).val? = some 1000 := by
  decide +kernel

/-- C43, infinities: minus infinity gives the smallest, plus infinity the largest integer. -/
theorem c43_infinite {d : PackDesc} {f : FieldDesc} {s : Rat} {c : Conv} {neg : Bool} {v : Val}
    (hd : d ∈ allPackets) (hb : d.hasBuilder = true) (hf : f ∈ d.fields) (hs : f.scale = some s)
    (hc : f.map = some c) (hv : floatVal c (.inf neg) = some v) :
    ∃ r lo hi, f.bytes v = .ok r.toLeBytes ∧ r.ofTy f.ty = true ∧ intRange f.ty = some (lo, hi) ∧
      intOf r = some (if neg then lo else hi) := by
  obtain ⟨lo, hi, hso, hrg, hcase⟩ := scaled_field hd hb hf hs
  rcases hcase with ⟨hmap, ho, -, -⟩ | ⟨hmap, ho⟩
  · rw [hc] at hmap
    simp only [Option.some.injEq] at hmap
    subst hmap
    simp only [floatVal, Option.some.injEq] at hv
    subst hv
    obtain ⟨r, r1, r2, r3⟩ := asRaw_inf (s := ScaleBack.ofScale fmt32 s) fmt32_ok hrg ho
      (scaled_inf fmt32_ok hso neg)
    refine ⟨r, lo, hi, ?_, r2, hrg, r3⟩
    unfold FieldDesc.bytes
    rw [hc, hs]
    simp only [Conv.intoRaw]
    rw [r1]; rfl
  · rw [hc] at hmap
    simp only [Option.some.injEq] at hmap
    subst hmap
    simp only [floatVal, Option.some.injEq] at hv
    subst hv
    obtain ⟨r, r1, r2, r3⟩ := asRaw_inf (s := ScaleBack.ofScale fmt64 s) fmt64_ok hrg ho
      (scaled_inf fmt64_ok hso neg)
    refine ⟨r, lo, hi, ?_, r2, hrg, r3⟩
    unfold FieldDesc.bytes
    rw [hc, hs]
    simp only [Conv.intoRaw]
    rw [r1]; rfl

/-- C43 fails for NaN: in every scaled field of a signed type, a NaN panics. -/
theorem c43_nan_panics {d : PackDesc} {f : FieldDesc} {s : Rat} {c : Conv} {neg : Bool} {v : Val}
    {lo hi : Int} (hd : d ∈ allPackets) (hb : d.hasBuilder = true) (hf : f ∈ d.fields)
    (hs : f.scale = some s) (hc : f.map = some c) (hv : floatVal c (.nan neg) = some v)
    (hr : intRange f.ty = some (lo, hi)) (hlo : lo < 0) : f.bytes v = .error .unwrap := by
  have key : ∀ fmt, (ScaleBack.ofScale fmt s).asRaw f.ty (.nan neg) = .error .unwrap := by
    intro fmt
    obtain ⟨n', hn⟩ := scaled_nan (fmt := fmt) (s := s) neg
    have h := fun lo hi => ScaleBack.asSigned_nan (lo := lo) (hi := hi) hn
    revert hr
    cases f.ty <;> simp only [intRange, Option.some.injEq, Prod.mk.injEq, reduceCtorEq,
      false_imp_iff] <;> rintro ⟨rfl, rfl⟩ <;>
      first
      | exact absurd hlo (by decide)
      | (simp only [ScaleBack.asRaw, h]; rfl)
  obtain ⟨_, _, _, _, hcase⟩ := scaled_field hd hb hf hs
  unfold FieldDesc.bytes
  rcases hcase with ⟨hmap, -⟩ | ⟨hmap, -⟩ <;>
  · rw [hc] at hmap
    simp only [Option.some.injEq] at hmap
    subst hmap
    simp only [floatVal, Option.some.injEq] at hv
    subst hv
    rw [hc, hs]
    simp only [Conv.intoRaw, key]
    rfl

/-- C43: a NaN in a scaled field of an unsigned type does not panic; it gives a bound. -/
theorem c43_nan_unsigned {d : PackDesc} {f : FieldDesc} {s : Rat} {c : Conv} {neg : Bool} {v : Val}
    {hi : Int} (hd : d ∈ allPackets) (hb : d.hasBuilder = true) (hf : f ∈ d.fields)
    (hs : f.scale = some s) (hc : f.map = some c) (hv : floatVal c (.nan neg) = some v)
    (hr : intRange f.ty = some (0, hi)) :
    ∃ r, f.bytes v = .ok r.toLeBytes ∧ r.ofTy f.ty = true ∧
      (intOf r = some 0 ∨ intOf r = some hi) := by
  have key : ∀ fmt, ∃ r, (ScaleBack.ofScale fmt s).asRaw f.ty (.nan neg) = .ok r ∧
      r.ofTy f.ty = true ∧ (intOf r = some 0 ∨ intOf r = some hi) := by
    intro fmt
    obtain ⟨n', hn⟩ := scaled_nan (fmt := fmt) (s := s) neg
    have h := ScaleBack.asUnsigned_nan (hi := hi) hn
    have h0 := (intRange_f64 hr).hi0
    obtain ⟨r, r1, r2, r3⟩ := asRaw_ok hr (m := if n' then 0 else hi) (x := .nan neg)
      (s := ScaleBack.ofScale fmt s)
      ⟨fun e => absurd e (by decide), fun _ => h⟩ (by split <;> omega) (by split <;> omega)
    refine ⟨r, r1, r2, ?_⟩
    rw [r3]
    cases n' <;> simp
  obtain ⟨_, _, _, _, hcase⟩ := scaled_field hd hb hf hs
  rcases hcase with ⟨hmap, -⟩ | ⟨hmap, -⟩
  · obtain ⟨r, r1, r2, r3⟩ := key fmt32
    refine ⟨r, ?_, r2, r3⟩
    rw [hc] at hmap
    simp only [Option.some.injEq] at hmap
    subst hmap
    simp only [floatVal, Option.some.injEq] at hv
    subst hv
    unfold FieldDesc.bytes
    rw [hc, hs]
    simp only [Conv.intoRaw, r1]
    rfl
  · obtain ⟨r, r1, r2, r3⟩ := key fmt64
    refine ⟨r, ?_, r2, r3⟩
    rw [hc] at hmap
    simp only [Option.some.injEq] at hmap
    subst hmap
    simp only [floatVal, Option.some.injEq] at hv
    subst hv
    unfold FieldDesc.bytes
    rw [hc, hs]
    simp only [Conv.intoRaw, r1]
    rfl

/-- An unsigned field of the claim. -/
example : ∃ d ∈ allPackets, d.hasBuilder = true ∧ ∃ f ∈ d.fields, f.name = "pdop" ∧
    f.scale.isSome ∧ f.map = some .f32 ∧ intRange f.ty = some (0, 65535) := by
  decide +kernel

/-- C43 fails for finite values in the middle between two integers: the `f32` nearest to 0.35 is less
than 3.5 tenths, and the field gets 4. -/
theorem c43_not_nearest : ∃ d ∈ allPackets, d.hasBuilder = true ∧ ∃ f ∈ d.fields,
    f.name = "pdop" ∧ f.scale = some (mkRat 1 10) ∧ f.map = some .f32 ∧
    Fl.lit fmt32 (mkRat 35 100) = .fin (mkRat 11744051 33554432) ∧
    mkRat 11744051 33554432 / mkRat 1 10 < mkRat 7 2 ∧
    f.bytes (.f32 (.fin (mkRat 11744051 33554432))) = .ok (RawVal.u16 4).toLeBytes := by
  decide +kernel

end Ublox.Props
