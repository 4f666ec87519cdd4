import Verif.Model.Position
import Verif.Lemmas.Position
import Verif.Spec.Position
import Verif.Props.Packet

/-!
# C50 and C44: what scaled accessors return, positions and velocities
-/

namespace Ublox.Props

open Spec Gen

/-- The scaled fields of the readable packets. -/
def scaledReadB (f : FieldDesc) : Bool :=
  match f.scale with
  | none => true
  | some s => decide (s ≤ 1000000) && (intRange f.ty).isSome &&
    match f.map with
    | some .f32 => f.ty != .u32 && f.ty != .i32 && decide (1 / 1000000 ≤ s)
    | some .f64 => decide (mkRat 1 (2 ^ 200) ≤ s)
    | _ => false

theorem scaledRead_table :
    (allPackets.all fun d => d.kind == .send || d.fields.all scaledReadB) = true := by
  decide +kernel

theorem intOf_bound {ty : RawTy} {r : RawVal} {n : Int} (hr : r.ofTy ty = true)
    (hn : intOf r = some n) (ht : (intRange ty).isSome = true) : |(n : Rat)| ≤ 2 ^ (40 : Int) := by
  obtain ⟨⟨lo, hi⟩, hrg⟩ := Option.isSome_iff_exists.mp ht
  obtain ⟨m, hm, h0, h1⟩ := intOf_range hr hrg
  rw [hn] at hm
  cases hm
  have hb := intRange_f64 hrg
  have a3 := hb.hi33
  have a4 := hb.lo33
  have : |n| ≤ 2 ^ 40 := by
    rcases le_total 0 n with h | h
    · rw [abs_of_nonneg h]; omega
    · rw [abs_of_nonpos h]; omega
  have : ((|n| : Int) : Rat) ≤ ((2 ^ 40 : Int) : Rat) := by exact_mod_cast this
  push_cast at this
  exact this

/-- **C50** Every scaled accessor of every readable packet returns, for every payload, the integer in
the slot of its field times the scale of the declaration, up to a relative error of 2^-51 (`f64`) or
2^-22 (`f32`). -/
theorem c50_scaled {d : PackDesc} (hd : d ∈ allPackets) (hk : d.kind ≠ .send) {i : Nat}
    {f : FieldDesc} {s : Rat} (hf : d.fields[i]? = some f) (hs : f.scale = some s) {payload : Bytes}
    (hl : total d.fields ≤ payload.length) :
    ∃ (r : RawVal) (n : Int), r.ofTy f.ty = true ∧
      Denotes r ((payload.drop (start d.fields i)).take (width f.ty)) ∧ intOf r = some n ∧
      ((f.map = some .f64 ∧ ∃ x, d.get f.getName payload = .ok (.f64 x) ∧
          Approx 51 x (n * s) |n * s|) ∨
       (f.map = some .f32 ∧ ∃ x, d.get f.getName payload = .ok (.f32 x) ∧
          Approx 22 x (n * s) |n * s|)) := by
  have h1 := List.all_eq_true.mp scaledRead_table d hd
  rw [Bool.or_eq_true] at h1
  have h2 := (h1.resolve_left (by simpa using hk))
  have h3 := List.all_eq_true.mp h2 f (List.mem_of_getElem? hf)
  unfold scaledReadB at h3
  rw [hs] at h3
  simp only [Bool.and_eq_true, decide_eq_true_eq] at h3
  obtain ⟨⟨hs1, hrg⟩, h4⟩ := h3
  have hs60 : s ≤ 2 ^ (60 : Int) := hs1.trans (by norm_num)
  have ht : f.ty ≠ .tail := by rintro e; rw [e] at hrg; cases hrg
  obtain ⟨r, hr, hden, -, hmap⟩ := c21_accessor hd hk hf ht hl
  obtain ⟨⟨lo, hi⟩, hrg'⟩ := Option.isSome_iff_exists.mp hrg
  obtain ⟨n, hn, -, -⟩ := intOf_range hr hrg'
  have hb := intOf_bound hr hn hrg
  refine ⟨r, n, hr, hden, hn, ?_⟩
  revert h4
  split
  · rename_i hm
    intro h4
    simp only [Bool.and_eq_true, bne_iff_ne, decide_eq_true_eq] at h4
    obtain ⟨⟨hu, hi'⟩, hlow⟩ := h4
    obtain ⟨v, hv, hv'⟩ := mul_lit fmt32_ok (s := s) (n := n)
      (by refine le_trans ?_ hlow; norm_num [fmt32]) hs60 hb
    refine .inr ⟨hm, Fl.mul fmt32 (Fl.ofInt n) (Fl.lit fmt32 s), ?_, v, hv, hv'.trans ?_⟩
    · rw [(hmap (by rw [hm]; simp)).2]
      unfold FieldDesc.convert
      rw [hm, hs]
      have : r.toInt16? = some n := by
        revert hn hr hu hi'
        cases r <;> cases f.ty <;> simp [RawVal.ofTy, intOf, RawVal.toInt16?]
      simp only [Conv.convert, this]
      rfl
    · rw [div_eq_mul_inv]
      exact mul_le_mul_of_nonneg_left (by norm_num [fmt32]) (abs_nonneg _)
  · rename_i hm
    intro hlow
    simp only [decide_eq_true_eq] at hlow
    obtain ⟨v, hv, hv'⟩ := mul_lit fmt64_ok (s := s) (n := n)
      (by
        refine le_trans ?_ hlow
        have : (2 : Rat) ^ (fmt64.emin + fmt64.p) ≤ 2 ^ (-200 : Int) :=
          zpow_le_zpow_right₀ (by norm_num) (by decide)
        refine this.trans (le_of_eq ?_)
        rw [Rat.mkRat_eq_div]
        norm_num) hs60 hb
    refine .inl ⟨hm, Fl.mul fmt64 (Fl.ofInt n) (Fl.lit fmt64 s), ?_, v, hv, hv'.trans ?_⟩
    · rw [(hmap (by rw [hm]; simp)).2]
      unfold FieldDesc.convert
      rw [hm, hs]
      have : r.toInt? = some n := by
        revert hn; cases r <;> simp [intOf, RawVal.toInt?]
      simp only [Conv.convert, this]
      rfl
    · rw [div_eq_mul_inv]
      exact mul_le_mul_of_nonneg_left (by norm_num [fmt64]) (abs_nonneg _)
  · intro e; cases e

example : navDop_ ∈ allPackets ∧ navDop_.kind ≠ .send ∧
    (∃ f, navDop_.fields[2]? = some f ∧ f.scale = some (mkRat 1 100) ∧ f.map = some .f32) := by
  decide +kernel

/-- The unscaled float fields. -/
theorem unscaled_table :
    (allPackets.all fun d => d.fields.all fun f => f.scale.isSome || f.map != some .f32 &&
      (f.map != some .f64 || (intRange f.ty).isSome)) = true := by
  decide +kernel

/-- **C50** An accessor that converts to a float without scale returns the integer exactly. -/
theorem c50_unscaled {d : PackDesc} (hd : d ∈ allPackets) (hk : d.kind ≠ .send) {i : Nat}
    {f : FieldDesc} (hf : d.fields[i]? = some f) (hs : f.scale = none)
    (hm : f.map = some .f64 ∨ f.map = some .f32) {payload : Bytes}
    (hl : total d.fields ≤ payload.length) :
    ∃ (r : RawVal) (n : Int), r.ofTy f.ty = true ∧
      Denotes r ((payload.drop (start d.fields i)).take (width f.ty)) ∧ intOf r = some n ∧
      d.get f.getName payload = .ok (.f64 (.fin n)) := by
  have h1 := List.all_eq_true.mp (List.all_eq_true.mp unscaled_table d hd) f (List.mem_of_getElem? hf)
  rw [hs] at h1
  simp only [Option.isSome_none, Bool.false_or, Bool.and_eq_true, bne_iff_ne, ne_eq,
    Bool.or_eq_true] at h1
  obtain ⟨h2, h3⟩ := h1
  have hm' := hm.resolve_right h2
  have hrg := h3.resolve_left (not_not.mpr hm')
  have ht : f.ty ≠ .tail := by rintro e; rw [e] at hrg; cases hrg
  obtain ⟨r, hr, hden, -, hmap⟩ := c21_accessor hd hk hf ht hl
  obtain ⟨⟨lo, hi⟩, hrg'⟩ := Option.isSome_iff_exists.mp hrg
  obtain ⟨n, hn, -, -⟩ := intOf_range hr hrg'
  refine ⟨r, n, hr, hden, hn, ?_⟩
  rw [(hmap (by rw [hm']; simp)).2]
  unfold FieldDesc.convert
  rw [hm', hs]
  have : r.toInt? = some n := by
    revert hn; cases r <;> simp [intOf, RawVal.toInt?]
  simp only [Conv.convert, this]
  rfl

example : ∃ f, navHpPosEcef_.fields[3]? = some f ∧ f.scale = none ∧ f.map = some .f64 := by
  decide +kernel

/-! ## C44 -/

/-- A scaled `f64` accessor of a readable packet. -/
theorem getF64_scaled {d : PackDesc} (hd : d ∈ allPackets) (hk : d.kind ≠ .send) (i : Nat)
    {f : FieldDesc} {s : Rat} {name : String} {off : Nat} {p : Bytes} (hv : Valid d p)
    (hf : d.fields[i]? = some f) (hs : f.scale = some s) (hm : f.map = some .f64)
    (hn : f.getName = name) (ho : start d.fields i = off) :
    ∃ x, d.getF64 name p = .ok x ∧
      (f.ty = .i32 → ApproxRel x (i32At p off * s)) ∧
      (f.ty = .u32 → ApproxRel x (u32At p off * s)) ∧
      (f.ty = .i8 → ApproxRel x (i8At p off * s)) := by
  obtain ⟨r, n, hr, hden, hi, hc⟩ := c50_scaled hd hk hf hs (lenOk_total_le hv.1)
  rcases hc with ⟨-, x, hx, hx'⟩ | ⟨hc, -⟩
  · rw [hn] at hx
    rw [ho] at hden
    refine ⟨x, by unfold PackDesc.getF64; rw [hx]; rfl, ?_, ?_, ?_⟩
    all_goals
      intro ht
      rw [ht] at hr hden
      cases r <;> simp [RawVal.ofTy] at hr
      simp only [intOf, Option.some.injEq] at hi
      subst hi
    · rw [hden.2] at hx'; exact hx'
    · rw [hden.2] at hx'; exact hx'
    · rw [hden.2] at hx'; exact hx'
  · rw [hm] at hc; cases hc

/-- A conversion of a delivered packet to a position in degrees and metres. -/
def IsPosition (q : R Position) (lon lat alt : Rat) : Prop :=
  ∃ pos, q = .ok pos ∧ ApproxRel pos.lon lon ∧ ApproxRel pos.lat lat ∧ ApproxRel pos.alt alt

/-- A conversion to a velocity in metres per second and degrees. -/
def IsVelocity (q : R Velocity) (speed heading : Rat) : Prop :=
  ∃ v, q = .ok v ∧ ApproxRel v.speed speed ∧ ApproxRel v.heading heading

theorem valid_of {cls id : UInt8} {payload p : Bytes} {d : PackDesc}
    (h : matchPacket cls id payload = .ok (.ok (.known d p))) : Valid d p := (delivered h).2

/-- **C44** NAV-POSLLH to a position: longitude and latitude are sent in 1e-7 degrees at offsets 4
and 8, the height above mean sea level in millimetres at offset 16. -/
theorem c44_navPosLlh {cls id : UInt8} {payload p : Bytes}
    (h : matchPacket cls id payload = .ok (.ok (.known navPosLlh_ p))) :
    IsPosition (positionFromNavPosLlh p) (i32At p 4 / 10000000) (i32At p 8 / 10000000)
      (i32At p 16 / 1000) := by
  have hv := valid_of h
  have hd : navPosLlh_ ∈ allPackets := by decide +kernel
  have hk : navPosLlh_.kind ≠ .send := by decide
  obtain ⟨x, hx, hx', -, -⟩ := getF64_scaled hd hk 1 hv rfl rfl rfl (by rfl) (by decide +kernel : _ = 4)
  obtain ⟨y, hy, hy', -, -⟩ := getF64_scaled hd hk 2 hv rfl rfl rfl (by rfl) (by decide +kernel : _ = 8)
  obtain ⟨z, hz, hz', -, -⟩ := getF64_scaled hd hk 4 hv rfl rfl rfl (by rfl) (by decide +kernel : _ = 16)
  refine ⟨⟨x, y, z⟩, ?_, ?_, ?_, ?_⟩
  · unfold positionFromNavPosLlh
    simp only [FieldDesc.getName, Option.getD_some, Option.getD_none] at hx hy hz
    simp only [hx, hy, hz, Except.ok_bind]
    rfl
  · have := hx' rfl
    simpa [Rat.mkRat_eq_div, div_eq_mul_inv] using this
  · have := hy' rfl
    simpa [Rat.mkRat_eq_div, div_eq_mul_inv] using this
  · have := hz' rfl
    simpa [Rat.mkRat_eq_div, div_eq_mul_inv] using this

/-- **C44** NAV-PVT to a position. -/
theorem c44_navPvt_position {cls id : UInt8} {payload p : Bytes}
    (h : matchPacket cls id payload = .ok (.ok (.known navPvt_ p))) :
    IsPosition (positionFromNavPvt p) (i32At p 24 / 10000000) (i32At p 28 / 10000000)
      (i32At p 36 / 1000) := by
  have hv := valid_of h
  have hd : navPvt_ ∈ allPackets := by decide +kernel
  have hk : navPvt_.kind ≠ .send := by decide
  obtain ⟨x, hx, hx', -, -⟩ := getF64_scaled hd hk 14 hv rfl rfl rfl (by rfl) (by decide +kernel : _ = 24)
  obtain ⟨y, hy, hy', -, -⟩ := getF64_scaled hd hk 15 hv rfl rfl rfl (by rfl) (by decide +kernel : _ = 28)
  obtain ⟨z, hz, hz', -, -⟩ := getF64_scaled hd hk 17 hv rfl rfl rfl (by rfl) (by decide +kernel : _ = 36)
  refine ⟨⟨x, y, z⟩, ?_, ?_, ?_, ?_⟩
  · unfold positionFromNavPvt
    simp only [FieldDesc.getName, Option.getD_some, Option.getD_none] at hx hy hz
    simp only [hx, hy, hz, Except.ok_bind]
    rfl
  · have := hx' rfl
    simpa [Rat.mkRat_eq_div, div_eq_mul_inv] using this
  · have := hy' rfl
    simpa [Rat.mkRat_eq_div, div_eq_mul_inv] using this
  · have := hz' rfl
    simpa [Rat.mkRat_eq_div, div_eq_mul_inv] using this

/-- **C44** NAV-PVT to a velocity: ground speed in mm/s, heading in 1e-5 degrees. -/
theorem c44_navPvt_velocity {cls id : UInt8} {payload p : Bytes}
    (h : matchPacket cls id payload = .ok (.ok (.known navPvt_ p))) :
    IsVelocity (velocityFromNavPvt p) (u32At p 60 / 1000) (i32At p 64 / 100000) := by
  have hv := valid_of h
  have hd : navPvt_ ∈ allPackets := by decide +kernel
  have hk : navPvt_.kind ≠ .send := by decide
  obtain ⟨x, hx, -, hx', -⟩ := getF64_scaled hd hk 23 hv rfl rfl rfl (by rfl) (by decide +kernel : _ = 60)
  obtain ⟨y, hy, hy', -, -⟩ := getF64_scaled hd hk 24 hv rfl rfl rfl (by rfl) (by decide +kernel : _ = 64)
  refine ⟨⟨x, y⟩, ?_, ?_, ?_⟩
  · unfold velocityFromNavPvt
    simp only [FieldDesc.getName, Option.getD_some, Option.getD_none] at hx hy
    simp only [hx, hy, Except.ok_bind]
    rfl
  · have := hx' rfl
    simpa [Rat.mkRat_eq_div, div_eq_mul_inv] using this
  · have := hy' rfl
    simpa [Rat.mkRat_eq_div, div_eq_mul_inv] using this

/-- **C44** NAV-VELNED to a velocity: ground speed in cm/s, heading in 1e-5 degrees. -/
theorem c44_navVelNed {cls id : UInt8} {payload p : Bytes}
    (h : matchPacket cls id payload = .ok (.ok (.known navVelNed_ p))) :
    IsVelocity (velocityFromNavVelNed p) (u32At p 20 / 100) (i32At p 24 / 100000) := by
  have hv := valid_of h
  have hd : navVelNed_ ∈ allPackets := by decide +kernel
  have hk : navVelNed_.kind ≠ .send := by decide
  obtain ⟨x, hx, -, hx', -⟩ := getF64_scaled hd hk 5 hv rfl rfl rfl (by rfl) (by decide +kernel : _ = 20)
  obtain ⟨y, hy, hy', -, -⟩ := getF64_scaled hd hk 6 hv rfl rfl rfl (by rfl) (by decide +kernel : _ = 24)
  refine ⟨⟨x, y⟩, ?_, ?_, ?_⟩
  · unfold velocityFromNavVelNed
    simp only [FieldDesc.getName, Option.getD_some, Option.getD_none] at hx hy
    simp only [hx, hy, Except.ok_bind]
    rfl
  · have := hx' rfl
    simpa [Rat.mkRat_eq_div, div_eq_mul_inv] using this
  · have := hy' rfl
    simpa [Rat.mkRat_eq_div, div_eq_mul_inv] using this

/-- 180 degrees west of Greenwich, 45 degrees south, 1 m below the sea: the payload is delivered. -/
example :
    let p : Bytes := [0, 0, 0, 0, 0x00, 0x2e, 0xb6, 0x94, 0x80, 0x8b, 0x2d, 0xe5, 0, 0, 0, 0, 0x18, 0xfc, 0xff, 0xff] ++
      List.replicate 8 0
    matchPacket 0x01 0x02 p = .ok (.ok (.known navPosLlh_ p)) ∧
    i32At p 4 / 10000000 = -180 ∧ i32At p 8 / 10000000 = -45 ∧ i32At p 16 / 1000 = -1 := by
  decide +kernel

/-- The sum of two readings. -/
theorem sum_readings {x y : Fl} {m n : Int} {s t : Rat} (hx : ApproxRel x (m * s))
    (hy : ApproxRel y (n * t)) (hm : |(m : Rat)| ≤ 2 ^ 40) (hn : |(n : Rat)| ≤ 2 ^ 40)
    (hs : 1 / 2 ^ 60 ≤ s) (hs1 : s ≤ 1) (ht : 1 / 2 ^ 60 ≤ t) (ht1 : t ≤ 1) :
    ApproxSum (Fl.add fmt64 x y) (m * s) (n * t) := by
  obtain ⟨va, ha, hae⟩ := hx
  obtain ⟨vb, hb, hbe⟩ := hy
  have hs0 : 0 < s := lt_of_lt_of_le (by norm_num) hs
  have ht0 : 0 < t := lt_of_lt_of_le (by norm_num) ht
  have bound : ∀ {k : Int} {r : Rat}, |(k : Rat)| ≤ 2 ^ 40 → 0 < r → r ≤ 1 → |(k : Rat) * r| ≤ 2 ^ 40 := by
    intro k r hk hr0 hr1
    rw [abs_mul, abs_of_pos hr0]
    have := mul_le_mul hk hr1 hr0.le (by positivity)
    linarith
  have low : ∀ {k : Int} {r : Rat}, k ≠ 0 → 1 / 2 ^ 60 ≤ r → 1 / 2 ^ 60 ≤ |(k : Rat) * r| := by
    intro k r hk hr
    have hr0 : 0 < r := lt_of_lt_of_le (by norm_num) hr
    rw [abs_mul, abs_of_pos hr0]
    have : (1 : Rat) ≤ |(k : Rat)| := by
      have : 1 ≤ |k| := Int.one_le_abs hk
      exact_mod_cast this
    have := mul_le_mul_of_nonneg_right this hr0.le
    linarith
  have small : ∀ q : Rat, |q| / 2 ^ 51 ≤ |q| := fun q =>
    div_le_self (abs_nonneg _) (by norm_num)
  obtain ⟨v, hv, hve⟩ := sum64 ha hb hae hbe le_rfl le_rfl (small _) (small _)
    (by
      have := bound hm hs0 hs1
      have := bound hn ht0 ht1
      have : (2 : Rat) ^ 40 + 2 ^ 40 ≤ 2 ^ 60 := by norm_num
      linarith)
    (by
      by_cases h1 : m = 0
      · by_cases h2 : n = 0
        · left; simp [h1, h2]
        · right
          have := low h2 ht
          have := abs_nonneg ((m : Rat) * s)
          linarith
      · right
        have := low h1 hs
        have := abs_nonneg ((n : Rat) * t)
        linarith)
  refine ⟨v, hv, hve.trans ?_⟩
  have h1 := abs_nonneg ((m : Rat) * s)
  have h2 := abs_nonneg ((n : Rat) * t)
  linarith

theorem signed_bound {w : Nat} (hw : w ≤ 4) (bs : Bytes) (o : Nat) :
    |((signedOf (8 * w) (leNat ((bs.drop o).take w)) : Int) : Rat)| ≤ 2 ^ 40 := by
  have h1 := leNat_lt ((bs.drop o).take w)
  have h2 : 256 ^ ((bs.drop o).take w).length ≤ 256 ^ 4 := by
    refine Nat.pow_le_pow_right (by norm_num) ?_
    rw [List.length_take]; omega
  have h3 : (2 : Int) ^ (8 * w) ≤ 2 ^ 32 := pow_le_pow_right₀ (by norm_num) (by omega)
  have h4 : (0 : Int) < 2 ^ (8 * w) := by positivity
  have : |signedOf (8 * w) (leNat ((bs.drop o).take w))| ≤ 2 ^ 40 := by
    unfold signedOf
    rw [abs_le]
    split <;> omega
  have : ((|signedOf (8 * w) (leNat ((bs.drop o).take w))| : Int) : Rat) ≤ ((2 ^ 40 : Int) : Rat) := by
    exact_mod_cast this
  push_cast at this
  exact this

theorem sum_at {x y : Fl} {p : Bytes} {o o' : Nat} {s t : Rat} (hx : ApproxRel x (i32At p o * s))
    (hy : ApproxRel y (i8At p o' * t)) (hs : 1 / 2 ^ 60 ≤ s) (hs1 : s ≤ 1) (ht : 1 / 2 ^ 60 ≤ t)
    (ht1 : t ≤ 1) : ApproxSum (Fl.add fmt64 x y) (i32At p o * s) (i8At p o' * t) :=
  sum_readings hx hy (signed_bound (w := 4) (by omega) p o) (signed_bound (w := 1) (by omega) p o')
    hs hs1 ht ht1

/-- What `Position::from(&NavHpPosLlhRef)` computes. -/
theorem navHpPosLlh_value {p : Bytes} (hv : Valid navHpPosLlh_ p) :
    ∃ pos, positionFromNavHpPosLlh p = .ok pos ∧
      ApproxSum pos.lon (i32At p 8 / 10000000) (i8At p 24 / 1000000000) ∧
      ApproxSum pos.lat (i32At p 12 / 10000000) (i8At p 25 / 1000000000) ∧
      ApproxSum pos.alt (i32At p 20 / 1000) (i8At p 27 / 10) := by
  have hd : navHpPosLlh_ ∈ allPackets := by decide +kernel
  have hk : navHpPosLlh_.kind ≠ .send := by decide
  obtain ⟨x, hx, hx', -, -⟩ := getF64_scaled hd hk 3 hv rfl rfl rfl (by rfl) (by decide +kernel : _ = 8)
  obtain ⟨y, hy, hy', -, -⟩ := getF64_scaled hd hk 4 hv rfl rfl rfl (by rfl) (by decide +kernel : _ = 12)
  obtain ⟨z, hz, hz', -, -⟩ := getF64_scaled hd hk 6 hv rfl rfl rfl (by rfl) (by decide +kernel : _ = 20)
  obtain ⟨a, ha, -, -, ha'⟩ := getF64_scaled hd hk 7 hv rfl rfl rfl (by rfl) (by decide +kernel : _ = 24)
  obtain ⟨b, hb, -, -, hb'⟩ := getF64_scaled hd hk 8 hv rfl rfl rfl (by rfl) (by decide +kernel : _ = 25)
  obtain ⟨c, hc, -, -, hc'⟩ := getF64_scaled hd hk 10 hv rfl rfl rfl (by rfl) (by decide +kernel : _ = 27)
  refine ⟨⟨Fl.add fmt64 x a, Fl.add fmt64 y b, Fl.add fmt64 z c⟩, ?_, ?_, ?_, ?_⟩
  · unfold positionFromNavHpPosLlh
    simp only [FieldDesc.getName, Option.getD_some, Option.getD_none] at hx hy hz ha hb hc
    simp only [hx, hy, hz, ha, hb, hc, Except.ok_bind]
    rfl
  · have := sum_at (hx' rfl) (ha' rfl) (by rw [Rat.mkRat_eq_div]; norm_num)
      (by rw [Rat.mkRat_eq_div]; norm_num) (by rw [Rat.mkRat_eq_div]; norm_num)
      (by rw [Rat.mkRat_eq_div]; norm_num)
    simpa [Rat.mkRat_eq_div, div_eq_mul_inv] using this
  · have := sum_at (hy' rfl) (hb' rfl) (by rw [Rat.mkRat_eq_div]; norm_num)
      (by rw [Rat.mkRat_eq_div]; norm_num) (by rw [Rat.mkRat_eq_div]; norm_num)
      (by rw [Rat.mkRat_eq_div]; norm_num)
    simpa [Rat.mkRat_eq_div, div_eq_mul_inv] using this
  · have := sum_at (hz' rfl) (hc' rfl) (by rw [Rat.mkRat_eq_div]; norm_num)
      (by rw [Rat.mkRat_eq_div]; norm_num) (by rw [Rat.mkRat_eq_div]; norm_num)
      (by rw [Rat.mkRat_eq_div]; norm_num)
    simpa [Rat.mkRat_eq_div, div_eq_mul_inv] using this

/-- **C44** (partial) NAV-HPPOSLLH to a position: the longitude is `lon` (1e-7 degrees, offset 8)
plus `lon_hp` (1e-9 degrees, offset 24) and likewise for the latitude.  The altitude should be
`height_msl` (mm, offset 20) plus `height_hp_msl` (0.1 mm, offset 27); this holds if `height_hp_msl`
is zero.  It is false otherwise, see `c44_hp_altitude_wrong`. -/
theorem c44_navHpPosLlh_partial {cls id : UInt8} {payload p : Bytes}
    (h : matchPacket cls id payload = .ok (.ok (.known navHpPosLlh_ p))) :
    ∃ pos, positionFromNavHpPosLlh p = .ok pos ∧
      ApproxSum pos.lon (i32At p 8 / 10000000) (i8At p 24 / 1000000000) ∧
      ApproxSum pos.lat (i32At p 12 / 10000000) (i8At p 25 / 1000000000) ∧
      (i8At p 27 = 0 → ApproxSum pos.alt (i32At p 20 / 1000) (i8At p 27 / 10000)) := by
  obtain ⟨pos, h1, h2, h3, h4⟩ := navHpPosLlh_value (valid_of h)
  refine ⟨pos, h1, h2, h3, fun h0 => ?_⟩
  rw [h0, zero_div] at h4
  rw [h0, zero_div]
  exact h4

/-- **C44** The altitude of a position from NAV-HPPOSLLH: the tenths of millimetres of
`height_hp_msl` are counted as tenths of metres, for every payload. -/
theorem c44_hp_altitude_as_metres {cls id : UInt8} {payload p : Bytes}
    (h : matchPacket cls id payload = .ok (.ok (.known navHpPosLlh_ p))) :
    ∃ pos, positionFromNavHpPosLlh p = .ok pos ∧
      ApproxSum pos.alt (i32At p 20 / 1000) (i8At p 27 / 10) := by
  obtain ⟨pos, h1, -, -, h4⟩ := navHpPosLlh_value (valid_of h)
  exact ⟨pos, h1, h4⟩

/-- A NAV-HPPOSLLH payload with `height_msl` 100 m and `height_hp_msl` 0.9 mm. -/
def hpPayload : Bytes :=
  List.replicate 20 0 ++ [0xa0, 0x86, 0x01, 0x00, 0, 0, 0, 9] ++ List.replicate 8 0

/-- **C44** is false for the altitude from NAV-HPPOSLLH: 0.9 mm above 100 m are reported as 100.9 m. -/
theorem c44_hp_altitude_wrong :
    matchPacket 0x01 0x14 hpPayload = .ok (.ok (.known navHpPosLlh_ hpPayload)) ∧
    ∀ pos, positionFromNavHpPosLlh hpPayload = .ok pos →
      ¬ ApproxSum pos.alt (i32At hpPayload 20 / 1000) (i8At hpPayload 27 / 10000) := by
  have hm : matchPacket 0x01 0x14 hpPayload = .ok (.ok (.known navHpPosLlh_ hpPayload)) := by
    decide +kernel
  refine ⟨hm, fun pos hpos hbad => ?_⟩
  obtain ⟨pos', h1, h2⟩ := c44_hp_altitude_as_metres hm
  rw [hpos] at h1
  cases h1
  obtain ⟨v, hv, hve⟩ := h2
  obtain ⟨w, hw, hwe⟩ := hbad
  rw [hv] at hw
  cases hw
  have e1 : i32At hpPayload 20 = 100000 := by decide +kernel
  have e2 : i8At hpPayload 27 = 9 := by decide +kernel
  rw [e1, e2] at hve hwe
  have h3 := (abs_le.mp hve).1
  have h4 := (abs_le.mp hwe).2
  rw [abs_of_pos (by norm_num), abs_of_pos (by norm_num)] at h3 h4
  norm_num at h3 h4
  linarith

/-! ### NAV-HPPOSECEF -/

/-- An unscaled `f64` accessor. -/
theorem getF64_unscaled {d : PackDesc} (hd : d ∈ allPackets) (hk : d.kind ≠ .send) (i : Nat)
    {f : FieldDesc} {name : String} {off : Nat} {p : Bytes} (hv : Valid d p)
    (hf : d.fields[i]? = some f) (hs : f.scale = none) (hm : f.map = some .f64)
    (ht : f.ty = .i32) (hn : f.getName = name) (ho : start d.fields i = off) :
    d.getF64 name p = .ok (.fin (i32At p off)) := by
  obtain ⟨r, n, hr, hden, hi, hc⟩ := c50_unscaled hd hk hf hs (.inl hm) (lenOk_total_le hv.1)
  rw [hn] at hc
  rw [ho] at hden
  rw [ht] at hr hden
  cases r <;> simp [RawVal.ofTy] at hr
  simp only [intOf, Option.some.injEq] at hi
  subst hi
  unfold PackDesc.getF64
  rw [hc]
  rw [hden.2]
  rfl

/-- One coordinate: `10e-2 * (cm + 0.1 * mm)` is a tenth of the coordinate in centimetres. -/
theorem ecef_value {p : Bytes} {o o' : Nat} {y : Fl} (hy : ApproxRel y (i8At p o' * mkRat 1 10)) :
    Approx 48 (ecefCoordinate (.fin (i32At p o)) y) ((i32At p o + i8At p o' / 100) / 10)
      ((|i32At p o| + |i8At p o'| / 100) / 10) := by
  have hten : mkRat 1 10 = 1 / 10 := by rw [Rat.mkRat_eq_div]; norm_num
  have b1 := signed_bound (w := 4) (by omega) p o
  have b2 := signed_bound (w := 1) (by omega) p o'
  change |i32At p o| ≤ _ at b1
  change |i8At p o'| ≤ _ at b2
  have i1 : i32At p o = 0 ∨ 1 ≤ |i32At p o| := by
    unfold i32At
    generalize signedOf 32 (leNat ((p.drop o).take 4)) = n
    by_cases h : n = 0
    · left; rw [h]; rfl
    · right
      have : 1 ≤ |n| := Int.one_le_abs h
      exact_mod_cast this
  have i2 : i8At p o' = 0 ∨ 1 ≤ |i8At p o'| := by
    unfold i8At
    generalize signedOf 8 (leNat ((p.drop o').take 1)) = n
    by_cases h : n = 0
    · left; rw [h]; rfl
    · right
      have : 1 ≤ |n| := Int.one_le_abs h
      exact_mod_cast this
  generalize i32At p o = a at *
  generalize i8At p o' = b at *
  rw [hten] at hy
  obtain ⟨vy, hvy, hye⟩ := hy
  have hb0 := abs_nonneg b
  have ha0 := abs_nonneg a
  have eb : |b * (1 / 10)| = |b| * (1 / 10) := by rw [abs_mul, abs_of_pos (by norm_num : (0 : Rat) < 1 / 10)]
  rw [eb] at hye
  unfold ecefCoordinate
  rw [hten]
  obtain ⟨vc, hvc, hce⟩ := mul64 (s := 1 / 10) hvy hye (by rw [eb])
    (by linarith) (by norm_num) (by norm_num) (by linarith)
    (by
      rcases i2 with h | h
      · left; rw [h]; simp
      · right
        have : (1 : Rat) / 2 ^ 200 * 2 ^ 53 ≤ 1 * (1 / 10) * (1 / 10) := by norm_num
        linarith)
  have ec : |b * (1 / 10) * (1 / 10)| = |b| / 100 := by
    rw [abs_mul, eb, abs_of_pos (by norm_num : (0 : Rat) < 1 / 10)]; ring
  obtain ⟨vs, hvs, hse⟩ := sum64 (x := .fin a) (va := a) (a := a) (e1 := 0) rfl hvc (by simp) hce
    le_rfl (le_of_eq ec) ha0 (by linarith) (by linarith)
    (by
      rcases i1 with h | h
      · rcases i2 with h' | h'
        · left; rw [h, h']; simp
        · right; linarith
      · right; linarith)
  obtain ⟨vr, hvr, hre⟩ := mul64 (s := 1 / 10) (m := |a| + |b| / 100) hvs hse
    (by refine (abs_add_le _ _).trans ?_; rw [ec])
    (by linarith) (by norm_num) (by norm_num) (by linarith)
    (by
      have e : (1 : Rat) / 2 ^ 200 * 2 ^ 53 ≤ 1 / 1000 := by norm_num
      rcases i1 with h | h
      · rcases i2 with h' | h'
        · left; rw [h, h']; simp
        · right; linarith
      · right; linarith)
  refine ⟨vr, hvr, ?_⟩
  have e : (a + b / 100) / 10 = (a + b * (1 / 10) * (1 / 10)) * (1 / 10) := by ring
  rw [e]
  refine hre.trans ?_
  linarith

/-- A position in metres. -/
def IsEcef (q : R PositionECEF) (x y z : Rat × Rat) : Prop :=
  ∃ pos, q = .ok pos ∧ Approx 48 pos.x (x.1 + x.2) (|x.1| + |x.2|) ∧
    Approx 48 pos.y (y.1 + y.2) (|y.1| + |y.2|) ∧ Approx 48 pos.z (z.1 + z.2) (|z.1| + |z.2|)

/-- **C44** NAV-HPPOSECEF to a position: the documented coordinate in centimetres is `ecef_x + 0.01 *
ecef_x_hp`; the result is a tenth of it, for every payload. -/
theorem c44_ecef_decimetres {cls id : UInt8} {payload p : Bytes}
    (h : matchPacket cls id payload = .ok (.ok (.known navHpPosEcef_ p))) :
    IsEcef (positionFromNavHpPosEcef p) (i32At p 8 / 10, i8At p 20 / 1000)
      (i32At p 12 / 10, i8At p 21 / 1000) (i32At p 16 / 10, i8At p 22 / 1000) := by
  have hv := valid_of h
  have hd : navHpPosEcef_ ∈ allPackets := by decide +kernel
  have hk : navHpPosEcef_.kind ≠ .send := by decide
  have hx := getF64_unscaled hd hk 3 hv rfl rfl rfl rfl (by rfl) (by decide +kernel : _ = 8)
  have hy := getF64_unscaled hd hk 4 hv rfl rfl rfl rfl (by rfl) (by decide +kernel : _ = 12)
  have hz := getF64_unscaled hd hk 5 hv rfl rfl rfl rfl (by rfl) (by decide +kernel : _ = 16)
  obtain ⟨a, ha, -, -, ha'⟩ := getF64_scaled hd hk 6 hv rfl rfl rfl (by rfl) (by decide +kernel : _ = 20)
  obtain ⟨b, hb, -, -, hb'⟩ := getF64_scaled hd hk 7 hv rfl rfl rfl (by rfl) (by decide +kernel : _ = 21)
  obtain ⟨c, hc, -, -, hc'⟩ := getF64_scaled hd hk 8 hv rfl rfl rfl (by rfl) (by decide +kernel : _ = 22)
  have conv : ∀ {q : Fl} {m n : Rat}, Approx 48 q ((m + n / 100) / 10) ((|m| + |n| / 100) / 10) →
      Approx 48 q (m / 10 + n / 1000) (|m / 10| + |n / 1000|) := by
    intro q m n hq
    have e1 : (m + n / 100) / 10 = m / 10 + n / 1000 := by ring
    have e2 : (|m| + |n| / 100) / 10 = |m / 10| + |n / 1000| := by
      rw [abs_div, abs_div, abs_of_pos (by norm_num : (0 : Rat) < 10),
        abs_of_pos (by norm_num : (0 : Rat) < 1000)]
      ring
    rwa [e1, e2] at hq
  refine ⟨⟨ecefCoordinate _ a, ecefCoordinate _ b, ecefCoordinate _ c⟩, ?_,
    conv (ecef_value (o := 8) (ha' rfl)), conv (ecef_value (o := 12) (hb' rfl)),
    conv (ecef_value (o := 16) (hc' rfl))⟩
  unfold positionFromNavHpPosEcef
  simp only [FieldDesc.getName, Option.getD_some, Option.getD_none] at hx hy hz ha hb hc
  simp only [hx, hy, hz, ha, hb, hc, Except.ok_bind]
  rfl

/-- A NAV-HPPOSECEF payload with `ecef_x` 100 cm and everything else zero. -/
def ecefPayload : Bytes := List.replicate 8 0 ++ [100, 0, 0, 0] ++ List.replicate 16 0

/-- **C44** is false for NAV-HPPOSECEF: one metre is reported as ten. -/
theorem c44_ecef_wrong :
    matchPacket 0x01 0x13 ecefPayload = .ok (.ok (.known navHpPosEcef_ ecefPayload)) ∧
    ¬ IsEcef (positionFromNavHpPosEcef ecefPayload)
      (i32At ecefPayload 8 / 100, i8At ecefPayload 20 / 10000)
      (i32At ecefPayload 12 / 100, i8At ecefPayload 21 / 10000)
      (i32At ecefPayload 16 / 100, i8At ecefPayload 22 / 10000) := by
  have hm : matchPacket 0x01 0x13 ecefPayload = .ok (.ok (.known navHpPosEcef_ ecefPayload)) := by
    decide +kernel
  refine ⟨hm, ?_⟩
  rintro ⟨pos, hpos, hbad, -, -⟩
  obtain ⟨pos', h1, h2, -, -⟩ := c44_ecef_decimetres hm
  rw [hpos] at h1
  cases h1
  obtain ⟨v, hv, hve⟩ := h2
  obtain ⟨w, hw, hwe⟩ := hbad
  rw [hv] at hw
  cases hw
  have e1 : i32At ecefPayload 8 = 100 := by decide +kernel
  have e2 : i8At ecefPayload 20 = 0 := by decide +kernel
  rw [e1, e2] at hve hwe
  have h3 := (abs_le.mp hve).1
  have h4 := (abs_le.mp hwe).2
  norm_num at h3 h4
  linarith

end Ublox.Props
