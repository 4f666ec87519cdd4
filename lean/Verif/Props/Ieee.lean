import Verif.Lemmas.Exact
import Verif.Props.Scale
import Verif.Props.AidIni

/-!
# C90: physical values are correctly rounded, step by step

`binary32` and `binary64` are the formats of IEEE 754 with its rounding to nearest, ties to even.
-/

namespace Ublox.Props

open Spec Gen

/-- The format of a conversion to a float. -/
def formatOf : Conv → Binary
  | .f32 => binary32
  | _ => binary64

/-- **C90** Every number is rounded to exactly one number of the format. -/
theorem c90_rounding (q : Rat) :
    (∃ r, binary32.Rounds q r ∧ ∀ r', binary32.Rounds q r' → r' = r) ∧
    (∃ r, binary64.Rounds q r ∧ ∀ r', binary64.Rounds q r' → r' = r) :=
  ⟨⟨_, fmt32_ok.rounds q, fun _ h => h.unique (by decide) (fmt32_ok.rounds q)⟩,
    ⟨_, fmt64_ok.rounds q, fun _ h => h.unique (by decide) (fmt64_ok.rounds q)⟩⟩

/-- The one tenth of the source is not a tenth: its `f32` is 13421773 / 2^27. -/
example : binary32.Rounds (1 / 10) (13421773 / 2 ^ 27) := by
  have h := fmt32_ok.rounds (1 / 10)
  have e : fmt32.round (1 / 10) = 13421773 / 2 ^ 27 := by decide +kernel
  rw [e] at h
  exact h

theorem scaled_low32 {s : Rat} (h : 1 / 1000000 ≤ s) : (2 : Rat) ^ (fmt32.emin + fmt32.p) ≤ s := by
  refine le_trans ?_ h; norm_num [fmt32]

theorem scaled_low64 {s : Rat} (h : mkRat 1 (2 ^ 200) ≤ s) : (2 : Rat) ^ (fmt64.emin + fmt64.p) ≤ s := by
  refine le_trans ?_ h
  have : (2 : Rat) ^ (fmt64.emin + fmt64.p) ≤ 2 ^ (-200 : Int) :=
    zpow_le_zpow_right₀ (by norm_num) (by decide)
  refine this.trans (le_of_eq ?_)
  rw [Rat.mkRat_eq_div]
  norm_num

/-- **C90** Every scaled accessor of every readable packet returns, for every payload, the product of
the integer in the slot of its field and of the scale of the declaration, both correctly rounded, in
the format of the declaration; it is finite, and no negative zero. -/
theorem c90_accessor {d : PackDesc} (hd : d ∈ allPackets) (hk : d.kind ≠ .send) {i : Nat}
    {f : FieldDesc} {s : Rat} (hf : d.fields[i]? = some f) (hs : f.scale = some s) {payload : Bytes}
    (hl : total d.fields ≤ payload.length) :
    ∃ (r : RawVal) (n : Int) (c : Conv) (x : Rat), r.ofTy f.ty = true ∧
      Denotes r ((payload.drop (start d.fields i)).take (width f.ty)) ∧ intOf r = some n ∧
      f.map = some c ∧ some (d.get f.getName payload) = (floatVal c (.fin x)).map .ok ∧
      (formatOf c).Times n s x ∧ |x| < 2 ^ (formatOf c).limit := by
  have h1 := List.all_eq_true.mp scaledRead_table d hd
  rw [Bool.or_eq_true] at h1
  have h2 := (h1.resolve_left (by simpa using hk))
  have h3 := List.all_eq_true.mp h2 f (List.mem_of_getElem? hf)
  unfold scaledReadB at h3
  rw [hs] at h3
  simp only [Bool.and_eq_true, decide_eq_true_eq] at h3
  obtain ⟨⟨hs1, hrg⟩, h4⟩ := h3
  have hs60 : s ≤ 2 ^ (60 : Int) := hs1.trans (by norm_num)
  have ht : f.ty ≠ .tail := by rintro e; rw [e] at hrg; cases hrg
  obtain ⟨r, hr, hden, -, hmap⟩ := c21_accessor hd hk hf ht hl
  obtain ⟨⟨lo, hi⟩, hrg'⟩ := Option.isSome_iff_exists.mp hrg
  obtain ⟨n, hn, -, -⟩ := intOf_range hr hrg'
  have hb := intOf_bound hr hn hrg
  refine ⟨r, n, (?_ : ∃ c x, _)⟩
  revert h4
  split
  · rename_i hm
    intro h4
    simp only [Bool.and_eq_true, bne_iff_ne, decide_eq_true_eq] at h4
    obtain ⟨⟨hu, hi'⟩, hlow⟩ := h4
    obtain ⟨x, hx, hx', hx2⟩ := mul_lit_exact fmt32_ok (s := s) (n := n) (scaled_low32 hlow) hs60 hb
    refine ⟨.f32, x, hr, hden, hn, hm, ?_, hx', hx2⟩
    rw [(hmap (by rw [hm]; simp)).2]
    unfold FieldDesc.convert
    rw [hm, hs]
    have : r.toInt16? = some n := by
      revert hn hr hu hi'
      cases r <;> cases f.ty <;> simp [RawVal.ofTy, intOf, RawVal.toInt16?]
    simp only [Conv.convert, this, floatVal, Option.map_some]
    rw [← hx]
    rfl
  · rename_i hm
    intro hlow
    simp only [decide_eq_true_eq] at hlow
    obtain ⟨x, hx, hx', hx2⟩ := mul_lit_exact fmt64_ok (s := s) (n := n) (scaled_low64 hlow) hs60 hb
    refine ⟨.f64, x, hr, hden, hn, hm, ?_, hx', hx2⟩
    rw [(hmap (by rw [hm]; simp)).2]
    unfold FieldDesc.convert
    rw [hm, hs]
    have : r.toInt? = some n := by
      revert hn; cases r <;> simp [intOf, RawVal.toInt?]
    simp only [Conv.convert, this, floatVal, Option.map_some]
    rw [← hx]
    rfl
  · intro e; cases e

/-- **C90** What a builder sends for a finite float with the value `q` in a scaled field: the scale of
the declaration is rounded to `c`, its inverse to `g`, the product of `q` and `g` to `y`; `y` is rounded
to an integer, halves away from zero, and clamped to the range of the type. -/
theorem c90_builder {d : PackDesc} {f : FieldDesc} {s q : Rat} {c : Conv} {x : Fl} {v : Val}
    (hd : d ∈ allPackets) (hb : d.hasBuilder = true) (hf : f ∈ d.fields) (hs : f.scale = some s)
    (hc : f.map = some c) (hv : floatVal c x = some v) (hx : x.val? = some q) :
    ∃ r lo hi k g y m n, f.bytes v = .ok r.toLeBytes ∧ r.ofTy f.ty = true ∧ intOf r = some n ∧
      intRange f.ty = some (lo, hi) ∧ (formatOf c).Rounds s k ∧ (formatOf c).Rounds (1 / k) g ∧
      (formatOf c).Rounds (q * g) y ∧ HalfAway y m ∧ Clamped lo hi m n := by
  obtain ⟨lo, hi, hso, hrg, hcase⟩ := scaled_field hd hb hf hs
  rcases hcase with ⟨hmap, ho, hu, hi'⟩ | ⟨hmap, ho⟩
  · rw [hc] at hmap
    simp only [Option.some.injEq] at hmap
    subst hmap
    simp only [floatVal, Option.some.injEq] at hv
    subst hv
    obtain ⟨r, k, g, y, m, n, h1, h2, h3, h4, h5, h6, h7, h8⟩ := asRaw_exact fmt32_ok hso hrg ho hx
    refine ⟨r, lo, hi, k, g, y, m, n, ?_, h7, h8, hrg, h1, h2, h3, h4, h5⟩
    unfold FieldDesc.bytes
    rw [hc, hs]
    simp only [Conv.intoRaw]
    rw [h6]; rfl
  · rw [hc] at hmap
    simp only [Option.some.injEq] at hmap
    subst hmap
    simp only [floatVal, Option.some.injEq] at hv
    subst hv
    obtain ⟨r, k, g, y, m, n, h1, h2, h3, h4, h5, h6, h7, h8⟩ := asRaw_exact fmt64_ok hso hrg ho hx
    refine ⟨r, lo, hi, k, g, y, m, n, ?_, h7, h8, hrg, h1, h2, h3, h4, h5⟩
    unfold FieldDesc.bytes
    rw [hc, hs]
    simp only [Conv.intoRaw]
    rw [h6]; rfl

/-- Both directions in one field. -/
example : ∃ d ∈ allPackets, d.hasBuilder = true ∧ d.kind ≠ .send ∧ ∃ f ∈ d.fields, f.name = "pdop" ∧
    f.scale = some (mkRat 1 10) ∧ f.map = some .f32 ∧
    f.bytes (.f32 (.fin (5 / 2))) = .ok [25, 0] := by decide +kernel

/-! ## Positions and velocities -/

/-- A scaled `f64` accessor, exactly. -/
theorem getF64_exact {d : PackDesc} (hd : d ∈ allPackets) (hk : d.kind ≠ .send) (i : Nat)
    {f : FieldDesc} {s : Rat} {name : String} {off : Nat} {p : Bytes} (hv : Valid d p)
    (hf : d.fields[i]? = some f) (hs : f.scale = some s) (hm : f.map = some .f64)
    (hn : f.getName = name) (ho : start d.fields i = off) :
    ∃ x, d.getF64 name p = .ok (.fin x) ∧
      (f.ty = .i32 → binary64.Times (i32At p off) s x) ∧
      (f.ty = .u32 → binary64.Times (u32At p off) s x) ∧
      (f.ty = .i8 → binary64.Times (i8At p off) s x) := by
  obtain ⟨r, n, c, x, hr, hden, hi, hm', hx, hx', -⟩ := c90_accessor hd hk hf hs (lenOk_total_le hv.1)
  rw [hm] at hm'
  cases hm'
  rw [hn] at hx
  rw [ho] at hden
  simp only [floatVal, Option.map_some, Option.some.injEq] at hx
  change binary64.Times n s x at hx'
  refine ⟨x, by unfold PackDesc.getF64; rw [hx]; rfl, ?_, ?_, ?_⟩
  all_goals
    intro ht
    rw [ht] at hr hden
    cases r <;> simp [RawVal.ofTy] at hr
    simp only [intOf, Option.some.injEq] at hi
    subst hi
  · rw [hden.2] at hx'; exact hx'
  · rw [hden.2] at hx'; exact hx'
  · rw [hden.2] at hx'; exact hx'

/-- **C90** NAV-POSLLH and NAV-PVT to a position, NAV-PVT and NAV-VELNED to a velocity: every
coordinate is the integer of the payload times the scale, both correctly rounded. -/
theorem c90_positions {cls id : UInt8} {payload p : Bytes} :
    (matchPacket cls id payload = .ok (.ok (.known navPosLlh_ p)) →
      ∃ x y z, positionFromNavPosLlh p = .ok ⟨.fin x, .fin y, .fin z⟩ ∧
        binary64.Times (i32At p 4) (1 / 10000000) x ∧ binary64.Times (i32At p 8) (1 / 10000000) y ∧
        binary64.Times (i32At p 16) (1 / 1000) z) ∧
    (matchPacket cls id payload = .ok (.ok (.known navPvt_ p)) →
      ∃ x y z, positionFromNavPvt p = .ok ⟨.fin x, .fin y, .fin z⟩ ∧
        binary64.Times (i32At p 24) (1 / 10000000) x ∧ binary64.Times (i32At p 28) (1 / 10000000) y ∧
        binary64.Times (i32At p 36) (1 / 1000) z) ∧
    (matchPacket cls id payload = .ok (.ok (.known navPvt_ p)) →
      ∃ x y, velocityFromNavPvt p = .ok ⟨.fin x, .fin y⟩ ∧
        binary64.Times (u32At p 60) (1 / 1000) x ∧ binary64.Times (i32At p 64) (1 / 100000) y) ∧
    (matchPacket cls id payload = .ok (.ok (.known navVelNed_ p)) →
      ∃ x y, velocityFromNavVelNed p = .ok ⟨.fin x, .fin y⟩ ∧
        binary64.Times (u32At p 20) (1 / 100) x ∧ binary64.Times (i32At p 24) (1 / 100000) y) := by
  refine ⟨fun h => ?_, fun h => ?_, fun h => ?_, fun h => ?_⟩
  · have hv := valid_of h
    have hd : navPosLlh_ ∈ allPackets := by decide +kernel
    have hk : navPosLlh_.kind ≠ .send := by decide
    obtain ⟨x, hx, hx', -, -⟩ := getF64_exact hd hk 1 hv rfl rfl rfl (by rfl) (by decide +kernel : _ = 4)
    obtain ⟨y, hy, hy', -, -⟩ := getF64_exact hd hk 2 hv rfl rfl rfl (by rfl) (by decide +kernel : _ = 8)
    obtain ⟨z, hz, hz', -, -⟩ := getF64_exact hd hk 4 hv rfl rfl rfl (by rfl) (by decide +kernel : _ = 16)
    refine ⟨x, y, z, ?_, ?_, ?_, ?_⟩
    · unfold positionFromNavPosLlh
      simp only [FieldDesc.getName, Option.getD_some, Option.getD_none] at hx hy hz
      simp only [hx, hy, hz, Except.ok_bind]
      rfl
    · simpa [Rat.mkRat_eq_div, div_eq_mul_inv] using hx' rfl
    · simpa [Rat.mkRat_eq_div, div_eq_mul_inv] using hy' rfl
    · simpa [Rat.mkRat_eq_div, div_eq_mul_inv] using hz' rfl
  · have hv := valid_of h
    have hd : navPvt_ ∈ allPackets := by decide +kernel
    have hk : navPvt_.kind ≠ .send := by decide
    obtain ⟨x, hx, hx', -, -⟩ := getF64_exact hd hk 14 hv rfl rfl rfl (by rfl) (by decide +kernel : _ = 24)
    obtain ⟨y, hy, hy', -, -⟩ := getF64_exact hd hk 15 hv rfl rfl rfl (by rfl) (by decide +kernel : _ = 28)
    obtain ⟨z, hz, hz', -, -⟩ := getF64_exact hd hk 17 hv rfl rfl rfl (by rfl) (by decide +kernel : _ = 36)
    refine ⟨x, y, z, ?_, ?_, ?_, ?_⟩
    · unfold positionFromNavPvt
      simp only [FieldDesc.getName, Option.getD_some, Option.getD_none] at hx hy hz
      simp only [hx, hy, hz, Except.ok_bind]
      rfl
    · simpa [Rat.mkRat_eq_div, div_eq_mul_inv] using hx' rfl
    · simpa [Rat.mkRat_eq_div, div_eq_mul_inv] using hy' rfl
    · simpa [Rat.mkRat_eq_div, div_eq_mul_inv] using hz' rfl
  · have hv := valid_of h
    have hd : navPvt_ ∈ allPackets := by decide +kernel
    have hk : navPvt_.kind ≠ .send := by decide
    obtain ⟨x, hx, -, hx', -⟩ := getF64_exact hd hk 23 hv rfl rfl rfl (by rfl) (by decide +kernel : _ = 60)
    obtain ⟨y, hy, hy', -, -⟩ := getF64_exact hd hk 24 hv rfl rfl rfl (by rfl) (by decide +kernel : _ = 64)
    refine ⟨x, y, ?_, ?_, ?_⟩
    · unfold velocityFromNavPvt
      simp only [FieldDesc.getName, Option.getD_some, Option.getD_none] at hx hy
      simp only [hx, hy, Except.ok_bind]
      rfl
    · simpa [Rat.mkRat_eq_div, div_eq_mul_inv] using hx' rfl
    · simpa [Rat.mkRat_eq_div, div_eq_mul_inv] using hy' rfl
  · have hv := valid_of h
    have hd : navVelNed_ ∈ allPackets := by decide +kernel
    have hk : navVelNed_.kind ≠ .send := by decide
    obtain ⟨x, hx, -, hx', -⟩ := getF64_exact hd hk 5 hv rfl rfl rfl (by rfl) (by decide +kernel : _ = 20)
    obtain ⟨y, hy, hy', -, -⟩ := getF64_exact hd hk 6 hv rfl rfl rfl (by rfl) (by decide +kernel : _ = 24)
    refine ⟨x, y, ?_, ?_, ?_⟩
    · unfold velocityFromNavVelNed
      simp only [FieldDesc.getName, Option.getD_some, Option.getD_none] at hx hy
      simp only [hx, hy, Except.ok_bind]
      rfl
    · simpa [Rat.mkRat_eq_div, div_eq_mul_inv] using hx' rfl
    · simpa [Rat.mkRat_eq_div, div_eq_mul_inv] using hy' rfl

/-- A reading is not too large to be added. -/
theorem times_small {q s x : Rat} (h : binary64.Times q s x) (hq : |q| ≤ 2 ^ 40) (hs : 0 ≤ s)
    (hs1 : s ≤ 1) : |x| ≤ 2 ^ 50 := by
  obtain ⟨c, h1, h2⟩ := h
  have e1 := h1.unique (by decide) (fmt64_ok.rounds s)
  have e2 := h2.unique (by decide) (fmt64_ok.rounds (q * c))
  have a1 := round_err_any fmt64 s
  have a2 := round_err_any fmt64 (q * c)
  rw [← e1, u64] at a1
  rw [← e2, u64] at a2
  have ht := tiny64
  have ht' : (1 : Rat) / 2 ^ 200 ≤ 1 / 4 := by norm_num
  rw [abs_of_nonneg hs] at a1
  have hc : |c| ≤ 2 := by
    have := abs_add_le (c - s) s
    rw [sub_add_cancel, abs_of_nonneg hs] at this
    linarith
  have hqc : |q * c| ≤ 2 ^ 40 * 2 := by
    rw [abs_mul]; exact mul_le_mul hq hc (abs_nonneg _) (by positivity)
  have := abs_add_le (x - q * c) (q * c)
  rw [sub_add_cancel] at this
  have b : (2 : Rat) ^ 40 * 2 * (1 / 2 ^ 53) + 1 / 4 + 2 ^ 40 * 2 ≤ 2 ^ 50 := by norm_num
  linarith

theorem i32At_small (p : Bytes) (o : Nat) : |i32At p o| ≤ 2 ^ 40 := signed_bound (w := 4) (by omega) p o
theorem i8At_small (p : Bytes) (o : Nat) : |i8At p o| ≤ 2 ^ 40 := signed_bound (w := 1) (by omega) p o

/-- Sum of two readings. -/
theorem add_readings {q s x q' s' x' : Rat} (h : binary64.Times q s x) (h' : binary64.Times q' s' x')
    (hq : |q| ≤ 2 ^ 40) (hq' : |q'| ≤ 2 ^ 40) (hs : 0 ≤ s) (hs1 : s ≤ 1) (hs' : 0 ≤ s') (hs1' : s' ≤ 1) :
    ∃ z, Fl.add fmt64 (.fin x) (.fin x') = .fin z ∧ binary64.Rounds (x + x') z := by
  have a := times_small h hq hs hs1
  have b := times_small h' hq' hs' hs1'
  refine add_exact fmt64_ok ?_
  refine (abs_add_le _ _).trans ?_
  have : (2 : Rat) ^ 50 + 2 ^ 50 ≤ 2 ^ (126 : Int) := by norm_num
  linarith

/-- **C90** NAV-HPPOSLLH to a position: both readings and their sum are correctly rounded. -/
theorem c90_hp_position {cls id : UInt8} {payload p : Bytes}
    (h : matchPacket cls id payload = .ok (.ok (.known navHpPosLlh_ p))) :
    ∃ x x' lon y y' lat z z' alt, positionFromNavHpPosLlh p = .ok ⟨.fin lon, .fin lat, .fin alt⟩ ∧
      binary64.Times (i32At p 8) (1 / 10000000) x ∧ binary64.Times (i8At p 24) (1 / 1000000000) x' ∧
      binary64.Rounds (x + x') lon ∧
      binary64.Times (i32At p 12) (1 / 10000000) y ∧ binary64.Times (i8At p 25) (1 / 1000000000) y' ∧
      binary64.Rounds (y + y') lat ∧
      binary64.Times (i32At p 20) (1 / 1000) z ∧ binary64.Times (i8At p 27) (1 / 10) z' ∧
      binary64.Rounds (z + z') alt := by
  have hv := valid_of h
  have hd : navHpPosLlh_ ∈ allPackets := by decide +kernel
  have hk : navHpPosLlh_.kind ≠ .send := by decide
  obtain ⟨x, hx, hx', -, -⟩ := getF64_exact hd hk 3 hv rfl rfl rfl (by rfl) (by decide +kernel : _ = 8)
  obtain ⟨y, hy, hy', -, -⟩ := getF64_exact hd hk 4 hv rfl rfl rfl (by rfl) (by decide +kernel : _ = 12)
  obtain ⟨z, hz, hz', -, -⟩ := getF64_exact hd hk 6 hv rfl rfl rfl (by rfl) (by decide +kernel : _ = 20)
  obtain ⟨a, ha, -, -, ha'⟩ := getF64_exact hd hk 7 hv rfl rfl rfl (by rfl) (by decide +kernel : _ = 24)
  obtain ⟨b, hb, -, -, hb'⟩ := getF64_exact hd hk 8 hv rfl rfl rfl (by rfl) (by decide +kernel : _ = 25)
  obtain ⟨c, hc, -, -, hc'⟩ := getF64_exact hd hk 10 hv rfl rfl rfl (by rfl) (by decide +kernel : _ = 27)
  have kx : binary64.Times (i32At p 8) (1 / 10000000) x := by
    simpa [Rat.mkRat_eq_div, div_eq_mul_inv] using hx' rfl
  have ky : binary64.Times (i32At p 12) (1 / 10000000) y := by
    simpa [Rat.mkRat_eq_div, div_eq_mul_inv] using hy' rfl
  have kz : binary64.Times (i32At p 20) (1 / 1000) z := by
    simpa [Rat.mkRat_eq_div, div_eq_mul_inv] using hz' rfl
  have ka : binary64.Times (i8At p 24) (1 / 1000000000) a := by
    simpa [Rat.mkRat_eq_div, div_eq_mul_inv] using ha' rfl
  have kb : binary64.Times (i8At p 25) (1 / 1000000000) b := by
    simpa [Rat.mkRat_eq_div, div_eq_mul_inv] using hb' rfl
  have kc : binary64.Times (i8At p 27) (1 / 10) c := by
    simpa [Rat.mkRat_eq_div, div_eq_mul_inv] using hc' rfl
  obtain ⟨lon, l1, l2⟩ := add_readings kx ka (i32At_small p 8) (i8At_small p 24) (by norm_num) (by norm_num)
    (by norm_num) (by norm_num)
  obtain ⟨lat, l3, l4⟩ := add_readings ky kb (i32At_small p 12) (i8At_small p 25) (by norm_num) (by norm_num)
    (by norm_num) (by norm_num)
  obtain ⟨alt, l5, l6⟩ := add_readings kz kc (i32At_small p 20) (i8At_small p 27) (by norm_num) (by norm_num)
    (by norm_num) (by norm_num)
  refine ⟨x, a, lon, y, b, lat, z, c, alt, ?_, kx, ka, l2, ky, kb, l4, kz, kc, l6⟩
  unfold positionFromNavHpPosLlh
  simp only [FieldDesc.getName, Option.getD_some, Option.getD_none] at hx hy hz ha hb hc
  simp only [hx, hy, hz, ha, hb, hc, Except.ok_bind, l1, l3, l5]
  rfl

/-- Payloads that are delivered, one with a high precision part. -/
example : matchPacket 0x01 0x14 hpPayload = .ok (.ok (.known navHpPosLlh_ hpPayload)) ∧
    matchPacket 0x01 0x13 ecefPayload = .ok (.ok (.known navHpPosEcef_ ecefPayload)) ∧
    i8At hpPayload 27 = 9 := by decide +kernel

/-- One coordinate of NAV-HPPOSECEF, with the integers `n` and `m` of the payload. -/
def EcefExactly (n m : Rat) (x : Fl) : Prop :=
  ∃ a b s v, x.val? = some v ∧ binary64.Times m (1 / 10) a ∧ binary64.Times a (1 / 10) b ∧
    binary64.Rounds (n + b) s ∧ binary64.Times s (1 / 10) v

theorem ecef_exact {p : Bytes} {o o' : Nat} {a : Rat} (ha : binary64.Times (i8At p o') (mkRat 1 10) a) :
    EcefExactly (i32At p o) (i8At p o') (ecefCoordinate (.fin (i32At p o)) (.fin a)) := by
  have hten : mkRat 1 10 = 1 / 10 := by rw [Rat.mkRat_eq_div]; norm_num
  unfold ecefCoordinate
  rw [hten] at ha ⊢
  have hlow : (2 : Rat) ^ (fmt64.emin + fmt64.p) ≤ 1 / 10 :=
    scaled_low64 (by rw [Rat.mkRat_eq_div]; norm_num)
  have a1 := times_small ha (i8At_small p o') (by norm_num) (by norm_num)
  obtain ⟨b, hb, hb'⟩ := lit_mul_exact fmt64_ok (x := .fin a) rfl hlow (by norm_num)
    (a1.trans (by norm_num))
  -- a second product with a tenth is not larger
  have b1 : |b| ≤ 2 ^ 52 := by
    obtain ⟨c, k1, k2⟩ := hb'
    have e1 := k1.unique (by decide) (fmt64_ok.rounds _)
    have e2 := k2.unique (by decide) (fmt64_ok.rounds _)
    have r1 := round_err_any fmt64 (1 / 10)
    have r2 := round_err_any fmt64 (a * c)
    rw [← e1, u64] at r1
    rw [← e2, u64] at r2
    have ht := tiny64
    have ht' : (1 : Rat) / 2 ^ 200 ≤ 1 / 4 := by norm_num
    rw [abs_of_pos (by norm_num : (0 : Rat) < 1 / 10)] at r1
    have hc : |c| ≤ 1 := by
      have := abs_add_le (c - 1 / 10) (1 / 10)
      rw [sub_add_cancel, abs_of_pos (by norm_num : (0 : Rat) < 1 / 10)] at this
      linarith
    have hac : |a * c| ≤ 2 ^ 50 * 1 := by
      rw [abs_mul]; exact mul_le_mul a1 hc (abs_nonneg _) (by positivity)
    have := abs_add_le (b - a * c) (a * c)
    rw [sub_add_cancel] at this
    have h : (2 : Rat) ^ 50 * 1 * (1 / 2 ^ 53) + 1 / 4 + 2 ^ 50 * 1 ≤ 2 ^ 52 := by norm_num
    linarith
  have n1 := i32At_small p o
  have hab : |i32At p o + b| ≤ 2 ^ 53 := by
    refine (abs_add_le _ _).trans ?_
    have : (2 : Rat) ^ 40 + 2 ^ 52 ≤ 2 ^ 53 := by norm_num
    linarith
  have hint : binary64.Rounds (i32At p o) (i32At p o) := by
    refine rounds_int fmt64_ok ?_
    have h : ((|signedOf 32 (leNat ((p.drop o).take 4))| : Int) : Rat) < ((2 ^ 53 : Int) : Rat) := by
      push_cast
      exact lt_of_le_of_lt n1 (by norm_num)
    exact_mod_cast h
  obtain ⟨s, hs, hs'⟩ := add_exact_val fmt64_ok (a := i32At p o) hb
    (by
      by_cases h0 : b = 0
      · left; rw [h0, add_zero]; exact hint
      · exact .inr h0)
    (hab.trans (by norm_num))
  have s1 : |s| ≤ 2 ^ 54 := by
    have e := hs'.unique (by decide) (fmt64_ok.rounds _)
    have r := round_err_any fmt64 (i32At p o + b)
    rw [← e, u64] at r
    have ht := tiny64
    have ht' : (1 : Rat) / 2 ^ 200 ≤ 1 / 4 := by norm_num
    have := abs_add_le (s - (i32At p o + b)) (i32At p o + b)
    rw [sub_add_cancel] at this
    have h : (2 : Rat) ^ 53 * (1 / 2 ^ 53) + 1 / 4 + 2 ^ 53 ≤ 2 ^ 54 := by norm_num
    linarith
  obtain ⟨v, hv, hv'⟩ := lit_mul_exact fmt64_ok hs hlow (by norm_num) (s1.trans (by norm_num))
  exact ⟨a, b, s, v, hv, ha, hb', hs', hv'⟩

/-- **C90** NAV-HPPOSECEF to a position: `10e-2 * (cm + 0.1 * mm)`, every step correctly rounded. -/
theorem c90_ecef {cls id : UInt8} {payload p : Bytes}
    (h : matchPacket cls id payload = .ok (.ok (.known navHpPosEcef_ p))) :
    ∃ pos, positionFromNavHpPosEcef p = .ok pos ∧ EcefExactly (i32At p 8) (i8At p 20) pos.x ∧
      EcefExactly (i32At p 12) (i8At p 21) pos.y ∧ EcefExactly (i32At p 16) (i8At p 22) pos.z := by
  have hv := valid_of h
  have hd : navHpPosEcef_ ∈ allPackets := by decide +kernel
  have hk : navHpPosEcef_.kind ≠ .send := by decide
  have hx := getF64_unscaled hd hk 3 hv rfl rfl rfl rfl (by rfl) (by decide +kernel : _ = 8)
  have hy := getF64_unscaled hd hk 4 hv rfl rfl rfl rfl (by rfl) (by decide +kernel : _ = 12)
  have hz := getF64_unscaled hd hk 5 hv rfl rfl rfl rfl (by rfl) (by decide +kernel : _ = 16)
  obtain ⟨a, ha, -, -, ha'⟩ := getF64_exact hd hk 6 hv rfl rfl rfl (by rfl) (by decide +kernel : _ = 20)
  obtain ⟨b, hb, -, -, hb'⟩ := getF64_exact hd hk 7 hv rfl rfl rfl (by rfl) (by decide +kernel : _ = 21)
  obtain ⟨c, hc, -, -, hc'⟩ := getF64_exact hd hk 8 hv rfl rfl rfl (by rfl) (by decide +kernel : _ = 22)
  refine ⟨⟨ecefCoordinate _ (.fin a), ecefCoordinate _ (.fin b), ecefCoordinate _ (.fin c)⟩, ?_,
    ecef_exact (o := 8) (ha' rfl), ecef_exact (o := 12) (hb' rfl), ecef_exact (o := 16) (hc' rfl)⟩
  unfold positionFromNavHpPosEcef
  simp only [FieldDesc.getName, Option.getD_some, Option.getD_none] at hx hy hz ha hb hc
  simp only [hx, hy, hz, ha, hb, hc, Except.ok_bind]
  rfl

/-- What is stored for a finite float `q` in units of `1 / k`: the product, correctly rounded, then
truncated toward zero and clamped to the range of `i32`. -/
def StoredExactly (k q : Rat) (m : Int32) : Prop :=
  ∃ y t, binary64.Rounds (q * k) y ∧ Towards0 y t ∧ Clamped (-2147483648) 2147483647 t m.toInt

theorem truncRat_exact (y : Rat) : Towards0 y (Fl.truncRat y) := by
  obtain ⟨h1, h2⟩ := truncRat_spec y
  unfold Towards0
  rcases lt_or_ge y 0 with h | h
  · obtain ⟨h3, h4⟩ := h2 h
    have h5 : Fl.truncRat y ≤ 0 := by
      have : ((Fl.truncRat y : Int) : Rat) < ((1 : Int) : Rat) := by push_cast; linarith
      have := (Int.cast_lt (R := Rat)).mp this
      omega
    have h6 : ((Fl.truncRat y : Int) : Rat) ≤ 0 := by exact_mod_cast h5
    rw [abs_of_nonpos h6, abs_of_neg h]
    exact ⟨by linarith, abs_lt.mpr ⟨by linarith, by linarith⟩⟩
  · obtain ⟨h3, h4⟩ := h1 h
    have h5 : 0 ≤ Fl.truncRat y := by
      have : ((-1 : Int) : Rat) < ((Fl.truncRat y : Int) : Rat) := by push_cast; linarith
      have := (Int.cast_lt (R := Rat)).mp this
      omega
    have h6 : (0 : Rat) ≤ ((Fl.truncRat y : Int) : Rat) := by exact_mod_cast h5
    rw [abs_of_nonneg h6, abs_of_nonneg h]
    exact ⟨by linarith, abs_lt.mpr ⟨by linarith, by linarith⟩⟩

theorem storedExactly_mul {k : Rat} (hk : Fl.lit fmt64 k = .fin k) {x : Fl} {q : Rat}
    (hx : x.val? = some q) :
    StoredExactly k q (AidIniBuilder.asI32 (Fl.mul fmt64 x (Fl.lit fmt64 k))) := by
  refine ⟨fmt64.round (q * k), _, fmt64_ok.rounds _, truncRat_exact _, ?_⟩
  rw [asI32_toInt, hk]
  rcases Fl.mul_cases fmt64 (b := k) hx with ⟨h1, h2⟩ | ⟨-, h2⟩
  · rw [h2]
    have h3 : (2 : Rat) ^ (128 : Int) ≤ 2 ^ fmt64.emax := zpow_le_zpow_right₀ (by norm_num) (by decide)
    have h4 : (2 : Rat) ^ 33 ≤ 2 ^ (128 : Int) := by norm_num
    obtain ⟨-, h5⟩ := truncRat_exact (fmt64.round (q * k))
    obtain ⟨h6, h7⟩ := abs_lt.mp h5
    generalize fmt64.round (q * k) = y at *
    have h8 : (2 : Rat) ^ 33 ≤ |y| := by linarith
    rcases lt_or_ge y 0 with hy | hy
    · rw [decide_eq_true hy]
      rw [abs_of_neg hy] at h8
      refine .inl ⟨?_, rfl⟩
      have : ((Fl.truncRat y : Int) : Rat) < ((-2147483648 : Int) : Rat) := by
        push_cast; norm_num at h8; linarith
      exact_mod_cast this
    · rw [decide_eq_false (not_lt.mpr hy)]
      rw [abs_of_nonneg hy] at h8
      refine .inr (.inl ⟨?_, rfl⟩)
      have : ((2147483647 : Int) : Rat) < ((Fl.truncRat y : Int) : Rat) := by
        push_cast; norm_num at h8; linarith
      exact_mod_cast this
  · have e : (Fl.mul fmt64 x (.fin k)).asInt (-2147483648) 2147483647 =
        clamp (-2147483648) 2147483647 (Fl.truncRat (fmt64.round (q * k))) := by
      revert h2
      generalize Fl.mul fmt64 x (.fin k) = y
      generalize fmt64.round (q * k) = w
      intro h2
      cases y with
      | nan s => simp [Fl.val?] at h2
      | inf s => simp [Fl.val?] at h2
      | negZero =>
        simp only [Fl.val?, Option.some.injEq] at h2
        subst h2
        decide +kernel
      | fin z =>
        simp only [Fl.val?, Option.some.injEq] at h2
        subst h2
        rfl
    rw [e]
    exact clamp_clamped (by decide)

/-- **C90** `set_position` of AID-INI, for finite coordinates. -/
theorem c90_set_position (b : AidIniBuilder) (pos : Position) {lat lon alt : Rat}
    (h1 : pos.lat.val? = some lat) (h2 : pos.lon.val? = some lon) (h3 : pos.alt.val? = some alt) :
    StoredExactly 10000000 lat (b.setPosition pos).ecefXOrLat ∧
    StoredExactly 10000000 lon (b.setPosition pos).ecefYOrLon ∧
    StoredExactly 100 alt (b.setPosition pos).ecefZOrAlt :=
  ⟨storedExactly_mul lit_ten7 h1, storedExactly_mul lit_ten7 h2, storedExactly_mul lit_hundred h3⟩

example : ∃ pos : Position, pos.lat.val? = some (-45) ∧ pos.lon.val? = some 180 ∧ pos.alt.val? = some (1 / 4) :=
  ⟨⟨.fin 180, .fin (-45), .fin (1 / 4)⟩, rfl, rfl, rfl⟩

end Ublox.Props
