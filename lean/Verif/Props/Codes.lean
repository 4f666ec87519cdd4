import Verif.Spec.Codes
import Verif.Props.Protocol

/-!
# C58: named values and flags mean what the interface description says
-/

namespace Ublox.Props

open Spec Gen Spec.Codes

/-! ## Flags -/

/-- The flags that do not have the bits of the description, see `c58_flags_wrong`. -/
def wrongFlags : List (String × String) :=
  [("CfgTmode3RcvrMode", "DISABLED"), ("CfgTmode3RcvrMode", "SURVEY_IN"),
    ("CfgTmode3RcvrMode", "FIXED_MODE"),
    ("CfgTp5Flags", "UTC_TIME_GRID"), ("CfgTp5Flags", "GPS_TIME_GRID"),
    ("CfgTp5Flags", "GLO_TIME_GRID"), ("CfgTp5Flags", "BDS_TIME_GRID"),
    ("CfgTp5Flags", "GAL_TIME_GRID"), ("CfgTp5Flags", "SYNC_MODE_0"), ("CfgTp5Flags", "SYNC_MODE_1")]

/-- The flag value is the one of the description: the bit, or, for a flag that stands for a value of
a bit field, a bit that is set in this and in no other defined value. -/
def flagOk (c : Nat) : Meaning → Bool
  | .bit k => c == 2 ^ k
  | .value lo n v l => (List.range n).any fun k =>
      c == 2 ^ (lo + k) && l.all fun w => bit w k == (w == v)

theorem flags_codes : (flagCodes.all fun t => allFlags.all fun d => d.name != t.1 ||
    t.2.all fun m => d.consts.any (·.1 == m.1) && d.consts.all fun c => c.1 != m.1 ||
      flagOk c.2 m.2 != wrongFlags.contains (t.1, m.1)) = true := by decide +kernel

theorem bit_eq_testBit (x k : Nat) : bit x k = x.testBit k := by
  unfold bit
  rw [Nat.testBit_eq_decide_div_mod_eq]
  rfl

theorem bit_field (x lo : Nat) {n k : Nat} (h : k < n) : bit (field x lo n) k = bit x (lo + k) := by
  rw [bit_eq_testBit, bit_eq_testBit]
  unfold field
  rw [Nat.testBit_mod_two_pow, Nat.testBit_div_two_pow, Nat.add_comm]
  simp [h]

/-- Asking for the flag is asking for its meaning. -/
theorem contains_of_flagOk {d : FlagsDesc} (hd : d ∈ allFlags) {c : String × Nat}
    (hc : c ∈ d.consts) {m : Meaning} (h : flagOk c.2 m = true) {x : Nat} (hx : x < 2 ^ d.nbits)
    (hm : m.defines x = true) : flagsContains (d.fromBitsTruncate x) c.2 = m.holds x := by
  obtain ⟨-, -, h3, -, -⟩ := c29_flags_keep_bits d hd
  obtain ⟨k, -, h4, h5⟩ := h3 c hc
  rw [h5 x hx]
  cases m with
  | bit j =>
    simp only [flagOk, beq_iff_eq] at h
    rw [h4] at h
    rw [Nat.pow_right_injective (le_refl 2) h]
    rfl
  | value lo n v l =>
    simp only [flagOk, List.any_eq_true, List.mem_range, Bool.and_eq_true, beq_iff_eq,
      List.all_eq_true] at h
    obtain ⟨j, hj, h6, h7⟩ := h
    rw [h4] at h6
    have h8 := Nat.pow_right_injective (le_refl 2) h6
    simp only [Meaning.defines, List.contains_iff_mem] at hm
    rw [h8, ← bit_field x lo hj, h7 _ hm]
    rfl

/-- **C58**, flags: for every flag type and named flag, `contains` on the flags of a received number
(and on flags that are going to be sent, whose number is `bits()`) is true exactly when the number
says so according to the description.  Missing for the full statement: the flags in `wrongFlags`,
where it is false. -/
theorem c58_flags_partial {t : String × List (String × Meaning)} (ht : t ∈ flagCodes)
    {d : FlagsDesc} (hd : d ∈ allFlags) (hn : d.name = t.1) {m : String × Meaning} (hm : m ∈ t.2)
    (hw : (t.1, m.1) ∉ wrongFlags) :
    ∃ c ∈ d.consts, c.1 = m.1 ∧ ∀ x < 2 ^ d.nbits, m.2.defines x = true →
      flagsContains (d.fromBitsTruncate x) c.2 = m.2.holds x := by
  have h := List.all_eq_true.mp (List.all_eq_true.mp flags_codes t ht) d hd
  rw [hn] at h
  simp only [bne_self_eq_false, Bool.false_or] at h
  have h1 := List.all_eq_true.mp h m hm
  rw [Bool.and_eq_true, List.any_eq_true] at h1
  obtain ⟨⟨c, hc, hcn⟩, h2⟩ := h1
  have h3 := List.all_eq_true.mp h2 c hc
  rw [beq_iff_eq] at hcn
  rw [hcn, show wrongFlags.contains (t.1, m.1) = false by simpa using hw] at h3
  simp only [bne_self_eq_false, Bool.false_or, bne_iff_ne, ne_eq, Bool.not_eq_false] at h3
  exact ⟨c, hc, hcn, fun x hx hdef => contains_of_flagOk hd hc h3 hx hdef⟩

/-- **C58**: the table has every flag of every type. -/
theorem c58_flags_complete : ∀ d ∈ allFlags, ∃ t ∈ flagCodes, t.1 = d.name ∧
    ∀ c ∈ d.consts, ∃ m ∈ t.2, m.1 = c.1 := by
  have h : (allFlags.all fun d => flagCodes.any fun t => t.1 == d.name &&
      d.consts.all fun c => t.2.any fun m => m.1 == c.1) = true := by decide +kernel
  intro d hd
  have h1 := List.all_eq_true.mp h d hd
  simpa using h1

/-- The first number of 14 bits with a meaning for which `contains` gives the wrong answer. -/
def flagWitness (d : FlagsDesc) (c : Nat) (m : Meaning) : Option Nat :=
  (List.range (2 ^ 14)).find? fun x =>
    decide (x < 2 ^ d.nbits) && m.defines x && (flagsContains (d.fromBitsTruncate x) c != m.holds x)

/-- **C58** is false for the flags in `wrongFlags`: the receiver mode of CFG-TMODE3 and the time grid
and synchronisation mode of CFG-TP5 are numbers, not single bits. -/
theorem c58_flags_wrong : ∀ w ∈ wrongFlags, ∃ t ∈ flagCodes, t.1 = w.1 ∧ ∃ m ∈ t.2, m.1 = w.2 ∧
    ∃ d ∈ allFlags, d.name = w.1 ∧ ∃ c ∈ d.consts, c.1 = w.2 ∧
      ∃ x < 2 ^ d.nbits, m.2.defines x = true ∧
        flagsContains (d.fromBitsTruncate x) c.2 ≠ m.2.holds x := by
  have h : (wrongFlags.all fun w => flagCodes.any fun t => t.1 == w.1 && t.2.any fun m => m.1 == w.2 &&
      allFlags.any fun d => d.name == w.1 && d.consts.any fun c => c.1 == w.2 &&
        (flagWitness d c.2 m.2).isSome) = true := by decide +kernel
  intro w hw
  have h1 := List.all_eq_true.mp h w hw
  simp only [List.any_eq_true, Bool.and_eq_true, beq_iff_eq] at h1
  obtain ⟨t, ht, h2, m, hm, h3, d, hd, h4, c, hc, h5, h6⟩ := h1
  obtain ⟨x, hx⟩ := Option.isSome_iff_exists.mp h6
  have h7 := List.find?_some hx
  simp only [Bool.and_eq_true, decide_eq_true_eq, bne_iff_ne] at h7
  exact ⟨t, ht, h2, m, hm, h3, d, hd, h4, c, hc, h5, x, h7.1.1, h7.1.2, h7.2⟩

/-! ## Enumerations -/

/-- The generated conversion of an enumeration, whichever of the two it has. -/
def decoded (e : EnumDesc) (x : UInt8) : R Variant :=
  if e.fromFn = some .from then e.from x else e.fromUnchecked x

/-- The enumerations that do not have the codes of the description, see `c58_enums_wrong`. -/
def wrongEnums : List (String × String) :=
  [("NavStatusFlags2", "Acquisition"), ("NavStatusFlags2", "Tracking"),
    ("NavStatusFlags2", "PowerOptimizedTracking"), ("NavStatusFlags2", "Inactive"),
    ("CfgItfmAntennaSettings", "Active"), ("CfgItfmAntennaSettings", "Passive")]

/-- The conversion of the byte gives the named variant if and only if the byte says so. -/
def enumOk (e : EnumDesc) (t : Enumeration) (c : String × Nat) (x : UInt8) : Bool :=
  x.toNat &&& t.used != x.toNat ||
    (match decoded e x with
    | .ok v => v.1 == c.1
    | .error _ => false) == (field x.toNat t.lo t.bits == c.2)

theorem enums_codes : (enumCodes.all fun t => allEnums.all fun e => e.name != t.type ||
    t.codes.all fun c => ((List.range 256).all fun x => enumOk e t c (UInt8.ofNat x)) !=
      wrongEnums.contains (t.type, c.1)) = true := by decide +kernel

/-- **C58**, enumerations: for every byte in which only bits that the description defines are set, the
conversion gives the variant with that name if and only if the bit field has the code of the
description.  Missing for the full statement: the variants in `wrongEnums`, where it is false. -/
theorem c58_enums_partial {t : Enumeration} (ht : t ∈ enumCodes) {e : EnumDesc} (he : e ∈ allEnums)
    (hn : e.name = t.type) {c : String × Nat} (hc : c ∈ t.codes) (hw : (t.type, c.1) ∉ wrongEnums)
    (x : UInt8) (hx : x.toNat &&& t.used = x.toNat) :
    (∃ v, decoded e x = .ok v ∧ v.1 = c.1) ↔ field x.toNat t.lo t.bits = c.2 := by
  have h := List.all_eq_true.mp (List.all_eq_true.mp enums_codes t ht) e he
  rw [hn] at h
  simp only [bne_self_eq_false, Bool.false_or] at h
  have h1 := List.all_eq_true.mp h c hc
  rw [show wrongEnums.contains (t.type, c.1) = false by simpa using hw] at h1
  simp only [bne_iff_ne, ne_eq, Bool.not_eq_false] at h1
  have h2 := List.all_eq_true.mp h1 x.toNat (List.mem_range.mpr x.toNat_lt)
  rw [UInt8.ofNat_toNat] at h2
  unfold enumOk at h2
  simp only [hx, bne_self_eq_false, Bool.false_or, beq_iff_eq] at h2
  cases hd : decoded e x with
  | error p =>
    rw [hd] at h2
    simp only at h2
    constructor
    · rintro ⟨v, h, -⟩; cases h
    · intro hf; rw [hf] at h2; simp at h2
  | ok v =>
    rw [hd] at h2
    simp only at h2
    constructor
    · rintro ⟨v', h, hv⟩
      cases h
      rw [hv] at h2
      simpa using h2.symm
    · intro hf
      rw [hf] at h2
      exact ⟨v, rfl, by simpa using h2⟩

/-- **C58**: the number that is sent for a variant of an enumeration without other bit fields is the
code of the description. -/
theorem c58_enums_sent {t : Enumeration} (ht : t ∈ enumCodes) {e : EnumDesc} (he : e ∈ allEnums)
    (hn : e.name = t.type) {v : Variant} (hv : v ∈ e.variants) {c : String × Nat} (hc : c ∈ t.codes)
    (hs : v.1 = c.1) (hw : t.type ≠ "CfgItfmAntennaSettings") :
    (EnumDesc.intoRawVal v).toNat = c.2 * 2 ^ t.lo := by
  have h : (enumCodes.all fun t => allEnums.all fun e => e.name != t.type ||
      t.type == "CfgItfmAntennaSettings" || e.variants.all fun v => t.codes.all fun c => v.1 != c.1 ||
        (EnumDesc.intoRawVal v).toNat == c.2 * 2 ^ t.lo) = true := by decide +kernel
  have h1 := List.all_eq_true.mp (List.all_eq_true.mp h t ht) e he
  rw [hn, bne_self_eq_false, Bool.false_or, beq_false_of_ne hw, Bool.false_or] at h1
  have h2 := List.all_eq_true.mp (List.all_eq_true.mp h1 v hv) c hc
  rw [hs, bne_self_eq_false, Bool.false_or, beq_iff_eq] at h2
  exact h2

/-- **C58**: the table has every variant of every enumeration. -/
theorem c58_enums_complete : ∀ e ∈ allEnums, ∃ t ∈ enumCodes, t.type = e.name ∧
    ∀ v ∈ e.variants, ∃ c ∈ t.codes, c.1 = v.1 := by
  have h : (allEnums.all fun e => enumCodes.any fun t => t.type == e.name &&
      e.variants.all fun v => t.codes.any fun c => c.1 == v.1) = true := by decide +kernel
  intro e he
  have h1 := List.all_eq_true.mp h e he
  simpa using h1

/-- **C58** is false for the power save state of NAV-STATUS: with any spoofing detection state other
than "unknown" in bits 4..3 the conversion gives a reserved variant. -/
theorem c58_enums_wrong (s p : Nat) (hs : 0 < s) (hs' : s < 4) (hp : p < 4) :
    navStatusFlags2_.from (UInt8.ofNat (8 * s + p)) =
      .ok ("Reserved" ++ toString (8 * s + p), UInt8.ofNat (8 * s + p)) ∧
    field (8 * s + p) 0 2 = p ∧ field (8 * s + p) 3 2 = s := by
  have h : ∀ s < 4, ∀ p < 4, 0 < s → navStatusFlags2_.from (UInt8.ofNat (8 * s + p)) =
      .ok ("Reserved" ++ toString (8 * s + p), UInt8.ofNat (8 * s + p)) := by decide +kernel
  refine ⟨h s hs' p hp hs, ?_, ?_⟩ <;> unfold field <;> omega

/-- **C58** is false for the antenna setting of CFG-ITFM: 1 is "passive" and 2 is "active" in the
description, but they are read the other way round. -/
theorem c58_antenna_wrong (w : UInt32) :
    (field w.toNat 12 2 = 1 → (CfgItfmConfig2.from_ w).antenna = .active) ∧
    (field w.toNat 12 2 = 2 → (CfgItfmConfig2.from_ w).antenna = .passive) := by
  obtain ⟨-, -, h, -⟩ := c31_config2_from w
  constructor <;> intro hf <;> have h1 := h (by omega) <;> rw [hf] at h1 <;>
    revert h1 <;> cases (CfgItfmConfig2.from_ w).antenna <;> simp [antennaCode]

/-! ## Accessors -/

theorem flags_of_get {d : PackDesc} (hd : d ∈ allPackets) (hk : d.kind ≠ .send) {i : Nat}
    {f : FieldDesc} (hf : d.fields[i]? = some f) {g : FlagsDesc} (hm : f.map = some (.flags g))
    {payload : Bytes} (hl : total d.fields ≤ payload.length) :
    ∃ b, d.get f.getName payload = .ok (.flags b) ∧ b < 2 ^ g.nbits ∧ g ∈ allFlags := by
  have hg := (conv_type hd (List.mem_of_getElem? hf)).2 g hm
  have hwf := readable_wf d hd hk
  have hfw := PackDesc.wf_field hwf hf
  have ht : f.ty ≠ .tail := by
    intro h
    simp [FieldDesc.wf, hm, h] at hfw
  obtain ⟨r, hr, -, -, hmap⟩ := c21_accessor hd hk hf ht hl
  rw [(hmap (by rw [hm]; simp)).2]
  have hkeep := (c29_flags_keep_bits g hg).2.1
  unfold FieldDesc.wf at hfw
  rw [hm, Bool.and_eq_true] at hfw
  obtain ⟨-, hfw⟩ := hfw
  unfold FieldDesc.convert
  rw [hm]
  cases hty : f.ty <;> rw [hty] at hfw hr <;> simp at hfw <;>
    obtain ⟨⟨⟨h1, h2⟩, h3⟩, h4⟩ := hfw <;> rw [h4] <;>
    cases r <;> simp [RawVal.ofTy] at hr <;> rename_i x <;>
    simp only [Conv.convert, RawVal.unsigned?, h3, h2, h1, if_true] <;>
    refine ⟨_, rfl, ?_, hg⟩ <;> rw [hkeep _ (by rw [h3]; exact x.toNat_lt)] <;> exact x.toNat_lt

/-- Codes are unsigned numbers in the description. -/
theorem code_unsigned {m : Protocol.Message} (hm : m ∈ Protocol.interface) {e : Protocol.Field}
    (he : e ∈ m.fields) (hc : e.kind = .code) (bs : Bytes) : e.ty.number bs = leNat bs := by
  have h : (Protocol.interface.all fun m => m.fields.all fun e => e.kind != .code ||
      e.ty != .I1 && e.ty != .I2 && e.ty != .I4) = true := by decide +kernel
  have h1 := List.all_eq_true.mp (List.all_eq_true.mp h m hm) e he
  rw [hc] at h1
  cases ht : e.ty <;> rw [ht] at h1 <;> first | rfl | simp at h1

/-- **C58** at an accessor: the flags that the accessor of a received packet returns contain the named
flag exactly when the number at the place of the field in the payload says so. -/
theorem c58_reading_flags_partial {m : Protocol.Message} (hm : m ∈ Protocol.interface)
    {d : PackDesc} (hd : d ∈ allPackets) (hk : d.kind ≠ .send) (hn : d.name = m.packet)
    {payload : Bytes} (hl : total d.fields ≤ payload.length) {e : Protocol.Field} (he : e ∈ m.fields)
    (hc : e.kind = .code) (hx : (m.packet, e.accessor) ∉ departures) {f : FieldDesc}
    (hf : f ∈ d.fields) (hfn : f.getName = e.accessor) {g : FlagsDesc} (hg : f.map = some (.flags g))
    {t : String × List (String × Meaning)} (ht : t ∈ flagCodes) (htn : g.name = t.1)
    {r : String × Meaning} (hr : r ∈ t.2) (hw : (t.1, r.1) ∉ wrongFlags) :
    ∃ b, d.get e.accessor payload = .ok (.flags b) ∧ ∃ c ∈ g.consts, c.1 = r.1 ∧
      (r.2.defines (leNat ((payload.drop e.offset).take e.ty.size)) = true →
        flagsContains b c.2 = r.2.holds (leNat ((payload.drop e.offset).take e.ty.size))) := by
  obtain ⟨i, hi⟩ := List.getElem?_of_mem hf
  obtain ⟨b, h1, h2, h3⟩ := flags_of_get hd hk hi hg hl
  obtain ⟨c, h4, h5, h6⟩ := c58_flags_partial ht h3 htn hr hw
  rw [hfn] at h1
  obtain ⟨-, h7⟩ := c57_slice_partial hm hd hk hn hl e he hx
  rw [hc] at h7
  have h8 := h7.2 _ _ h1 rfl
  have h9 : (b : Int) = leNat ((payload.drop e.offset).take e.ty.size) := by
    rw [h8]
    exact code_unsigned hm he hc _
  have h10 : b = leNat ((payload.drop e.offset).take e.ty.size) := by exact_mod_cast h9
  refine ⟨b, h1, c, h4, h5, fun hdef => ?_⟩
  rw [← h10] at hdef ⊢
  have := h6 b h2 hdef
  rw [(c29_flags_keep_bits g h3).2.1 b h2] at this
  exact this

theorem decoded_of_get {d : PackDesc} (hd : d ∈ allPackets) (hk : d.kind ≠ .send) {i : Nat}
    {f : FieldDesc} (hf : d.fields[i]? = some f) {g : EnumDesc} (hm : f.map = some (.enum g))
    {payload : Bytes} (hl : total d.fields ≤ payload.length) {v : Val}
    (hv : d.get f.getName payload = .ok v) :
    ∃ y, v = .enum y ∧ decoded g y.2 = .ok y ∧ g ∈ allEnums := by
  have hg := (conv_type hd (List.mem_of_getElem? hf)).1 g hm
  have hwf := readable_wf d hd hk
  have hfw := PackDesc.wf_field hwf hf
  have ht : f.ty ≠ .tail := by
    intro h
    simp [FieldDesc.wf, hm, h] at hfw
  obtain ⟨r, hr, -, -, hmap⟩ := c21_accessor hd hk hf ht hl
  rw [(hmap (by rw [hm]; simp)).2] at hv
  unfold FieldDesc.wf at hfw
  rw [hm, Bool.and_eq_true] at hfw
  obtain ⟨-, hfw⟩ := hfw
  unfold FieldDesc.convert at hv
  rw [hm] at hv
  cases hty : f.ty <;> rw [hty] at hfw hr <;> simp only [Bool.false_eq_true] at hfw
  cases r <;> simp [RawVal.ofTy] at hr
  rename_i x
  rw [Bool.and_eq_true, Option.isNone_iff_eq_none] at hfw
  rw [hfw.1] at hv
  unfold Conv.convert at hv
  by_cases hmf : f.mayFail = true
  · rw [if_pos hmf] at hfw
    simp only [Bool.and_eq_true, beq_iff_eq] at hfw
    simp only [hmf, if_true, hfw.2.1] at hv
    cases hy : g.fromUnchecked x with
    | error p => rw [hy] at hv; cases hv
    | ok y =>
      rw [hy] at hv
      cases hv
      have := (c28_closed_enums g hg ((c27_from_exhaustive g hg).2 hfw.2.1)).2.2.2.1 x y hy
      refine ⟨y, rfl, ?_, hg⟩
      unfold decoded
      rw [if_neg (by rw [hfw.2.1]; simp), this.2, hy]
  · rw [if_neg hmf] at hfw
    simp only [Bool.and_eq_true, beq_iff_eq] at hfw
    simp only [hmf, if_false, hfw.2.1, if_true, Bool.false_eq_true] at hv
    obtain ⟨y, h1, h2, h3⟩ := (c27_open_enums g hg hfw.2.2).1 x
    rw [h2] at hv
    cases hv
    refine ⟨y, rfl, ?_, hg⟩
    unfold decoded
    rw [if_pos hfw.2.1, h3, h2]

/-- **C58** at an accessor: when the accessor of a received packet returns an enumeration value, it is
the one with the given name exactly when the number at the place of the field in the payload says
so. -/
theorem c58_reading_enums_partial {m : Protocol.Message} (hm : m ∈ Protocol.interface)
    {d : PackDesc} (hd : d ∈ allPackets) (hk : d.kind ≠ .send) (hn : d.name = m.packet)
    {payload : Bytes} (hl : total d.fields ≤ payload.length) {e : Protocol.Field} (he : e ∈ m.fields)
    (hc : e.kind = .code) (hx : (m.packet, e.accessor) ∉ departures) {f : FieldDesc}
    (hf : f ∈ d.fields) (hfn : f.getName = e.accessor) {g : EnumDesc} (hg : f.map = some (.enum g))
    {v : Val} (hv : d.get e.accessor payload = .ok v)
    {t : Enumeration} (ht : t ∈ enumCodes) (htn : g.name = t.type)
    {c : String × Nat} (hcc : c ∈ t.codes) (hw : (t.type, c.1) ∉ wrongEnums)
    (hu : leNat ((payload.drop e.offset).take e.ty.size) &&& t.used =
      leNat ((payload.drop e.offset).take e.ty.size)) :
    ∃ y, v = .enum y ∧ (y.1 = c.1 ↔
      field (leNat ((payload.drop e.offset).take e.ty.size)) t.lo t.bits = c.2) := by
  obtain ⟨i, hi⟩ := List.getElem?_of_mem hf
  obtain ⟨y, rfl, h2, h3⟩ := decoded_of_get hd hk hi hg hl (by rw [hfn]; exact hv)
  obtain ⟨-, h7⟩ := c57_slice_partial hm hd hk hn hl e he hx
  rw [hc] at h7
  have h8 := h7.2 _ _ hv rfl
  have h9 : (y.2.toNat : Int) = leNat ((payload.drop e.offset).take e.ty.size) := by
    rw [h8]
    exact code_unsigned hm he hc _
  have h10 : y.2.toNat = leNat ((payload.drop e.offset).take e.ty.size) := by exact_mod_cast h9
  rw [← h10] at hu ⊢
  refine ⟨y, rfl, ?_⟩
  rw [← c58_enums_partial ht h3 htn hcc hw y.2 hu]
  constructor
  · exact fun h => ⟨y, h2, h⟩
  · rintro ⟨v', h, h'⟩
    rw [h2] at h
    cases h
    exact h'

/-- The fix type of NAV-STATUS and the fix flags of NAV-PVT meet the hypotheses. -/
example : (∃ f ∈ navStatus_.fields, f.getName = "fix_type" ∧ f.map = some (.enum gpsFix_)) ∧
    (⟨4, .U1, "fix_type", .code⟩ : Protocol.Field) ∈
      (Protocol.interface.filter (·.packet = "NavStatus")).flatMap (·.fields) ∧
    ("NavStatus", "fix_type") ∉ departures ∧
    navStatus_.get "fix_type" [0, 0, 0, 0, 3, 0, 0, 0, 0, 0, 0, 0, 0, 0, 0, 0] =
      .ok (.enum ("Fix3D", 3)) := by decide +kernel

/-- GPS fix, the integer ambiguity state of NAV-PVT and a bit of CFG-PRT. -/
example : (∃ t ∈ flagCodes, t.1 = "NavPvtFlags" ∧ ("CARR_SOLN_FIXED", .value 6 2 2 [0, 1, 2]) ∈ t.2) ∧
    ("NavPvtFlags", "CARR_SOLN_FIXED") ∉ wrongFlags ∧ navPvtFlags_ ∈ allFlags ∧
    (Meaning.value 6 2 2 [0, 1, 2]).defines 0x83 = true ∧
    flagsContains (navPvtFlags_.fromBitsTruncate 0x83) 0x80 = true := by
  refine ⟨⟨_, List.mem_cons_of_mem _ List.mem_cons_self, rfl, ?_⟩, ?_⟩ <;> decide +kernel

example : ("GpsFix", "Fix3D") ∉ wrongEnums ∧ (3 : UInt8).toNat &&& 255 = 3 ∧
    decoded gpsFix_ 3 = .ok ("Fix3D", 3) := by decide +kernel

end Ublox.Props
