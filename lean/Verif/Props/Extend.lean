import Verif.Model.Derive
import Verif.Props.Types
import Mathlib.Data.List.Nodup
import Mathlib.Data.List.Perm.Subperm

/-!
# C59: the enumeration and flag macros are faithful for every declaration that they accept
-/

namespace Ublox.Props

open Spec

/-- **C59**, enumerations with `from`: for every declaration that the macro and the compiler accept,
every byte is converted to a variant with that number, every variant comes back from its number,
declared names are kept, and all other variants are called `Reserved` with the number. -/
theorem c59_enum_from {e : EnumDesc} (hc : e.compiles = true)
    (hf : e.fromFn = some .from) :
    (∀ x, ∃ v ∈ e.allVariants, e.from x = .ok v ∧ EnumDesc.intoRawVal v = x) ∧
    (∀ v ∈ e.allVariants, e.from (EnumDesc.intoRawVal v) = .ok v) ∧
    (∀ x v, e.from x = .ok v → v ∈ e.variants ∨
      (v = ("Reserved" ++ toString x.toNat, x) ∧ ∀ w ∈ e.variants, w.2 ≠ x)) ∧
    (∀ v ∈ e.variants, e.from v.2 = .ok v) := by
  simp only [EnumDesc.compiles, Bool.and_eq_true, decide_eq_true_eq, Bool.or_eq_true, bne_iff_ne,
    ne_eq, hf, not_true_eq_false, false_or, List.all_eq_true, List.mem_range] at hc
  obtain ⟨⟨-, h2⟩, h3⟩ := hc
  have htot : ∀ x : UInt8, ∃ v, e.lookup x = some v := by
    intro x
    have := h3 x.toNat x.toNat_lt
    rw [UInt8.ofNat_toNat] at this
    exact Option.isSome_iff_exists.mp this
  have hfrom : ∀ v ∈ e.allVariants, e.from v.2 = .ok v := by
    intro v hv
    have := EnumDesc.find?_eq_of_nodup _ h2 hv
    unfold EnumDesc.from EnumDesc.lookup
    rw [this]
  have hsub : ∀ v ∈ e.variants, v ∈ e.allVariants := by
    intro v hv
    unfold EnumDesc.allVariants
    split
    · exact List.mem_append_left _ hv
    · exact hv
  refine ⟨fun x => ?_, hfrom, fun x v hv => ?_, fun v hv => hfrom v (hsub v hv)⟩
  · obtain ⟨v, hv⟩ := htot x
    obtain ⟨hm, hx⟩ := EnumDesc.lookup_some hv
    exact ⟨v, hm, by unfold EnumDesc.from; rw [hv], hx⟩
  · obtain ⟨w, hw⟩ := htot x
    obtain ⟨hm, hx⟩ := EnumDesc.lookup_some hw
    unfold EnumDesc.from at hv
    rw [hw] at hv
    cases hv
    unfold EnumDesc.allVariants at hm
    split at hm
    · rcases List.mem_append.mp hm with hm | hm
      · exact Or.inl hm
      · obtain ⟨i, hi, rfl⟩ := List.mem_map.mp hm
        obtain ⟨hi1, hi2⟩ := List.mem_filter.mp hi
        rw [List.mem_range] at hi1
        simp only at hx
        subst hx
        right
        have e1 : (UInt8.ofNat i).toNat = i := by
          rw [UInt8.toNat_ofNat']; exact Nat.mod_eq_of_lt hi1
        refine ⟨by rw [e1], fun w hw => ?_⟩
        intro h
        simp only [Bool.not_eq_true', List.contains_eq_mem, decide_eq_false_iff_not] at hi2
        exact hi2 (List.mem_map.mpr ⟨w, hw, h⟩)
    · exact Or.inl hm

/-- **C59**, enumerations with `from_unchecked`: for every declaration that the macro and the compiler
accept, `is_valid` accepts exactly the numbers of the declared variants, and for these the conversion
gives the variant; for all other bytes it panics. -/
theorem c59_enum_unchecked {e : EnumDesc} (hx : e.extend = .ok e) (hc : e.compiles = true)
    (hf : e.fromFn = some .fromUnchecked) :
    (∀ x, e.isValid x = true ↔ ∃ v ∈ e.variants, v.2 = x) ∧
    (∀ x v, e.fromUnchecked x = .ok v ↔ v ∈ e.variants ∧ EnumDesc.intoRawVal v = x) ∧
    (∀ x, e.isValid x = false → e.fromUnchecked x = .error .explicit) := by
  have hr : e.rest ≠ some .reserved := by
    intro hr
    unfold EnumDesc.extend at hx
    rw [hf, hr] at hx
    simp at hx
  have hv : e.allVariants = e.variants := by
    unfold EnumDesc.allVariants; rw [if_neg hr]
  simp only [EnumDesc.compiles, Bool.and_eq_true, decide_eq_true_eq] at hc
  obtain ⟨⟨-, h2⟩, -⟩ := hc
  have hval : ∀ x, e.isValid x = true ↔ ∃ v ∈ e.variants, v.2 = x := by
    intro x; unfold EnumDesc.isValid; rw [hv]; simp
  have hiff : ∀ x v, e.fromUnchecked x = .ok v ↔ v ∈ e.variants ∧ v.2 = x := by
    intro x v
    constructor
    · intro h
      unfold EnumDesc.fromUnchecked at h
      cases hl : e.lookup x <;> rw [hl] at h <;> simp at h
      subst h
      rw [← hv]; exact EnumDesc.lookup_some hl
    · rintro ⟨hm, rfl⟩
      rw [← hv] at hm
      have := EnumDesc.find?_eq_of_nodup _ h2 hm
      unfold EnumDesc.fromUnchecked EnumDesc.lookup
      rw [this]
  refine ⟨hval, hiff, fun x hx => ?_⟩
  cases hl : e.lookup x with
  | none => unfold EnumDesc.fromUnchecked; rw [hl]
  | some v =>
    have h1 : e.fromUnchecked x = .ok v := by unfold EnumDesc.fromUnchecked; rw [hl]
    have h3 := (hval x).mpr ⟨v, (hiff x v).mp h1⟩
    rw [hx] at h3
    cases h3

/-- A closed declaration that is not of the crate, and one that the macro refuses. -/
example : (⟨"A", some .fromUnchecked, none, true, [("X", 7), ("Y", 1)]⟩ : EnumDesc).extend =
      .ok ⟨"A", some .fromUnchecked, none, true, [("X", 7), ("Y", 1)]⟩ ∧
    (⟨"A", some .fromUnchecked, none, true, [("X", 7), ("Y", 1)]⟩ : EnumDesc).compiles = true ∧
    (⟨"A", some .from, none, true, [("X", 7), ("Y", 1)]⟩ : EnumDesc).compiles = false ∧
    (⟨"A", some .from, some .errorProne, true, [("X", 7)]⟩ : EnumDesc).extend =
      .error .fromWithRestError := by decide +kernel

/-- The declared constants are different single bits of the type. -/
def SingleBits (d : FlagsDesc) : Prop :=
  (∀ c ∈ d.consts, ∃ k < d.nbits, c.2 = 2 ^ k) ∧ (d.consts.map (·.2)).Nodup

/-- **C59**: the check of the flags macro, which compares the sizes of two sets, accepts exactly the
declarations whose constants are different single bits. -/
theorem c59_flags_accepted (d : FlagsDesc) : d.accepted = true ↔ SingleBits d := by
  unfold FlagsDesc.accepted SingleBits
  rw [beq_iff_eq]
  let K := (List.range d.nbits).filter fun bit => d.consts.any fun c => c.2 == 1 <<< bit
  let V := d.consts.map (·.2)
  have hK : ∀ b, b ∈ K ↔ b < d.nbits ∧ 2 ^ b ∈ V := by
    intro b
    simp only [K, V, List.mem_filter, List.mem_range, List.any_eq_true, beq_iff_eq, Nat.one_shiftLeft,
      List.mem_map]
  have hinj : Function.Injective fun b : Nat => 2 ^ b :=
    fun _ _ h => (Nat.pow_right_inj (by decide : 1 < 2)).mp h
  have hKn : (K.map fun b => 2 ^ b).Nodup := (List.nodup_range.filter _).map hinj
  have hsub : (K.map fun b => 2 ^ b) ⊆ V := by
    intro x hx
    obtain ⟨b, hb, rfl⟩ := List.mem_map.mp hx
    exact ((hK b).mp hb).2
  have hlen : V.length = d.consts.length := by simp [V]
  show K.length = d.consts.length ↔ _
  constructor
  · intro h
    have hp := (List.subperm_of_subset hKn hsub).perm_of_length_le (by rw [hlen, List.length_map, h]; exact Nat.le_refl _)
    refine ⟨fun c hc => ?_, hp.nodup_iff.mp hKn⟩
    have : c.2 ∈ V := List.mem_map.mpr ⟨c, hc, rfl⟩
    obtain ⟨b, hb, hbc⟩ := List.mem_map.mp (hp.mem_iff.mpr this)
    exact ⟨b, ((hK b).mp hb).1, hbc.symm⟩
  · rintro ⟨h1, h2⟩
    have hsub' : V ⊆ K.map fun b => 2 ^ b := by
      intro x hx
      obtain ⟨c, hc, rfl⟩ := List.mem_map.mp hx
      obtain ⟨k, hk, hck⟩ := h1 c hc
      refine List.mem_map.mpr ⟨k, (hK k).mpr ⟨hk, ?_⟩, hck.symm⟩
      rw [← hck]
      exact hx
    have hp := (List.perm_ext_iff_of_nodup hKn h2).mpr fun x => ⟨fun h => hsub h, fun h => hsub' h⟩
    have := hp.length_eq
    rw [List.length_map] at this
    rw [this]
    exact hlen

/-- **C59**, flags: every declaration that the macro accepts gives a type in which every number of the
width is a value with exactly these bits, and each declared flag is contained exactly when its bit is
set. -/
theorem c59_flags {d : FlagsDesc} {fromFn : Option FromFn} {rest : Option Rest}
    (h : d.extend fromFn rest = .ok d) :
    (d.nbits = 8 ∨ d.nbits = 16 ∨ d.nbits = 32) ∧ SingleBits d ∧
    (∀ raw < 2 ^ d.nbits, d.fromBitsTruncate raw = raw) ∧
    ∀ c ∈ d.consts, c ∈ d.items ∧ ∃ k < d.nbits, c.2 = 2 ^ k ∧
      ∀ raw < 2 ^ d.nbits, flagsContains (d.fromBitsTruncate raw) c.2 = bit raw k := by
  have hn : d.nbits = 8 ∨ d.nbits = 16 ∨ d.nbits = 32 := by
    unfold FlagsDesc.extend at h
    split at h
    · cases h
    · split at h
      · cases h
      · omega
  have ha : d.accepted = true := by
    unfold FlagsDesc.extend at h
    repeat' (split at h; cases h)
    simp_all
  have hs := (c59_flags_accepted d).mp ha
  refine ⟨hn, hs, fun raw hr => d.fromBitsTruncate_eq hr, fun c hc => ?_⟩
  obtain ⟨k, hk, hck⟩ := hs.1 c hc
  refine ⟨?_, k, hk, hck, fun raw hr => ?_⟩
  · unfold FlagsDesc.items
    refine List.mem_map.mpr ⟨k, List.mem_range.mpr hk, ?_⟩
    cases hf : d.consts.find? fun c => c.2 == 1 <<< k with
    | none =>
      have := List.find?_eq_none.mp hf c hc
      rw [Nat.one_shiftLeft, hck] at this
      simp at this
    | some c' =>
      have h1 := List.find?_some hf
      have h2 := List.mem_of_find?_eq_some hf
      rw [beq_iff_eq, Nat.one_shiftLeft] at h1
      have : c' = c := List.inj_on_of_nodup_map hs.2 h2 hc (by rw [h1, hck])
      subst this
      show (c'.1, 1 <<< k) = c'
      rw [Nat.one_shiftLeft, ← hck]
  · rw [d.fromBitsTruncate_eq hr, hck, FlagsDesc.contains_two_pow]
    unfold bit
    rw [Nat.testBit_eq_decide_div_mod_eq]
    rfl

/-- **C59**: exactly which flag declarations the macro accepts. -/
theorem c59_flags_extend (d : FlagsDesc) (fromFn : Option FromFn) (rest : Option Rest) :
    d.extend fromFn rest = .ok d ↔ (d.nbits = 8 ∨ d.nbits = 16 ∨ d.nbits = 32) ∧
      rest = some .reserved ∧ fromFn ≠ some .fromUnchecked ∧ SingleBits d := by
  constructor
  · intro h
    obtain ⟨h1, h2, -⟩ := c59_flags h
    refine ⟨h1, ?_, ?_, h2⟩
    · unfold FlagsDesc.extend at h
      repeat' (split at h; cases h)
      simp_all
    · unfold FlagsDesc.extend at h
      repeat' (split at h; cases h)
      simp_all
  · rintro ⟨h1, rfl, h3, h4⟩
    have ha := (c59_flags_accepted d).mpr h4
    unfold FlagsDesc.extend
    rw [if_neg (by simp), if_neg (by omega), if_neg (by simp), if_neg (by simp [ha]), if_neg h3]

/-- **C59**: exactly which combinations of arguments the macro accepts for an enumeration. -/
theorem c59_enum_extend (e : EnumDesc) : e.extend = .ok e ↔
    ¬ (e.fromFn = some .from ∧ e.rest = some .errorProne) ∧
    ¬ (e.fromFn = some .fromUnchecked ∧ e.rest = some .reserved) := by
  unfold EnumDesc.extend
  split
  · rename_i h; exact ⟨fun hx => (by cases hx), fun hx => absurd h hx.1⟩
  · rename_i h
    split
    · rename_i h'; exact ⟨fun hx => (by cases hx), fun hx => absurd h' hx.2⟩
    · rename_i h'; exact ⟨fun _ => ⟨h, h'⟩, fun _ => rfl⟩

/-- **C59**: exactly when the compiler accepts the generated enumeration: names and numbers of the
variants are different; with `rest_reserved` no variant has the name `Reserved..` of a number that is
not declared; with `from` every number is declared or the rest is reserved. -/
theorem c59_enum_compiles (e : EnumDesc) : e.compiles = true ↔
    (e.variants.map (·.1)).Nodup ∧ (e.variants.map (·.2)).Nodup ∧
    (e.rest = some .reserved → ∀ v ∈ e.variants, ∀ x : UInt8,
      v.1 = "Reserved" ++ toString x.toNat → ∃ w ∈ e.variants, w.2 = x) ∧
    (e.fromFn = some .from → e.rest = some .reserved ∨ ∀ x, ∃ v ∈ e.variants, v.2 = x) := by
  simp only [EnumDesc.compiles, Bool.and_eq_true, decide_eq_true_eq, Bool.or_eq_true, bne_iff_ne, ne_eq,
    List.all_eq_true, List.mem_range]
  have hfrom : (¬ e.fromFn = some .from ∨ ∀ x < 256, (e.lookup (UInt8.ofNat x)).isSome = true) ↔
      (e.fromFn = some .from → e.rest = some .reserved ∨ ∀ x, ∃ v ∈ e.variants, v.2 = x) := by
    by_cases hf : e.fromFn = some .from
    · simp only [hf, not_true_eq_false, false_or, forall_const]
      by_cases hr : e.rest = some .reserved
      · simp only [hr, true_or, iff_true]
        intro x _
        obtain ⟨v, hv⟩ := e.lookup_total hr (UInt8.ofNat x)
        rw [hv]; rfl
      · simp only [hr, false_or]
        unfold EnumDesc.lookup EnumDesc.allVariants
        rw [if_neg hr]
        constructor
        · intro h x
          have := h x.toNat x.toNat_lt
          rw [UInt8.ofNat_toNat] at this
          obtain ⟨v, hv⟩ := Option.isSome_iff_exists.mp this
          exact ⟨v, List.mem_of_find?_eq_some hv, by simpa using List.find?_some hv⟩
        · intro h x _
          obtain ⟨v, hv, hx⟩ := h (UInt8.ofNat x)
          rw [List.find?_isSome]
          exact ⟨v, hv, by simpa using hx⟩
    · simp [hf]
  rw [hfrom, and_assoc]
  by_cases hr : e.rest = some .reserved
  · have hall : e.allVariants = e.variants ++
        ((List.range 256).filter fun i => !(e.variants.map (·.2)).contains (UInt8.ofNat i)).map
          fun i => ("Reserved" ++ toString i, UInt8.ofNat i) := by
      unfold EnumDesc.allVariants; rw [if_pos hr]
    constructor
    · rintro ⟨h1, h2, h3⟩
      rw [hall, List.map_append] at h1 h2
      obtain ⟨n1, -, d1⟩ := List.nodup_append.mp h1
      obtain ⟨n2, -, -⟩ := List.nodup_append.mp h2
      refine ⟨n1, n2, fun _ v hv x hx => ?_, h3⟩
      refine Classical.byContradiction fun hn => ?_
      refine d1 v.1 (List.mem_map_of_mem hv) v.1 ?_ rfl
      refine List.mem_map.mpr ⟨("Reserved" ++ toString x.toNat, UInt8.ofNat x.toNat), ?_, hx.symm⟩
      refine List.mem_map.mpr ⟨x.toNat, List.mem_filter.mpr ⟨List.mem_range.mpr x.toNat_lt, ?_⟩, rfl⟩
      simp only [Bool.not_eq_true', List.contains_eq_mem, decide_eq_false_iff_not, UInt8.ofNat_toNat]
      intro hc
      obtain ⟨w, hw, hx⟩ := List.mem_map.mp hc
      exact hn ⟨w, hw, hx⟩
    · rintro ⟨h1, h2, h3, h4⟩
      refine ⟨?_, EnumDesc.nodup_discr h2, h4⟩
      rw [hall, List.map_append]
      refine List.nodup_append.mpr ⟨h1, EnumDesc.nodup_reserved_names _, ?_⟩
      intro a ha b hb hab
      subst hab
      obtain ⟨w, hw, rfl⟩ := List.mem_map.mp ha
      obtain ⟨v, hv, hwv⟩ := List.mem_map.mp hb
      obtain ⟨i, hi, rfl⟩ := List.mem_map.mp hv
      obtain ⟨hi, hc⟩ := List.mem_filter.mp hi
      have hlt := List.mem_range.mp hi
      obtain ⟨u, hu, hux⟩ := h3 hr w hw (UInt8.ofNat i) (by
        rw [UInt8.toNat_ofNat_of_lt' hlt]; exact hwv.symm)
      simp only [Bool.not_eq_true', List.contains_eq_mem, decide_eq_false_iff_not] at hc
      exact hc (List.mem_map.mpr ⟨u, hu, hux⟩)
  · have hall : e.allVariants = e.variants := by unfold EnumDesc.allVariants; rw [if_neg hr]
    rw [hall]
    simp [hr]

/-- A declared variant can collide with a generated one. -/
example : (⟨"E", some .from, some .reserved, false, [("A", 0), ("Reserved7", 1)]⟩ :
    EnumDesc).compiles = false := by
  rw [Bool.eq_false_iff, Ne, c59_enum_compiles]
  rintro ⟨-, -, h, -⟩
  obtain ⟨w, hw, hx⟩ := h rfl ("Reserved7", 1) (by simp) 7 (by decide +kernel)
  revert hx
  revert w
  decide

/-- Every enumeration and flag type of the crate is accepted. -/
theorem c59_crate : (∀ e ∈ Gen.allEnums, e.extend = .ok e ∧ e.compiles = true) ∧
    ∀ d ∈ Gen.allFlags, d.extend (if d.from_ then some .from else none) (some .reserved) = .ok d := by
  refine ⟨fun e he => ⟨?_, ?_⟩, by decide +kernel⟩
  · revert e; decide +kernel
  · obtain ⟨h1, h2, h3⟩ := enums_distinct e he
    unfold EnumDesc.compiles
    rw [decide_eq_true (EnumDesc.nodup_names h2 h3), decide_eq_true (EnumDesc.nodup_discr h1)]
    simp only [Bool.and_self, Bool.true_and, Bool.or_eq_true, bne_iff_ne, ne_eq, List.all_eq_true]
    by_cases hf : e.fromFn = some .from
    · right
      intro x _
      obtain ⟨v, hv⟩ := EnumDesc.lookup_total ((c27_from_exhaustive e he).1 hf) (UInt8.ofNat x)
      rw [hv]; rfl
    · exact Or.inl hf

example : (⟨"A", 8, [("X", 4), ("Y", 1)], true, true⟩ : FlagsDesc).extend (some .from) (some .reserved) =
    .ok ⟨"A", 8, [("X", 4), ("Y", 1)], true, true⟩ := by decide +kernel

/-- Declarations that are refused: two constants with the same bit, a constant with two bits, one
beyond the type. -/
example : (⟨"A", 8, [("X", 1), ("Y", 1)], true, true⟩ : FlagsDesc).extend (some .from) (some .reserved) =
      .error .strangeFlags ∧
    (⟨"A", 8, [("X", 3)], true, true⟩ : FlagsDesc).extend (some .from) (some .reserved) =
      .error .strangeFlags ∧
    (⟨"A", 8, [("X", 256)], true, true⟩ : FlagsDesc).extend (some .from) (some .reserved) =
      .error .strangeFlags := by decide +kernel

end Ublox.Props
