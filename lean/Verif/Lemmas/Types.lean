import Std.Data.String.ToNat
import Verif.Model.GenTypes

/-! # Enums and bit flags: generic facts -/

namespace Ublox

/-! ## Enums -/

namespace EnumDesc

variable {e : EnumDesc}

theorem lookup_some {x : UInt8} {v : Variant} (h : e.lookup x = some v) :
    v ∈ e.allVariants ∧ v.2 = x := by
  unfold lookup at h
  exact ⟨List.mem_of_find?_eq_some h, by simpa using List.find?_some h⟩

theorem mem_allVariants_reserved (h : e.rest = some .reserved) (x : UInt8) :
    ∃ v ∈ e.allVariants, v.2 = x := by
  unfold allVariants
  rw [if_pos h]
  by_cases hx : x ∈ e.variants.map (·.2)
  · obtain ⟨v, hv, rfl⟩ := List.mem_map.mp hx
    exact ⟨v, List.mem_append_left _ hv, rfl⟩
  · refine ⟨("Reserved" ++ toString x.toNat, UInt8.ofNat x.toNat), List.mem_append_right _ ?_, ?_⟩
    · refine List.mem_map.mpr ⟨x.toNat, List.mem_filter.mpr ⟨?_, ?_⟩, rfl⟩
      · exact List.mem_range.mpr x.toNat_lt
      · have : UInt8.ofNat x.toNat = x := by simp
        simp only [this, Bool.not_eq_true', List.contains_eq_mem, decide_eq_false_iff_not]
        exact hx
    · simp

theorem lookup_total (h : e.rest = some .reserved) (x : UInt8) : ∃ v, e.lookup x = some v := by
  obtain ⟨v, hv, hx⟩ := mem_allVariants_reserved h x
  cases hl : e.lookup x with
  | some v => exact ⟨v, rfl⟩
  | none =>
    unfold lookup at hl
    exact absurd (by simp [hx]) (List.find?_eq_none.mp hl v hv)

/-- The first match is the only one. -/
theorem find?_eq_of_nodup {α : Type} (l : List (α × UInt8)) (h : (l.map (·.2)).Nodup)
    {v : α × UInt8} (hv : v ∈ l) : (l.find? fun w => w.2 == v.2) = some v := by
  induction l with
  | nil => simp at hv
  | cons a l ih =>
    simp only [List.map_cons, List.nodup_cons] at h
    rcases List.mem_cons.mp hv with rfl | hv
    · simp
    · have : a.2 ≠ v.2 := fun hc => h.1 (List.mem_map.mpr ⟨v, hv, hc.symm⟩)
      rw [List.find?_cons_of_neg (by simpa using this)]
      exact ih h.2 hv

theorem nodup_reserved (l : List UInt8) :
    ((((List.range 256).filter fun i => !l.contains (UInt8.ofNat i)).map
      fun i => (("Reserved" ++ toString i, UInt8.ofNat i) : Variant)).map (·.2)).Nodup := by
  rw [List.map_map]
  refine List.Pairwise.map _ ?_ (List.Pairwise.filter _ (List.nodup_range (n := 256)) |>.imp_of_mem ?_)
    (R := fun a b => a < 256 ∧ b < 256 ∧ a ≠ b)
  · intro a b ⟨ha, hb, hab⟩ hc
    apply hab
    have := congrArg UInt8.toNat hc
    simpa [UInt8.toNat_ofNat', Nat.mod_eq_of_lt ha, Nat.mod_eq_of_lt hb] using this
  · intro a b ha hb hab
    exact ⟨List.mem_range.mp (List.mem_filter.mp ha).1, List.mem_range.mp (List.mem_filter.mp hb).1,
      hab⟩

/-- Distinct declared discriminants give distinct discriminants of the generated enum. -/
theorem nodup_discr (h : (e.variants.map (·.2)).Nodup) : (e.allVariants.map (·.2)).Nodup := by
  unfold allVariants
  split
  · rw [List.map_append]
    refine List.nodup_append.mpr ⟨h, nodup_reserved _, ?_⟩
    intro a ha b hb hab
    subst hab
    obtain ⟨v, hv, rfl⟩ := List.mem_map.mp hb
    obtain ⟨i, hi, rfl⟩ := List.mem_map.mp hv
    have := (List.mem_filter.mp hi).2
    simp only [Bool.not_eq_true', List.contains_eq_mem, decide_eq_false_iff_not] at this
    exact this ha
  · exact h

theorem append_inj_right {s a b : String} (h : s ++ a = s ++ b) : a = b := by
  have := congrArg String.toList h
  simp only [String.toList_append, List.append_cancel_left_eq] at this
  exact String.toList_inj.mp this

theorem nodup_reserved_names (l : List UInt8) :
    ((((List.range 256).filter fun i => !l.contains (UInt8.ofNat i)).map
      fun i => (("Reserved" ++ toString i, UInt8.ofNat i) : Variant)).map (·.1)).Nodup := by
  rw [List.map_map]
  refine List.Pairwise.map _ ?_ (List.Pairwise.filter _ (List.nodup_range (n := 256)))
  intro a b hab hc
  exact hab (Nat.repr_injective (append_inj_right hc))

/-- Distinct declared names that do not begin with `Reserved` give distinct names of the generated
enum. -/
theorem nodup_names (h : (e.variants.map (·.1)).Nodup)
    (hr : ∀ v ∈ e.variants, v.1.toList.take 8 ≠ "Reserved".toList) :
    (e.allVariants.map (·.1)).Nodup := by
  unfold allVariants
  split
  · rw [List.map_append]
    refine List.nodup_append.mpr ⟨h, nodup_reserved_names _, ?_⟩
    intro a ha b hb hab
    subst hab
    obtain ⟨v, hv, rfl⟩ := List.mem_map.mp hb
    obtain ⟨w, hw, hwv⟩ := List.mem_map.mp ha
    obtain ⟨i, hi, rfl⟩ := List.mem_map.mp hv
    apply hr w hw
    rw [hwv]
    simp only [String.toList_append]
    rfl
  · exact h

end EnumDesc

/-! ## Bit flags -/

namespace FlagsDesc

variable (d : FlagsDesc)

theorem items_snd : d.items.map (·.2) = (List.range d.nbits).map fun bit => 1 <<< bit := by
  unfold items
  rw [List.map_map]
  apply List.map_congr_left
  intro bit _
  simp only [Function.comp_apply]
  split <;> rfl

theorem foldl_or_testBit (l : List Nat) (acc i : Nat) :
    (l.foldl (· ||| ·) acc).testBit i = (acc.testBit i || l.any (·.testBit i)) := by
  induction l generalizing acc with
  | nil => simp
  | cons a l ih => simp [ih, Nat.testBit_or, Bool.or_assoc]

theorem all_testBit (i : Nat) : d.all.testBit i = decide (i < d.nbits) := by
  unfold all
  rw [items_snd, foldl_or_testBit]
  simp only [Nat.zero_testBit, Bool.false_or, List.any_map]
  rw [Bool.eq_iff_iff]
  simp only [List.any_eq_true, List.mem_range, Function.comp_apply, decide_eq_true_eq]
  constructor
  · rintro ⟨b, hb, h⟩
    rw [Nat.one_shiftLeft, Nat.testBit_two_pow] at h
    simp at h; omega
  · intro h
    exact ⟨i, h, by rw [Nat.one_shiftLeft, Nat.testBit_two_pow]; simp⟩

/-- Every bit of the type is kept. -/
theorem fromBitsTruncate_eq {x : Nat} (h : x < 2 ^ d.nbits) : d.fromBitsTruncate x = x := by
  unfold fromBitsTruncate
  apply Nat.eq_of_testBit_eq
  intro i
  rw [Nat.testBit_and, all_testBit]
  by_cases hi : i < d.nbits
  · simp [hi]
  · have : x < 2 ^ i := Nat.lt_of_lt_of_le h (Nat.pow_le_pow_right (by omega) (by omega))
    simp [Nat.testBit_lt_two_pow this]

theorem fromBitsTruncate_lt (x : Nat) : d.fromBitsTruncate x < 2 ^ d.nbits := by
  apply Nat.lt_pow_two_of_testBit
  intro i hi
  unfold fromBitsTruncate
  rw [Nat.testBit_and, all_testBit]
  simp; omega

theorem contains_two_pow (x k : Nat) : flagsContains x (2 ^ k) = x.testBit k := by
  unfold flagsContains
  rw [Bool.eq_iff_iff, beq_iff_eq]
  constructor
  · intro h
    have := congrArg (Nat.testBit · k) h
    simpa [Nat.testBit_and, Nat.testBit_two_pow] using this
  · intro h
    apply Nat.eq_of_testBit_eq
    intro i
    rw [Nat.testBit_and, Nat.testBit_two_pow]
    by_cases hk : k = i <;> simp [hk]
    subst hk; exact h

end FlagsDesc

end Ublox
