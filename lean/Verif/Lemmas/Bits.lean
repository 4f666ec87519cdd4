import Verif.Spec.Bits

namespace Ublox
open Spec

/-- Results of functions that can panic can be compared. -/
instance decEqExcept {ε α : Type} [DecidableEq ε] [DecidableEq α] : DecidableEq (Except ε α)
  | .ok a, .ok b => if h : a = b then isTrue (by rw [h]) else isFalse (by simpa using h)
  | .error a, .error b => if h : a = b then isTrue (by rw [h]) else isFalse (by simpa using h)
  | .ok _, .error _ => isFalse (by simp)
  | .error _, .ok _ => isFalse (by simp)

/-- A statement about all bytes is decided by its 256 instances. -/
instance decForallU8 (P : UInt8 → Prop) [DecidablePred P] : Decidable (∀ x, P x) :=
  haveI : DecidablePred fun n : Fin 256 => P (UInt8.ofNat n.1) := fun n => inferInstanceAs (Decidable (P _))
  decidable_of_iff (∀ n : Fin 256, P (UInt8.ofNat n.1))
    ⟨fun h x => by simpa using h ⟨x.toNat, x.toNat_lt⟩, fun h _ => h _⟩

theorem u32_shr_and (x : UInt32) (k m : Nat) (hk : k < 32) (hm : m ≤ 32) :
    ((x >>> UInt32.ofNat k) &&& UInt32.ofNat (2 ^ m - 1)).toNat = field x.toNat k m := by
  have h2 : 2 ^ m ≤ 2 ^ 32 := Nat.pow_le_pow_right (by omega) hm
  have hp : 0 < 2 ^ m := Nat.pow_pos (by omega)
  rw [UInt32.toNat_and, UInt32.toNat_shiftRight, UInt32.toNat_ofNat', UInt32.toNat_ofNat']
  rw [Nat.mod_eq_of_lt (a := 2 ^ m - 1) (by omega), Nat.mod_eq_of_lt (a := k) (by omega),
    Nat.mod_eq_of_lt hk, Nat.and_two_pow_sub_one_eq_mod, Nat.shiftRight_eq_div_pow]
  rfl

theorem u32_and (x : UInt32) (m : Nat) (hm : m ≤ 32) :
    (x &&& UInt32.ofNat (2 ^ m - 1)).toNat = field x.toNat 0 m := by
  have := u32_shr_and x 0 m (by omega) hm
  simpa using this

theorem u32_eq_iff (x : UInt32) (n : Nat) (h : n < 2 ^ 32) : x = UInt32.ofNat n ↔ x.toNat = n := by
  constructor
  · rintro rfl; rw [UInt32.toNat_ofNat', Nat.mod_eq_of_lt h]
  · intro hx; apply UInt32.toNat.inj; rw [hx, UInt32.toNat_ofNat', Nat.mod_eq_of_lt h]

/-- `(x >> k) & 1 != 0` is bit `k`. -/
theorem u32_bit (x : UInt32) (k : Nat) (hk : k < 32) :
    ((x >>> UInt32.ofNat k) &&& 1 != 0) = bit x.toNat k := by
  have h := u32_shr_and x k 1 hk (by omega)
  have e : UInt32.ofNat (2 ^ 1 - 1) = 1 := rfl
  rw [e] at h
  rw [Bool.eq_iff_iff, bne_iff_ne, ne_eq]
  have := u32_eq_iff ((x >>> UInt32.ofNat k) &&& 1) 0 (by omega)
  rw [show (0 : UInt32) = UInt32.ofNat 0 from rfl, this, h]
  unfold field bit
  have : x.toNat / 2 ^ k % 2 ^ 1 < 2 := Nat.mod_lt _ (by omega)
  simp only [beq_iff_eq]; omega

theorem and_two_pow_eq (x k : Nat) : x &&& 2 ^ k = if x.testBit k then 2 ^ k else 0 := by
  apply Nat.eq_of_testBit_eq
  intro i
  rw [Nat.testBit_and, Nat.testBit_two_pow]
  by_cases hk : k = i
  · subst hk
    cases h : x.testBit k <;> simp
  · cases h : x.testBit k <;> simp [hk]

/-- `(x & (1 << k)) > 0` is bit `k`. -/
theorem u32_mask (x : UInt32) (k : Nat) (hk : k < 32) :
    decide ((x &&& UInt32.ofNat (2 ^ k)) > 0) = bit x.toNat k := by
  have h2 : 2 ^ k < 2 ^ 32 := Nat.pow_lt_pow_right (by omega) hk
  have hp : 0 < 2 ^ k := Nat.pow_pos (by omega)
  rw [Bool.eq_iff_iff, decide_eq_true_iff, gt_iff_lt, UInt32.lt_iff_toNat_lt, UInt32.toNat_and,
    UInt32.toNat_ofNat', Nat.mod_eq_of_lt h2, and_two_pow_eq, Nat.testBit_eq_decide_div_mod_eq]
  have e2 : (0 : UInt32).toNat = 0 := rfl
  rw [e2]
  unfold bit
  by_cases hb : x.toNat / 2 ^ k % 2 = 1 <;> simp [hb, hp]

theorem u32_or4 (a b c d : UInt32) : a ||| b ||| c ||| d = c ||| b ||| d ||| a := by ac_rfl
theorem u32_or3 (a b c : UInt32) : a ||| b ||| c = b ||| c ||| a := by ac_rfl

end Ublox
