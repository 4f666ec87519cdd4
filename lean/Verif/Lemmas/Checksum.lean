import Verif.Model.Checksum
import Verif.Spec.Frame

/-!
# The checksum loops compute the specified sums
-/

namespace Ublox

open Spec

theorem byteSum_cons (x : UInt8) (xs : Bytes) : byteSum (x :: xs) = x.toNat + byteSum xs := by
  simp [byteSum]

theorem ckA_nil : ckA [] = 0 := rfl
theorem ckB_nil : ckB [] = 0 := rfl

theorem ckA_cons (x : UInt8) (xs : Bytes) : ckA (x :: xs) = x + ckA xs := by
  simp [ckA, byteSum_cons, UInt8.ofNat_add]

theorem sum_map_const_add (l : List Nat) (c : Nat) (f : Nat → Nat) :
    (l.map fun i => c + f i).sum = l.length * c + (l.map f).sum := by
  induction l with
  | nil => simp
  | cons a l ih => simp only [List.map_cons, List.sum_cons, List.length_cons, ih]; grind

theorem ckB_cons (x : UInt8) (xs : Bytes) :
    ckB (x :: xs) = UInt8.ofNat (xs.length + 1) * x + ckB xs := by
  unfold ckB
  rw [List.length_cons, List.range_succ_eq_map, List.map_cons, List.sum_cons, List.map_map]
  have : ((fun i => byteSum ((x :: xs).take (i + 1))) ∘ Nat.succ) =
      fun i => x.toNat + byteSum (xs.take (i + 1)) := by
    funext i
    simp [byteSum_cons]
  rw [this, sum_map_const_add, List.length_range]
  simp only [Nat.zero_add, List.take_succ_cons, List.take_zero, byteSum_cons, UInt8.ofNat_add,
    UInt8.ofNat_mul, UInt8.ofNat_toNat]
  have : byteSum [] = 0 := rfl
  rw [this]
  grind

theorem parserLoop_eq (xs : Bytes) (a b : UInt8) :
    ParserChecksum.update.loop xs a b = (a + ckA xs, b + UInt8.ofNat xs.length * a + ckB xs) := by
  induction xs generalizing a b with
  | nil => simp [ParserChecksum.update.loop, ckA_nil, ckB_nil]
  | cons x xs ih =>
    simp only [ParserChecksum.update.loop, ih, ckA_cons, ckB_cons, List.length_cons,
      UInt8.ofNat_add]
    refine Prod.ext ?_ ?_ <;> simp only <;> grind

theorem ckA_append (xs ys : Bytes) : ckA (xs ++ ys) = ckA xs + ckA ys := by
  induction xs with
  | nil => simp [ckA_nil]
  | cons x xs ih => simp only [List.cons_append, ckA_cons, ih]; grind

theorem ckB_append (xs ys : Bytes) :
    ckB (xs ++ ys) = ckB xs + UInt8.ofNat ys.length * ckA xs + ckB ys := by
  induction xs with
  | nil => simp [ckA_nil, ckB_nil]
  | cons x xs ih =>
    simp only [List.cons_append, ckB_cons, ckA_cons, ih, List.length_append, UInt8.ofNat_add]
    grind

theorem parserUpdate_eq (c : ChecksumCalc) (xs : Bytes) :
    ParserChecksum.update c xs =
      ⟨c.ckA + ckA xs, c.ckB + UInt8.ofNat xs.length * c.ckA + ckB xs⟩ := by
  simp [ParserChecksum.update, parserLoop_eq]

/-- The parser's checksum over two pieces. -/
theorem parserChecksum_eq (xs ys : Bytes) :
    ParserChecksum.result (ParserChecksum.update (ParserChecksum.update ParserChecksum.new xs) ys) =
      (ckA (xs ++ ys), ckB (xs ++ ys)) := by
  simp only [parserUpdate_eq, ParserChecksum.new, ParserChecksum.result, ckA_append, ckB_append]
  refine Prod.ext ?_ ?_ <;> simp only <;> grind

theorem ubxChecksumLoop_eq (xs : Bytes) (a b : UInt8) :
    ubxChecksum.loop xs a b = (a + ckA xs, b + UInt8.ofNat xs.length * a + ckB xs) := by
  induction xs generalizing a b with
  | nil => simp [ubxChecksum.loop, ckA_nil, ckB_nil]
  | cons x xs ih =>
    simp only [ubxChecksum.loop, ih, ckA_cons, ckB_cons, List.length_cons, UInt8.ofNat_add]
    refine Prod.ext ?_ ?_ <;> simp only <;> grind

/-- `ubx_checksum` computes the specified checksum. -/
theorem ubxChecksum_eq (xs : Bytes) : ubxChecksum xs = (ckA xs, ckB xs) := by
  simp [ubxChecksum, ubxChecksumLoop_eq]

theorem checksumCalc_update_eq (c : ChecksumCalc) (xs : Bytes) :
    c.update xs =
      ⟨c.ckA + ckA xs, c.ckB + UInt8.ofNat xs.length * c.ckA + ckB xs⟩ := by
  induction xs generalizing c with
  | nil => simp [ChecksumCalc.update, ckA_nil, ckB_nil]
  | cons x xs ih =>
    simp only [ChecksumCalc.update, ih, ckA_cons, ckB_cons, List.length_cons, UInt8.ofNat_add]
    congr 1 <;> grind

/-- Feeding pieces one after the other is the same as feeding their concatenation. -/
theorem checksumCalc_update_append (c : ChecksumCalc) (xs ys : Bytes) :
    (c.update xs).update ys = c.update (xs ++ ys) := by
  induction xs generalizing c with
  | nil => rfl
  | cons x xs ih => simp only [ChecksumCalc.update, ih, List.cons_append]

end Ublox
