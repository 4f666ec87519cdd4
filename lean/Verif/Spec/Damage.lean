import Verif.Spec.Frame

/-!
# Specification of damaged frames
-/

namespace Ublox.Spec

/-- Where class, id and payload are in a frame with a payload of `n` bytes. -/
def DataPos (n k : Nat) : Prop := k = 2 ∨ k = 3 ∨ (6 ≤ k ∧ k < n + 6)

instance (n k : Nat) : Decidable (DataPos n k) := inferInstanceAs (Decidable (_ ∨ _ ∨ _))

/-- Two bytes `x` and `y`, `dist` positions apart, become `x'` and `y'`, and neither the sum of the
bytes nor the sum weighted by the position changes modulo 256. -/
def Cancel (dist : Nat) (x x' y y' : UInt8) : Prop :=
  (x.toNat + y.toNat) % 256 = (x'.toNat + y'.toNat) % 256 ∧
    dist * x.toNat % 256 = dist * x'.toNat % 256

instance (d : Nat) (x x' y y' : UInt8) : Decidable (Cancel d x x' y y') :=
  inferInstanceAs (Decidable (_ ∧ _))

/-- By how much the byte at position `k` changed from `f` to `g`. -/
def change (f g : Bytes) (k : Nat) : Int := ((g[k]?.getD 0).toNat : Int) - (f[k]?.getD 0).toNat

/-- The changes from `f` to `g`, both as long as a frame with a payload of `n` bytes, fit to each
other modulo 256: all changes before the checksum add up to the change of the first checksum byte,
and weighted with the distance to the checksum they add up to the change of the second one. -/
def Unnoticed (n : Nat) (f g : Bytes) : Prop :=
  ((List.range (n + 6)).map (change f g)).sum % 256 = change f g (n + 6) % 256 ∧
    ((List.range (n + 6)).map fun k => ((n + 6 - k : Nat) : Int) * change f g k).sum % 256 =
      change f g (n + 7) % 256

instance (n : Nat) (f g : Bytes) : Decidable (Unnoticed n f g) := inferInstanceAs (Decidable (_ ∧ _))

end Ublox.Spec
