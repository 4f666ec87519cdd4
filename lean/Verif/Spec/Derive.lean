import Verif.Spec.Packet

/-!
# Where the fields of a declaration are

For declarations with several fields of variable size.  The number of bytes of such a field is what
its size function returns for the payload.
-/

namespace Ublox.Spec

/-- The number of bytes of a field in a payload. -/
inductive Size (d : PackDesc) (payload : Bytes) : FieldDesc → Nat → Prop
  | fixed {f : FieldDesc} : width f.ty ≠ 0 → Size d payload f (width f.ty)
  | announced {f : FieldDesc} {s : SizeFn} {n : Nat} : width f.ty = 0 → f.sizeFn = some s →
      s.run d payload = .ok n → Size d payload f n

/-- The `i`-th field starts at this position: the fields before it come first. -/
inductive Position (d : PackDesc) (payload : Bytes) : Nat → Nat → Prop
  | zero : Position d payload 0 0
  | succ {i pos n : Nat} {f : FieldDesc} : Position d payload i pos → d.fields[i]? = some f →
      Size d payload f n → Position d payload (i + 1) (pos + n)

/-- The bytes of a field that starts at a position: as many as its size, or, if it has neither a fixed
size nor a size function, all that follow. -/
def Region (d : PackDesc) (payload : Bytes) (f : FieldDesc) (pos : Nat) (bytes : Bytes) : Prop :=
  (∃ n, Size d payload f n ∧ pos + n ≤ payload.length ∧ bytes = (payload.drop pos).take n) ∨
  (width f.ty = 0 ∧ f.sizeFn = none ∧ pos ≤ payload.length ∧ bytes = payload.drop pos)

/-- Only fields with announced size follow a field of variable size, and fields of fixed size have no
size function. -/
def Ordered (d : PackDesc) : Prop :=
  (∀ f ∈ d.fields, width f.ty ≠ 0 → f.sizeFn = none) ∧
  ∀ (i j : Nat) (f g : FieldDesc), i < j → d.fields[i]? = some f → d.fields[j]? = some g →
    width f.ty = 0 → width g.ty = 0 ∧ g.sizeFn ≠ none

/-- What the compiler guarantees: no two accessors of the same name, slices only of arrays. -/
def Compiles (d : PackDesc) : Prop :=
  (d.fields.map FieldDesc.getName).Nodup ∧
  ∀ f ∈ d.fields, f.getAsRef = true → width f.ty ≠ 0 → ∃ n, f.ty = .bytes n

end Ublox.Spec
