/-!
# Conventions shared by the model

Rust panics are values, `usize` arithmetic is checked.
-/

namespace Ublox

/-- The ways a Rust function can panic.  Not a type of `/repo`: it stands for the unwinding of
`panic!`, `unreachable!`, `unimplemented!`, `unwrap`, `expect`, slice indexing and checked
arithmetic (debug build). -/
inductive Panic where
  /-- slice or array index out of bounds -/
  | index
  /-- range index out of bounds, or `copy_from_slice` with different lengths -/
  | slice
  /-- `attempt to subtract with overflow` -/
  | underflow
  /-- `attempt to add/multiply with overflow` -/
  | overflow
  /-- explicit `panic!`, `unreachable!`, `unimplemented!` -/
  | explicit
  /-- `unwrap`/`expect` on `None`/`Err` -/
  | unwrap
  /-- `capacity overflow` of a `Vec` -/
  | capacity
  /-- out-of-bounds access through a raw pointer: undefined behaviour in Rust -/
  | undefinedBehaviour
  /-- not a Rust panic: the model was asked to evaluate something that the Rust compiler rejects
  (a value of the wrong type, a field that does not exist) -/
  | illTyped
  deriving DecidableEq, Repr

/-- Result of a Rust function that can panic. -/
abbrev R (α : Type) := Except Panic α

/-- A byte string. -/
abbrev Bytes := List UInt8

/-- `a + b` on `usize`, where `M` is `usize::MAX`. -/
def uadd (M a b : Nat) : R Nat := if a + b ≤ M then .ok (a + b) else .error .overflow

/-- `a - b` on `usize`. -/
def usub (a b : Nat) : R Nat := if b ≤ a then .ok (a - b) else .error .underflow

/-- `xs[i]` on a slice. -/
def getByte (xs : Bytes) (i : Nat) : R UInt8 :=
  match xs[i]? with
  | some b => .ok b
  | none => .error .index

/-- `&xs[s..e]` on a slice. -/
def sliceRange (xs : Bytes) (s e : Nat) : R Bytes :=
  if s ≤ e ∧ e ≤ xs.length then .ok ((xs.drop s).take (e - s)) else .error .slice

/-- `&xs[s..]` on a slice. -/
def sliceFrom (xs : Bytes) (s : Nat) : R Bytes :=
  if s ≤ xs.length then .ok (xs.drop s) else .error .slice

/-- `ublox/src/ubx_packets.rs:17` -/
def SYNC_CHAR_1 : UInt8 := 0xb5

/-- `ublox/src/ubx_packets.rs:18` -/
def SYNC_CHAR_2 : UInt8 := 0x62

/-- `u16::from_le_bytes([lo, hi])` followed by `usize::from`/`.into()`
(`ublox/src/parser.rs:491`). -/
def le16 (lo hi : UInt8) : Nat := lo.toNat + 256 * hi.toNat

end Ublox
