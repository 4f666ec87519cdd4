import Verif.Model.DualBuffer

/-!
# The unit tests of the buffers, replayed on the model

These are tests of the model, not proofs: each `#guard` runs the definitions of `Verif.Model` on the
input of a test in `ublox/src/parser.rs` and compares with what the test asserts, so the build fails if
the model disagrees with the test suite of the crate.  `usize::MAX` is that of a 64-bit target.
-/

namespace Ublox.Validation

/-- `usize::MAX` -/
abbrev maxUsize : Nat := 2 ^ 64 - 1

/-- A `Vec<u8>`. -/
def vec (bytes : Bytes) : VecBuf maxUsize := ⟨bytes⟩

/-- A `FixedLinearBuffer` over `n` zeros. -/
def flb (n : Nat) : FixedLinearBuffer maxUsize := FixedLinearBuffer.new (List.replicate n 0)

/-- Takes in a row, as in the tests `dl_take_*`, then drop; what the takes returned and the buffer
afterwards. -/
def takes {T : Type} [UnderlyingBuffer T] (d : DualBuffer T) :
    List Nat → R (List (Except ParserError Bytes) × T)
  | [] => do return ([], ← d.dropDual)
  | n :: ns => do
    let (r, d) ← d.take maxUsize n
    let (rs, b) ← takes d ns
    return (r :: rs, b)

/-- Did it panic? -/
def panics {α : Type} : R α → Bool
  | .ok _ => false
  | .error _ => true

/-- Is this the value? -/
def returns {α : Type} [BEq α] (x : R α) (v : α) : Bool :=
  match x with
  | .ok a => a == v
  | .error _ => false

/-- Are these the results of the takes, and the bytes left? -/
def takesAre (x : R (List (Except ParserError Bytes) × VecBuf maxUsize)) (rs : List Bytes)
    (left : Bytes) : Bool :=
  match x with
  | .ok (r, b) => r.filterMap Except.toOption == rs && r.length == rs.length && b.bytes == left
  | .error _ => false

-- `dl_split_indexing`, parser.rs:510-519
#guard (List.range 8).all fun i =>
  returns ((DualBuffer.new (vec [1, 2, 3, 4]) [5, 6, 7, 8]).index maxUsize i) (UInt8.ofNat (i + 1))
-- `dl_take_too_many`, parser.rs:521-533
#guard panics (takes (DualBuffer.new (vec [1, 2, 3, 4]) []) [6])
-- `dl_take_range_underlying`, parser.rs:535-546
#guard takesAre (takes (DualBuffer.new (vec [1, 2, 3, 4]) []) [3]) [[1, 2, 3]] [4]
-- `dl_take_range_new`, parser.rs:548-559
#guard takesAre (takes (DualBuffer.new (vec []) [1, 2, 3, 4]) [3]) [[1, 2, 3]] [4]
-- `dl_take_range_overlapping`, parser.rs:561-572
#guard takesAre (takes (DualBuffer.new (vec [1, 2, 3, 4]) [5, 6, 7, 8]) [6])
  [[1, 2, 3, 4, 5, 6]] [7, 8]
-- `dl_take_multi_ranges`, parser.rs:574-587
#guard takesAre (takes (DualBuffer.new (vec [1, 2, 3, 4, 5, 6, 7]) [8, 9, 10, 11, 12]) [3, 3, 3, 3])
  [[1, 2, 3], [4, 5, 6], [7, 8, 9], [10, 11, 12]] []
-- `dl_take_multi_ranges2`, parser.rs:589-600
#guard takesAre (takes (DualBuffer.new (vec [1, 2, 3, 4, 5, 6, 7]) [8, 9, 10, 11, 12]) [3, 6])
  [[1, 2, 3], [4, 5, 6, 7, 8, 9]] [10, 11, 12]
-- `dl_move_then_copy`, parser.rs:602-614
#guard match ((flb 7).extendFromSlice [1, 2, 3, 4, 5, 6, 7]) with
  | .ok (b, _) =>
    match takes (DualBuffer.new b [8, 9, 10, 11, 12]) [3, 6] with
    | .ok ([.ok x, .ok y], b) => x == [1, 2, 3] && y == [4, 5, 6, 7, 8, 9] && b.len == 3
    | _ => false
  | .error _ => false
-- `dl_take_range_oom`, parser.rs:616-628: should panic, because `take` does not return the error
#guard match (DualBuffer.new (flb 4) [1, 2, 3, 4, 5, 6]).take maxUsize 6 with
  | .ok (.error (.outOfMemory 6), _) => false
  | _ => true

/-- `extend_from_slice(&[1, 2, 3])` on four zeros, and the chunk 4 .. 9: the buffers of the next
tests. -/
def dual3 : R (DualBuffer (FixedLinearBuffer maxUsize)) := do
  let (b, _) ← (flb 4).extendFromSlice [1, 2, 3]
  return DualBuffer.new b [4, 5, 6, 7, 8, 9]

-- `dl_drain_partial_underlying`, parser.rs:630-642
#guard match (do
    let d ← dual3
    let d ← d.drain maxUsize 2
    let n ← d.length maxUsize
    let (x, d) ← d.take maxUsize 4
    return (n, x.toOption, ← d.length maxUsize) : R _) with
  | .ok r => r == (7, some [3, 4, 5, 6], 3)
  | .error _ => false
-- `dl_drain`, parser.rs:644-655
#guard match (do
    let d ← dual3
    let d ← d.drain maxUsize 5
    let (x, d) ← d.take maxUsize 3
    return (x.toOption, ← d.length maxUsize) : R _) with
  | .ok r => r == (some [6, 7, 8], 1)
  | .error _ => false
-- `dl_clear`, parser.rs:657-668
#guard match (do
    let d ← dual3
    let n ← d.length maxUsize
    let d ← d.clear maxUsize
    return (n, ← d.length maxUsize) : R _) with
  | .ok r => r == (9, 0)
  | .error _ => false
-- `dl_peek_raw`, parser.rs:670-681
#guard match (do (← dual3).peekRaw maxUsize 2 6 : R _) with
  | .ok r => r == ([3], [4, 5, 6])
  | .error _ => false

/-- `extend_from_slice(&[1, 2, 3, 4, 5, 6, 7])` on sixteen zeros. -/
def flb7 : R (FixedLinearBuffer maxUsize) := do
  return (← (flb 16).extendFromSlice [1, 2, 3, 4, 5, 6, 7]).1

-- `flb_clear`, parser.rs:683-691
#guard returns (do let b ← flb7; return (b.len, b.clear.len)) (7, 0)
-- `flb_index_outside_range`, parser.rs:693-700
#guard panics (do (← flb7).range 5 10)
-- `flb_extend_outside_range`, parser.rs:702-710
#guard returns (do
  let b ← flb7
  let (b, _) ← b.extendFromSlice [1, 2, 3, 4, 5, 6, 7]
  let (b, n) ← b.extendFromSlice [1, 2, 3, 4, 5, 6, 7]
  return (b.len, n)) (16, 5)
-- `flb_drain`, parser.rs:712-725
#guard returns (do
  let b ← (← flb7).drain 3
  let x ← b.range 0 b.len
  let (c, _) ← b.extendFromSlice [1, 2, 3, 4, 5, 6, 7]
  return (b.len, x, c.len, ← c.range 0 c.len))
  (4, [4, 5, 6, 7], 11, [4, 5, 6, 7, 1, 2, 3, 4, 5, 6, 7])
-- `flb_drain_all`, parser.rs:727-735
#guard returns (do return (← (← flb7).drain 7).len) 0
-- `flb_find`, parser.rs:737-746
#guard returns (do
  let b : FixedLinearBuffer maxUsize := FixedLinearBuffer.new [1, 2, 3, 4, 5, 6, 7, 8]
  let x ← b.find 5
  let (b, _) ← b.extendFromSlice [1, 2, 3, 4]
  let y ← b.find 5
  let (b, _) ← b.extendFromSlice [5, 6, 7, 8]
  return (x, y, ← b.find 5)) (none, none, some 4)

end Ublox.Validation
