import Verif.Model.Basic

/-!
# Underlying buffers: the trait and its two implementations
-/

namespace Ublox

/-- `ublox/src/parser.rs:15-52`, trait `UnderlyingBuffer` together with its two supertraits
`Index<Range<usize>>` and `Index<usize>`.  The trait default methods `find` and `is_empty` are
`UnderlyingBuffer.findDefault` and `UnderlyingBuffer.isEmpty`. -/
class UnderlyingBuffer (T : Type) where
  /-- `clear` -/
  clear : T → T
  /-- `len` -/
  len : T → Nat
  /-- `max_capacity` -/
  maxCapacity : T → Nat
  /-- `extend_from_slice`: new state and number of bytes not copied -/
  extendFromSlice : T → Bytes → R (T × Nat)
  /-- `drain(count)` -/
  drain : T → Nat → R T
  /-- `self[i]` -/
  index : T → Nat → R UInt8
  /-- `self[s..e]` -/
  range : T → Nat → Nat → R Bytes
  /-- `find` -/
  find : T → UInt8 → R (Option Nat)

/-- `(i..i+n).find(|&i| self[i] == value)` for an index function. -/
def findIndex (idx : Nat → R UInt8) (value : UInt8) : (i n : Nat) → R (Option Nat)
  | _, 0 => .ok none
  | i, n + 1 => do
    let b ← idx i
    if b == value then
      return some i
    else
      findIndex idx value (i + 1) n

/-- `ublox/src/parser.rs:49-51`, default method `is_empty`. -/
def UnderlyingBuffer.isEmpty {T : Type} [UnderlyingBuffer T] (b : T) : Bool :=
  UnderlyingBuffer.len b == 0

/-- A `Vec<u8>` used as underlying buffer; `M` is `usize::MAX`. -/
structure VecBuf (M : Nat) where
  bytes : Bytes
  deriving DecidableEq, Repr

/-- `ublox/src/parser.rs:55-80`, `impl UnderlyingBuffer for Vec<u8>`.  `Vec::extend_from_slice`
panics with `capacity overflow` when the length would exceed `isize::MAX`; running out of memory
before that aborts the process and is not modelled.  `Vec::drain(0..count)` panics if `count` is
larger than the length. -/
instance (M : Nat) : UnderlyingBuffer (VecBuf M) where
  clear _ := ⟨[]⟩
  len v := v.bytes.length
  maxCapacity _ := M
  extendFromSlice v other :=
    if v.bytes.length + other.length ≤ M / 2 then .ok (⟨v.bytes ++ other⟩, 0)
    else .error .capacity
  drain v count :=
    if count ≤ v.bytes.length then .ok ⟨v.bytes.drop count⟩ else .error .slice
  index v i := getByte v.bytes i
  range v s e := sliceRange v.bytes s e
  find v value := .ok (v.bytes.findIdx? (fun elem => elem == value))

/-- `ublox/src/parser.rs:82-85`, `FixedLinearBuffer`: the borrowed backing slice and the length;
`M` is `usize::MAX`. -/
structure FixedLinearBuffer (M : Nat) where
  buffer : Bytes
  len : Nat
  deriving DecidableEq, Repr

namespace FixedLinearBuffer

variable {M : Nat}

/-- `ublox/src/parser.rs:87-94`, `FixedLinearBuffer::new`. -/
def new (buf : Bytes) : FixedLinearBuffer M := ⟨buf, 0⟩

/-- `ublox/src/parser.rs:96-105`, `Index<Range<usize>>`. -/
def range (f : FixedLinearBuffer M) (s e : Nat) : R Bytes :=
  if e > f.len then .error .explicit
  else sliceRange f.buffer s e

/-- `ublox/src/parser.rs:107-113`, `Index<usize>`: only checked against the backing slice. -/
def index (f : FixedLinearBuffer M) (i : Nat) : R UInt8 := getByte f.buffer i

/-- `ublox/src/parser.rs:116-118`, `clear`. -/
def clear (f : FixedLinearBuffer M) : FixedLinearBuffer M := { f with len := 0 }

/-- `ublox/src/parser.rs:128-134`, `extend_from_slice`.  The two slicings and the
`copy_from_slice` (which panics on different lengths) are spelled out. -/
def extendFromSlice (f : FixedLinearBuffer M) (other : Bytes) :
    R (FixedLinearBuffer M × Nat) := do
  let room ← usub f.buffer.length f.len
  let toCopy := min other.length room
  let uncopyable ← usub other.length toCopy
  let stop ← uadd M f.len toCopy
  let dst ← sliceRange f.buffer f.len stop
  let src ← sliceRange other 0 toCopy
  if dst.length ≠ src.length then .error .slice
  let buffer := f.buffer.take f.len ++ src ++ f.buffer.drop stop
  let len ← uadd M f.len toCopy
  return (⟨buffer, len⟩, uncopyable)

/-- `core::ptr::copy(p.add(src), p, n)` inside one allocation of which `mem` are the bytes
(`ublox/src/parser.rs:144-147`): memmove semantics, undefined behaviour if the source or the
destination range leaves the allocation. -/
def memmove (mem : Bytes) (src n : Nat) : R Bytes :=
  if src + n ≤ mem.length ∧ n ≤ mem.length then
    .ok ((mem.drop src).take n ++ mem.drop n)
  else .error .undefinedBehaviour

/-- `ublox/src/parser.rs:136-150`, `drain`. -/
def drain (f : FixedLinearBuffer M) (count : Nat) : R (FixedLinearBuffer M) := do
  if count ≥ f.len then
    return { f with len := 0 }
  let newSize ← usub f.len count
  let buffer ← memmove f.buffer count newSize
  return ⟨buffer, newSize⟩

/-- `ublox/src/parser.rs:152-154`, `find`. -/
def find (f : FixedLinearBuffer M) (value : UInt8) : R (Option Nat) :=
  findIndex f.index value 0 f.len

end FixedLinearBuffer

/-- `ublox/src/parser.rs:115-155`, `impl UnderlyingBuffer for FixedLinearBuffer`. -/
instance (M : Nat) : UnderlyingBuffer (FixedLinearBuffer M) where
  clear := FixedLinearBuffer.clear
  len f := f.len
  maxCapacity f := f.buffer.length
  extendFromSlice := FixedLinearBuffer.extendFromSlice
  drain := FixedLinearBuffer.drain
  index := FixedLinearBuffer.index
  range := FixedLinearBuffer.range
  find := FixedLinearBuffer.find

end Ublox
