import Verif.Model.Pack

/-!
# Iterators over repeated blocks

`NavSatIter` and `MonVerExtensionIter` keep the bytes and an offset; the other four are wrappers
around `core::slice::ChunksExact`, whose state is the part of the slice that has not been visited,
without an incomplete block at the end.
-/

namespace Ublox

/-- The items of the iterators.  `sv` and `rawx` are references to a block with accessors of their
own (`NavSatSvInfoRef`, `RxmRawxInfoRef`). -/
inductive IterItem where
  | sv (data : Bytes)
  | str (s : Bytes)
  /-- `packets.rs:3173-3176`, `EsfMeasData` -/
  | esfMeas (dataType : UInt8) (dataField : UInt32)
  /-- `packets.rs:3218-3222`, `EsfRawData` -/
  | esfRaw (dataType : UInt8) (dataField sensorTimeTag : UInt32)
  | rawx (data : Bytes)
  | word (w : UInt32)
  deriving DecidableEq, Repr

/-- The state of an iterator: `packets.rs:735-738` and `3051-3054` (bytes and offset), or the state
of `core::slice::ChunksExact`. -/
inductive IterState where
  | offset (data : Bytes) (off : Nat)
  | chunks (rest : Bytes)
  deriving DecidableEq, Repr

/-- The functions `new`: `packets.rs:741-743` (NavSatIter), `3057-3059` (MonVerExtensionIter),
`3182-3184` (EsfMeasDataIter), `3228-3230` (EsfRawDataIter), `3495-3497` (DwrdIter), `3633-3635`
(RxmRawxInfoIter).  `chunks_exact(n)` of the standard library leaves out the last `len % n` bytes. -/
def IterKind.new (k : IterKind) (data : Bytes) : IterState :=
  let chunksExact (n : Nat) := IterState.chunks (data.take (data.length - data.length % n))
  match k with
  | .navSat => .offset data 0
  | .monVerExt => .offset data 0
  | .esfMeas => chunksExact 4
  | .esfRaw => chunksExact 8
  | .dwrd => chunksExact 4
  | .rxmRawx => chunksExact 32

/-- `ChunksExact::next` of the standard library -/
def chunksNext (n : Nat) (rest : Bytes) : Option Bytes × Bytes :=
  if rest.length < n then (none, rest) else (some (rest.take n), rest.drop n)

/-- `u8::try_from(x).unwrap()` for a `u32` -/
def u8TryFrom (x : UInt32) : R UInt8 :=
  if x.toNat < 256 then .ok (UInt8.ofNat x.toNat) else .error .unwrap

/-- The functions `next`: `packets.rs:753-761` (NavSatIter), `3069-3077` (MonVerExtensionIter),
`3194-3200` (EsfMeasDataIter), `3240-3249` (EsfRawDataIter), `3507-3511` (DwrdIter), `3645-3647`
(RxmRawxInfoIter). -/
def IterKind.next (M : Nat) (k : IterKind) (st : IterState) : R (Option IterItem × IterState) :=
  match k, st with
  | .navSat, .offset data off =>
    if off < data.length then do
      let slice ← sliceRange data off (← uadd M off 12)
      let off ← uadd M off 12
      return (some (.sv slice), .offset data off)
    else .ok (none, .offset data off)
  | .monVerExt, .offset data off =>
    if off < data.length then do
      let slice ← sliceRange data off (← uadd M off 30)
      let off ← uadd M off 30
      return (some (.str (← MonVer.convertToStrUnchecked slice)), .offset data off)
    else .ok (none, .offset data off)
  | .esfMeas, .chunks rest =>
    match chunksNext 4 rest with
    | (none, rest) => .ok (none, .chunks rest)
    | (some c, rest) => do
      let data ← u32FromSlice c
      let dataType ← u8TryFrom ((data &&& 0x3F000000) >>> 24)
      return (some (.esfMeas dataType (data &&& 0xFFFFFF)), .chunks rest)
  | .esfRaw, .chunks rest =>
    match chunksNext 8 rest with
    | (none, rest) => .ok (none, .chunks rest)
    | (some c, rest) => do
      let data ← u32FromSlice (← sliceRange c 0 4)
      let tag ← u32FromSlice (← sliceRange c 4 8)
      let dataType ← u8TryFrom ((data >>> 24) &&& 0xFF)
      return (some (.esfRaw dataType (data &&& 0xFFFFFF) tag), .chunks rest)
  | .dwrd, .chunks rest =>
    match chunksNext 4 rest with
    | (none, rest) => .ok (none, .chunks rest)
    | (some c, rest) => do return (some (.word (← u32FromSlice c)), .chunks rest)
  | .rxmRawx, .chunks rest =>
    match chunksNext 32 rest with
    | (none, rest) => .ok (none, .chunks rest)
    | (some c, rest) => .ok (some (.rawx c), .chunks rest)
  | _, _ => .error .illTyped

end Ublox
