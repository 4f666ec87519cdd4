import Verif.Model.GenTypes

/-!
# Configuration items (`CfgVal`)

`ublox/src/ubx_packets/cfg_val.rs`.  The macro `cfg_val!` turns a table of (name, key, value type)
into an enum with one variant per row and one `match` arm per row in every method; the model is
an interpreter of such a table, the table itself is `Gen.cfgItems`.
-/

namespace Ublox

/-- `cfg_val.rs:5-11`, `StorageSize` -/
inductive StorageSize where
  | oneBit | oneByte | twoBytes | fourBytes | eightBytes
  deriving DecidableEq, Repr

/-- `cfg_val.rs:13-22`, `StorageSize::to_usize` -/
def StorageSize.toUsize : StorageSize → Nat
  | .oneBit => 1
  | .oneByte => 1
  | .twoBytes => 2
  | .fourBytes => 4
  | .eightBytes => 8

/-- `cfg_val.rs:25`, `KeyId::SIZE` -/
def KeyId.SIZE : Nat := 4

/-- `cfg_val.rs:27-40`, `KeyId::value_size` -/
def KeyId.valueSize (key : UInt32) : StorageSize :=
  let bits := (key >>> 28) &&& 0b111
  if bits = 1 then .oneBit
  else if bits = 2 then .oneByte
  else if bits = 3 then .twoBytes
  else if bits = 4 then .fourBytes
  else if bits = 5 then .eightBytes
  else .oneBit

/-- `cfg_val.rs:42-44`, `KeyId::group_id` -/
def KeyId.groupId (key : UInt32) : UInt8 := (key >>> 16).toUInt8

/-- `cfg_val.rs:46-48`, `KeyId::item_id` -/
def KeyId.itemId (key : UInt32) : UInt8 := key.toUInt8

/-- `cfg_val.rs:1115-1121` -/
inductive TpPulse where
  | period | freq
  deriving DecidableEq, Repr

/-- `cfg_val.rs:1123-1129` -/
inductive TpPulseLength where
  | ratio | length
  deriving DecidableEq, Repr

/-- The value types for which the macros of `cfg_val.rs:51-209` have a rule. -/
inductive CfgTy where
  | bool | u8 | u16 | i16 | u32 | u64
  | cfgInfMask | dataBits | parity | stopBits | alignment | tpPulse | tpPulseLength
  deriving DecidableEq, Repr

/-- A value of one of these types; a `CfgInfMask` is represented by its bits. -/
inductive CfgValue where
  | bool (b : Bool)
  | u8 (v : UInt8)
  | u16 (v : UInt16)
  | i16 (v : Int16)
  | u32 (v : UInt32)
  | u64 (v : UInt64)
  | cfgInfMask (bits : UInt8)
  | dataBits (v : DataBits)
  | parity (v : Parity)
  | stopBits (v : StopBits)
  | alignment (v : AlignmentToReferenceTime)
  | tpPulse (v : TpPulse)
  | tpPulseLength (v : TpPulseLength)
  deriving DecidableEq, Repr

/-- The type of a value. -/
def CfgValue.ty : CfgValue → CfgTy
  | .bool _ => .bool
  | .u8 _ => .u8
  | .u16 _ => .u16
  | .i16 _ => .i16
  | .u32 _ => .u32
  | .u64 _ => .u64
  | .cfgInfMask _ => .cfgInfMask
  | .dataBits _ => .dataBits
  | .parity _ => .parity
  | .stopBits _ => .stopBits
  | .alignment _ => .alignment
  | .tpPulse _ => .tpPulse
  | .tpPulseLength _ => .tpPulseLength

/-- One row of the table given to `cfg_val!` (`cfg_val.rs:212-217`). -/
structure CfgItem where
  name : String
  key : UInt32
  ty : CfgTy
  deriving DecidableEq, Repr

/-- A value of the generated enum `CfgVal` (`cfg_val.rs:218-225`): the variant is the row of the
table, so a value of the enum is a pair with `value.ty = item.ty`. -/
structure CfgVal where
  item : CfgItem
  value : CfgValue
  deriving DecidableEq, Repr

/-- `cfg_val.rs:51-127`, macro `from_cfg_v_bytes!` -/
def CfgTy.fromCfgVBytes (ty : CfgTy) (buf : Bytes) : R CfgValue :=
  match ty with
  | .bool => do
    let b ← getByte buf 0
    if b = 0 then return .bool false else if b = 1 then return .bool true else .error .explicit
  | .u8 => do return .u8 (← getByte buf 0)
  | .u16 => do return .u16 (u16FromLe (← getByte buf 0) (← getByte buf 1))
  | .i16 => do return .i16 (u16FromLe (← getByte buf 0) (← getByte buf 1)).toInt16
  | .u32 => do
    return .u32 (u32FromLe (← getByte buf 0) (← getByte buf 1) (← getByte buf 2) (← getByte buf 3))
  | .u64 => do
    return .u64 (u64FromLe (← getByte buf 0) (← getByte buf 1) (← getByte buf 2) (← getByte buf 3)
      (← getByte buf 4) (← getByte buf 5) (← getByte buf 6) (← getByte buf 7))
  | .cfgInfMask => do
    let b ← getByte buf 0
    return .cfgInfMask (UInt8.ofNat (Gen.cfgInfMask_.fromBitsTruncate b.toNat))
  | .dataBits => do
    let b ← getByte buf 0
    if b = 0 then return .dataBits .eight
    else if b = 1 then return .dataBits .seven
    else .error .explicit
  | .parity => do
    let b ← getByte buf 0
    if b = 0 then return .parity .none
    else if b = 1 then return .parity .odd
    else if b = 2 then return .parity .even
    else .error .explicit
  | .stopBits => do
    let b ← getByte buf 0
    if b = 0 then return .stopBits .half
    else if b = 1 then return .stopBits .one
    else if b = 2 then return .stopBits .oneHalf
    else if b = 3 then return .stopBits .two
    else .error .explicit
  | .alignment => do
    let b ← getByte buf 0
    if b = 0 then return .alignment .utc
    else if b = 1 then return .alignment .gps
    else if b = 2 then return .alignment .glo
    else if b = 3 then return .alignment .bds
    else if b = 4 then return .alignment .gal
    else .error .explicit
  | .tpPulse => do
    let b ← getByte buf 0
    if b = 0 then return .tpPulse .period
    else if b = 1 then return .tpPulse .freq
    else .error .explicit
  | .tpPulseLength => do
    let b ← getByte buf 0
    if b = 0 then return .tpPulseLength .ratio
    else if b = 1 then return .tpPulseLength .length
    else .error .explicit

/-- `cfg_val.rs:129-209`, macro `into_cfg_kv_bytes!`: the bytes of the value. -/
def CfgValue.bytes : CfgValue → Bytes
  | .bool b => [if b then 1 else 0]
  | .u8 v => [v]
  | .u16 v => u16ToLe v
  | .i16 v => u16ToLe v.toUInt16
  | .u32 v => u32ToLe v
  | .u64 v => u64ToLe v
  | .cfgInfMask bits => [bits]
  | .dataBits v => [match v with | .eight => 0 | .seven => 1]
  | .parity v => [match v with | .none => 0 | .odd => 1 | .even => 2]
  | .stopBits v => [match v with | .half => 0 | .one => 1 | .oneHalf => 2 | .two => 3]
  | .alignment v => [v.intoRaw.toUInt8]
  | .tpPulse v => [match v with | .period => 0 | .freq => 1]
  | .tpPulseLength v => [match v with | .ratio => 0 | .length => 1]

/-- `cfg_val.rs:292`, `SIZE` of an item -/
def CfgItem.size (i : CfgItem) : Nat := KeyId.SIZE + (KeyId.valueSize i.key).toUsize

namespace CfgVal

/-- `cfg_val.rs:129-139`, `294-296`, `into_cfg_kv_bytes`: key bytes, then value bytes.  The return
type is `[u8; SIZE]`: an item whose value has another size does not compile (`illTyped`). -/
def intoCfgKvBytes (v : CfgVal) : R Bytes :=
  let bytes := u32ToLe v.item.key ++ v.value.bytes
  if bytes.length = v.item.size then .ok bytes else .error .illTyped

/-- `cfg_val.rs:228-236`, `len` -/
def len (v : CfgVal) : Nat := v.item.size

/-- `cfg_val.rs:238-240`, `is_empty` -/
def isEmpty (v : CfgVal) : Bool := v.len == 0

/-- `cfg_val.rs:243-253`, `parse`, for the table `items` -/
def parse (items : List CfgItem) (buf : Bytes) : R CfgVal := do
  let keyId := u32FromLe (← getByte buf 0) (← getByte buf 1) (← getByte buf 2) (← getByte buf 3)
  match items.find? fun i => i.key == keyId with
  | some i => return ⟨i, ← i.ty.fromCfgVBytes (← sliceFrom buf 4)⟩
  | none => .error .explicit

/-- `cfg_val.rs:255-272`, `extend_to`: the extended buffer and the number of bytes. -/
def extendTo (v : CfgVal) (buf : Bytes) : R (Bytes × Nat) := do
  let bytes ← v.intoCfgKvBytes
  return (buf ++ bytes, bytes.length)

/-- `cfg_val.rs:274-284`, `write_to`: the buffer after the write and the number of bytes. -/
def writeTo (v : CfgVal) (buf : Bytes) : R (Bytes × Nat) := do
  let kv ← v.intoCfgKvBytes
  if kv.length ≤ buf.length then return (kv ++ buf.drop kv.length, kv.length) else .error .slice

end CfgVal

/-- `packets.rs:1782-1785`, `CfgValIter` -/
structure CfgValIter where
  data : Bytes
  offset : Nat
  deriving DecidableEq, Repr

namespace CfgValIter

/-- `packets.rs:1791-1793`, the loop of `CfgValIter::new`: buffer and offset after the values are
written. -/
def writeAll (M : Nat) : List CfgVal → Bytes → Nat → R (Bytes × Nat)
  | [], data, offset => .ok (data, offset)
  | v :: vs, data, offset => do
    let rest ← sliceFrom data offset
    let (rest', n) ← v.writeTo rest
    writeAll M vs (data.take offset ++ rest') (← uadd M offset n)

/-- `packets.rs:1788-1799`, `CfgValIter::new` -/
def new (M : Nat) (data : Bytes) (values : List CfgVal) : R CfgValIter := do
  let (data, offset) ← writeAll M values data 0
  return ⟨← sliceRange data 0 offset, 0⟩

/-- `packets.rs:1805-1815`, `next` -/
def next (M : Nat) (items : List CfgItem) (it : CfgValIter) : R (Option CfgVal × CfgValIter) := do
  if it.offset < it.data.length then
    let v ← CfgVal.parse items (← sliceFrom it.data it.offset)
    return (some v, { it with offset := ← uadd M it.offset v.len })
  else return (none, it)

end CfgValIter

end Ublox
