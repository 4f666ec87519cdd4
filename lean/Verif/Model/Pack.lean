import Verif.Model.Scale
import Verif.Model.CfgVal
import Verif.Model.Checksum
import Verif.Model.DualBuffer

/-!
# Packets

The derive macros of `ublox_derive` turn a packet declaration into accessors, a `validate` function
and a builder.  The model has the declaration as data (`PackDesc`), the compile-time part of the
macros as functions on that data (`genGetters`, `packetPayloadSize`) and the generated code as
functions of the declaration and of the bytes or values at run time.  The declarations themselves
are in `Verif.Model.GenPackets`.
-/

namespace Ublox

/-- The iterator types of fields without static size (`packets.rs:735`, `3051`, `3179`, `3225`,
`3492`, `3630`). -/
inductive IterKind where
  | navSat | monVerExt | esfMeas | esfRaw | rxmRawx | dwrd
  deriving DecidableEq, Repr

/-- The types that occur as `map_type` in packet declarations, together with the conversion
functions named by `from`, `is_valid` (`ublox_derive/src/types.rs:93-118`). -/
inductive Conv where
  | f32 | f64
  | enum (e : EnumDesc)
  | flags (d : FlagsDesc)
  | fixStatusInfo | navSatSvFlags | timTpFlags | timTpRefInfo | timTm2Flags
  | uartMode | itfmConfig | itfmConfig2
  | resetMode | alignment
  /-- `Option<&str>`, `inf::convert_to_str` -/
  | infStr
  /-- `&str`, `mon_ver::convert_to_str_unchecked` -/
  | cstr
  /-- `Option<u32>`, `EsfMeas::calib_tag` -/
  | calibTag
  | iter (k : IterKind)
  deriving DecidableEq, Repr

/-- A value of a field type.  Not a type of `/repo`: the union of the types of all fields. -/
inductive Val where
  | raw (r : RawVal)
  | f32 (x : Fl)
  | f64 (x : Fl)
  | enum (v : Variant)
  | flags (bits : Nat)
  /-- a newtype around the raw value: `FixStatusInfo`, `NavSatSvFlags`, `TimTpFlags`,
  `TimTpRefInfo`, `TimTm2Flags` -/
  | wrapped (r : RawVal)
  | uartMode (m : UartMode)
  | itfmConfig (c : CfgItfmConfig)
  | itfmConfig2 (c : CfgItfmConfig2)
  | resetMode (m : ResetMode)
  | alignment (a : AlignmentToReferenceTime)
  | optStr (s : Option Bytes)
  | str (s : Bytes)
  | optU32 (x : Option UInt32)
  /-- an iterator that has not been advanced: the bytes that it iterates over -/
  | iter (k : IterKind) (data : Bytes)
  | cfgVals (vs : List CfgVal)
  deriving DecidableEq, Repr

/-- The functions that occur as `size_fn` (`packets.rs:3157-3169`). -/
inductive SizeFn where
  | dataLen | calibTagLen
  deriving DecidableEq, Repr

/-- `ublox_derive/src/types.rs:62-100`, `PackField`, `PackFieldMapDesc` and `MapTypeDesc`. -/
structure FieldDesc where
  name : String
  ty : RawTy
  map : Option Conv := none
  scale : Option Rat := none
  alias : Option String := none
  mayFail : Bool := false
  getAsRef : Bool := false
  sizeFn : Option SizeFn := none
  deriving DecidableEq, Repr

/-- `ublox_derive/src/types.rs:46-60`, `PayloadLen` -/
inductive PayloadLen where
  | fixed (n : Nat)
  | max (n : Nat)
  deriving DecidableEq, Repr

/-- Which attribute the declaration carries (`ublox_derive/src/lib.rs:17-72`): it decides which
code is generated. -/
inductive PackKind where
  | recv | send | recvSend
  deriving DecidableEq, Repr

/-- `ublox_derive/src/types.rs:6-11`, `39-44`, `PackDesc` and `PackHeader` (without comments). -/
structure PackDesc where
  name : String
  kind : PackKind
  cls : UInt8
  id : UInt8
  payloadLen : PayloadLen
  defaultForBuilder : Bool
  fields : List FieldDesc
  deriving DecidableEq, Repr

/-- `ublox_derive/src/types.rs:164-166`, `intermediate_field_name`: the name of the accessor. -/
def FieldDesc.getName (f : FieldDesc) : String := f.alias.getD f.name

/-- `ublox_derive/src/output.rs:285-288`, the constant `MAX_PAYLOAD_LEN` of a packet. -/
def PackDesc.maxPayloadLen (d : PackDesc) : Nat :=
  match d.payloadLen with
  | .fixed x => x
  | .max x => x

/-- `ublox_derive/src/output.rs:280-283`, the constant `FIXED_PAYLOAD_LEN` of a packet. -/
def PackDesc.fixedPayloadLen (d : PackDesc) : Option Nat :=
  match d.payloadLen with
  | .fixed x => some x
  | .max _ => none

/-- Sum of the static sizes, `none` if one of them is unknown (`ublox_derive/src/types.rs:27-36`,
`fields_size`). -/
def fieldsSize : List FieldDesc → Option Nat
  | [] => some 0
  | f :: fs => do
    let n ← f.ty.size
    return n + (← fieldsSize fs)

/-- `ublox_derive/src/types.rs:15-17`, `packet_payload_size` -/
def PackDesc.packetPayloadSize (d : PackDesc) : Option Nat := fieldsSize d.fields

/-- `ublox_derive/src/types.rs:19-21`, `packet_payload_size_except_last_field` -/
def PackDesc.sizeExceptLast (d : PackDesc) : Option Nat := fieldsSize d.fields.dropLast

/-- `ublox_derive/src/types.rs:23-25`, `packet_payload_size_except_size_fn` -/
def PackDesc.sizeExceptSizeFn (d : PackDesc) : Option Nat :=
  fieldsSize (d.fields.filter fun f => f.sizeFn.isNone)

/-! ## Conversions -/

/-- `<u32>::from_le_bytes(bytes.try_into().unwrap())` for a slice -/
def u32FromSlice (bs : Bytes) : R UInt32 :=
  match bs with
  | [a, b, c, d] => .ok (u32FromLe a b c d)
  | _ => .error .unwrap

/-- `chunks(n)` of the Rust standard library, for `n > 0`: blocks of `n` bytes, the last one may be
shorter. -/
def chunks (n : Nat) (bs : Bytes) : List Bytes :=
  if _h : bs = [] ∨ n = 0 then []
  else bs.take n :: chunks n (bs.drop n)
termination_by bs.length
decreasing_by
  simp only [not_or] at _h
  have := List.length_pos_iff.mpr _h.1
  simp only [List.length_drop]; omega

/-- `.iter().all(f)` for a predicate that may panic. -/
def allR {α : Type} (f : α → R Bool) : List α → R Bool
  | [] => .ok true
  | x :: xs => do if ← f x then allR f xs else return false

/-- The `is_valid` functions of the iterators: `packets.rs:745-747` (NavSatIter), `3061-3063`
(MonVerExtensionIter), `3186-3188` (EsfMeasDataIter), `3232-3234` (EsfRawDataIter), `3499-3501`
(DwrdIter), `3637-3639` (RxmRawxInfoIter). -/
def IterKind.isValid (k : IterKind) (bytes : Bytes) : R Bool :=
  match k with
  | .navSat => .ok (bytes.length % 12 == 0)
  | .monVerExt => do
    if bytes.length % 30 == 0 then allR MonVer.isCstrValid (chunks 30 bytes) else return false
  | .esfMeas => .ok (bytes.length % 4 == 0)
  | .esfRaw => .ok (bytes.length % 8 == 0)
  | .dwrd => .ok (bytes.length % 4 == 0)
  | .rxmRawx => .ok (bytes.length % 32 == 0)

/-- `f64::from(raw)`: defined for integers of at most 32 bits. -/
def RawVal.toInt? : RawVal → Option Int
  | .u8 v => some v.toNat
  | .i8 v => some v.toInt
  | .u16 v => some v.toNat
  | .i16 v => some v.toInt
  | .u32 v => some v.toNat
  | .i32 v => some v.toInt
  | _ => none

/-- `f32::from(raw)`: defined for integers of at most 16 bits. -/
def RawVal.toInt16? : RawVal → Option Int
  | .u8 v => some v.toNat
  | .i8 v => some v.toInt
  | .u16 v => some v.toNat
  | .i16 v => some v.toInt
  | _ => none

/-- The raw value as a natural number if it is an unsigned integer of `n` bits. -/
def RawVal.unsigned? (n : Nat) : RawVal → Option Nat
  | .u8 v => if n = 8 then some v.toNat else none
  | .u16 v => if n = 16 then some v.toNat else none
  | .u32 v => if n = 32 then some v.toNat else none
  | _ => none

/-- The unsigned integer of `n` bits. -/
def RawVal.ofUnsigned (n : Nat) (x : Nat) : R RawVal :=
  if n = 8 then .ok (.u8 (UInt8.ofNat x))
  else if n = 16 then .ok (.u16 (UInt16.ofNat x))
  else if n = 32 then .ok (.u32 (UInt32.ofNat x))
  else .error .illTyped

/-- The `from` function of a field (`ublox_derive/src/types.rs:108-114`): `<ty>::from`, or
`<ty>::from_unchecked` if the conversion may fail, or the function named in the declaration. -/
def Conv.convert (c : Conv) (mayFail : Bool) (r : RawVal) : R Val :=
  match c, r with
  | .f64, r =>
    match r.toInt? with
    | some n => .ok (.f64 (Fl.ofInt n))
    | none => .error .illTyped
  | .f32, r =>
    match r.toInt16? with
    | some n => .ok (.f32 (Fl.ofInt n))
    | none => .error .illTyped
  | .enum e, .u8 x =>
    if mayFail then
      if e.fromFn = some .fromUnchecked then do return .enum (← e.fromUnchecked x)
      else .error .illTyped
    else if e.fromFn = some .from then do return .enum (← e.from x)
    else .error .illTyped
  | .flags d, r =>
    match r.unsigned? d.nbits with
    | some x => if d.from_ && !mayFail then .ok (.flags (d.fromBitsTruncate x)) else .error .illTyped
    | none => .error .illTyped
  | .fixStatusInfo, .u8 x => .ok (.wrapped (.u8 x))
  | .navSatSvFlags, .u32 x => .ok (.wrapped (.u32 x))
  | .timTpFlags, .u8 x => .ok (.wrapped (.u8 x))
  | .timTpRefInfo, .u8 x => .ok (.wrapped (.u8 x))
  | .timTm2Flags, .u8 x => .ok (.wrapped (.u8 x))
  | .uartMode, .u32 x => do return .uartMode (← UartMode.from x)
  | .itfmConfig, .u32 x => .ok (.itfmConfig (CfgItfmConfig.from_ x))
  | .itfmConfig2, .u32 x => .ok (.itfmConfig2 (CfgItfmConfig2.from_ x))
  | .infStr, .bytes bs => .ok (.optStr (Inf.convertToStr bs))
  | .cstr, .bytes bs => do return .str (← MonVer.convertToStrUnchecked bs)
  | .calibTag, .bytes bs =>
    -- `packets.rs:3151-3153`: `bytes.try_into().ok().map(u32::from_le_bytes)`
    .ok (.optU32 (u32FromSlice bs).toOption)
  | .iter k, .bytes bs => .ok (.iter k bs)
  | _, _ => .error .illTyped

/-- The `is_valid` function of a field (`ublox_derive/src/types.rs:116-118`). -/
def Conv.isValid (c : Conv) (r : RawVal) : R Bool :=
  match c, r with
  | .enum e, .u8 x => .ok (e.isValid x)
  | .infStr, .bytes bs => .ok (Inf.isValid bs)
  | .cstr, .bytes bs => MonVer.isCstrValid bs
  | .iter k, .bytes bs => k.isValid bs
  | _, _ => .error .illTyped

/-- The `into` function of a field (`ublox_derive/src/types.rs:120-133`): `ScaleBack` for scaled
floats, `<ty>::into_raw` otherwise. -/
def Conv.intoRaw (c : Conv) (scale : Option Rat) (ty : RawTy) (v : Val) : R RawVal :=
  match c, v with
  | .f64, .f64 x =>
    match scale with
    | some s => (ScaleBack.ofScale fmt64 s).asRaw ty x
    | none => .error .illTyped
  | .f32, .f32 x =>
    match scale with
    | some s => (ScaleBack.ofScale fmt32 s).asRaw ty x
    | none => .error .illTyped
  | .enum e, .enum x =>
    if e.intoRaw && e.allVariants.contains x then .ok (.u8 (EnumDesc.intoRawVal x))
    else .error .illTyped
  | .flags d, .flags bits =>
    if d.intoRaw && d.fromBitsTruncate bits == bits then RawVal.ofUnsigned d.nbits bits
    else .error .illTyped
  | .uartMode, .uartMode m => .ok (.u32 m.intoRaw)
  | .itfmConfig, .itfmConfig c => .ok (.u32 c.intoRaw)
  | .itfmConfig2, .itfmConfig2 c => .ok (.u32 c.intoRaw)
  | .resetMode, .resetMode m => .ok (.u8 m.intoRaw)
  | .alignment, .alignment a => .ok (.u16 a.intoRaw)
  | _, _ => .error .illTyped

/-- `val * scale` (`ublox_derive/src/output.rs:132-134`) -/
def mulScale (v : Val) (s : Rat) : R Val :=
  match v with
  | .f64 x => .ok (.f64 (Fl.mul fmt64 x (Fl.lit fmt64 s)))
  | .f32 x => .ok (.f32 (Fl.mul fmt32 x (Fl.lit fmt32 s)))
  | _ => .error .illTyped

/-! ## Accessors -/

/-- What the macro knows when it generates the accessor of a field: the field, the offset `off` and
the size functions collected so far (`ublox_derive/src/output.rs:81-86`). -/
structure Getter where
  field : FieldDesc
  off : Nat
  sizeFns : List SizeFn
  deriving DecidableEq, Repr

/-- The loop of the macro over the fields (`ublox_derive/src/output.rs:85-196`): offsets advance by
the static sizes only (`143`), size functions are collected (`154`). -/
def genGetters : List FieldDesc → Nat → List SizeFn → List Getter
  | [], _, _ => []
  | f :: fs, off, sizeFns =>
    match f.ty.size with
    | some n => ⟨f, off, sizeFns⟩ :: genGetters fs (off + n) sizeFns
    | none => ⟨f, off, sizeFns⟩ :: genGetters fs off (sizeFns ++ f.sizeFn.toList)

/-- The accessors of a packet. -/
def PackDesc.getters (d : PackDesc) : List Getter := genGetters d.fields 0 []

/-- `[data[off], data[off + 1], ..]` (`ublox_derive/src/output.rs:832-836`) -/
def readBytes (data : Bytes) (off : Nat) : Nat → R Bytes
  | 0 => .ok []
  | n + 1 => do
    let b ← getByte data off
    return b :: (← readBytes data (off + 1) n)

/-- `ublox_derive/src/output.rs:826-851`, `get_raw_field_code` -/
def getRawField (f : FieldDesc) (off : Nat) (data : Bytes) : R RawVal :=
  match f.ty.size with
  | none => .error .illTyped
  | some n =>
    if f.getAsRef then do return .bytes (← sliceRange data off (off + n))
    else match f.ty with
      | .bytes _ => do return .bytes (← readBytes data off n)
      | ty =>
        if n ≠ 1 ∨ ty = .i8 then do ty.fromLeBytes (← readBytes data off n)
        else do return .u8 (← getByte data off)

/-- The conversion part of an accessor: `from`, then the scale
(`ublox_derive/src/output.rs:126-134`, `165-168`). -/
def FieldDesc.convert (f : FieldDesc) (r : RawVal) : R Val := do
  let v ← match f.map with
    | some c => c.convert f.mayFail r
    | none => pure (.raw r)
  match f.scale with
  | some s => mulScale v s
  | none => return v

/-- The accessor of a field with static size (`ublox_derive/src/output.rs:92-142`). -/
def Getter.runSized (g : Getter) (data : Bytes) : R Val := do
  g.field.convert (← getRawField g.field g.off data)

/-- The accessor `flags` of the packet whose size functions are evaluated; it returns a `u16`. -/
def flagsOf (d : PackDesc) (data : Bytes) : R UInt16 := do
  match d.getters.find? fun g => g.field.getName == "flags" with
  | none => .error .illTyped
  | some g =>
    match ← g.runSized data with
    | .raw (.u16 x) => return x
    | _ => .error .illTyped

/-- `packets.rs:3157-3169`, `EsfMeasRef::data_len` and `calib_tag_len` -/
def SizeFn.run (s : SizeFn) (d : PackDesc) (data : Bytes) : R Nat := do
  let flags ← flagsOf d data
  match s with
  | .dataLen => return ((flags >>> 11) &&& 0x1f).toNat * 4
  | .calibTagLen => return if flags &&& 0x8 != 0 then 4 else 0

/-- `off + self.f1() + self.f2() + ..` (`ublox_derive/src/output.rs:150`, `234`).  The values of
the size functions are at most 128: the sum cannot overflow. -/
def sumSizeFns (d : PackDesc) (data : Bytes) : Nat → List SizeFn → R Nat
  | acc, [] => .ok acc
  | acc, s :: ss => do sumSizeFns d data (acc + (← s.run d data)) ss

/-- `&self.0[range]` for a field without static size (`ublox_derive/src/output.rs:147-160`). -/
def Getter.tailBytes (d : PackDesc) (g : Getter) (data : Bytes) : R Bytes :=
  match g.field.sizeFn with
  | some s => do
    let offset ← sumSizeFns d data g.off g.sizeFns
    sliceRange data offset (offset + (← s.run d data))
  | none => sliceFrom data g.off

/-- The generated accessor of a field (`ublox_derive/src/output.rs:91-195`). -/
def Getter.run (d : PackDesc) (g : Getter) (data : Bytes) : R Val :=
  match g.field.ty.size with
  | some _ => g.runSized data
  | none => do
    let bs ← g.tailBytes d data
    match g.field.map with
    | some c => c.convert g.field.mayFail (.bytes bs)
    | none => return .raw (.bytes bs)

/-- The generated accessor `<name>_raw` of a mapped field with static size
(`ublox_derive/src/output.rs:97-111`); it exists only for mapped fields. -/
def Getter.runRaw (g : Getter) (data : Bytes) : R RawVal :=
  if g.field.map.isSome then getRawField g.field g.off data else .error .illTyped

/-- The accessor named `name`, called on a payload. -/
def PackDesc.get (d : PackDesc) (name : String) (data : Bytes) : R Val :=
  match d.getters.find? fun g => g.field.getName == name with
  | some g => g.run d data
  | none => .error .illTyped

/-- The accessor `name_raw`, called on a payload. -/
def PackDesc.getRaw (d : PackDesc) (name : String) (data : Bytes) : R RawVal :=
  match d.getters.find? fun g => g.field.getName == name with
  | some g => g.runRaw data
  | none => .error .illTyped

/-! ## `validate` -/

/-- One validator (`ublox_derive/src/output.rs:113-125`, `170-181`): `none` if the field has no
validator, otherwise whether the field is valid.  The validator of a field without static size gets
everything from `off` on. -/
def Getter.check (g : Getter) (payload : Bytes) : R Bool :=
  match g.field.map with
  | none => .ok true
  | some c =>
    if g.field.mayFail then
      match g.field.ty.size with
      | some _ => do c.isValid (← getRawField g.field g.off payload)
      | none => do c.isValid (.bytes (← sliceFrom payload g.off))
    else .ok true

/-- The validators in the order of the fields, up to the first that fails. -/
def runChecks (d : PackDesc) (payload : Bytes) : List Getter → R (Except ParserError Unit)
  | [] => .ok (.ok ())
  | g :: gs => do
    if ← g.check payload then runChecks d payload gs
    else return .error (.invalidField d.name g.field.getName)

/-- `ublox_derive/src/output.rs:198-251`, the generated `validate` -/
def PackDesc.validate (d : PackDesc) (payload : Bytes) : R (Except ParserError Unit) :=
  let got := payload.length
  match d.packetPayloadSize with
  | some expect =>
    if got = expect then runChecks d payload d.getters
    else .ok (.error (.invalidPacketLen d.name expect got))
  | none =>
    let sizeFns := d.fields.filterMap (·.sizeFn)
    if sizeFns.isEmpty then
      match d.sizeExceptLast with
      | none => .error .illTyped
      | some min =>
        if min ≤ got then runChecks d payload d.getters
        else .ok (.error (.invalidPacketLen d.name min got))
    else
      let size := d.sizeExceptSizeFn.getD 0
      if got < size then .ok (.error (.invalidPacketLen d.name size got))
      else do
        let min ← sumSizeFns d payload size sizeFns
        if min ≤ got then runChecks d payload d.getters
        else return .error (.invalidPacketLen d.name min got)

/-! ## Builders -/

/-- The value of a builder: one value per field, in the order of the fields
(`ublox_derive/src/output.rs:314-320`). -/
abbrev Builder := List Val

/-- `let bytes = ..` of the builders (`ublox_derive/src/output.rs:343-355`). -/
def FieldDesc.bytes (f : FieldDesc) (v : Val) : R Bytes := do
  match f.map with
  | some c => return (← c.intoRaw f.scale f.ty v).toLeBytes
  | none =>
    match v with
    | .raw r => if r.ofTy f.ty then return r.toLeBytes else .error .illTyped
    | _ => .error .illTyped

/-- `ret[i] = b` on an array. -/
def setByte (xs : Bytes) (i : Nat) (b : UInt8) : R Bytes :=
  if i < xs.length then .ok (xs.set i b) else .error .index

/-- `ret[off] = bytes[i]; ret[off + 1] = bytes[i + 1]; ..`, `n` assignments
(`ublox_derive/src/output.rs:373-378`) -/
def packField (bytes : Bytes) : Nat → Nat → Nat → Bytes → R Bytes
  | 0, _, _, ret => .ok ret
  | n + 1, off, i, ret => do
    let ret ← setByte ret off (← getByte bytes i)
    packField bytes n (off + 1) (i + 1) ret

/-- The field part of `into_packet_bytes` (`ublox_derive/src/output.rs:313-381`). -/
def packFields : List FieldDesc → Builder → Nat → Bytes → R Bytes
  | [], [], _, ret => .ok ret
  | f :: fs, v :: vs, off, ret =>
    match f.ty.size with
    | none => .error .illTyped
    | some n => do
      let bytes ← f.bytes v
      let ret ← packField bytes n off 0 ret
      packFields fs vs (off + n) ret
  | _, _, _, _ => .error .illTyped

/-- The builder exists (`ublox_derive/src/lib.rs:36-72`). -/
def PackDesc.hasBuilder (d : PackDesc) : Bool := d.kind != .recv

/-- `ublox_derive/src/output.rs:410-431`, generated `into_packet_bytes` -/
def PackDesc.intoPacketBytes (d : PackDesc) (b : Builder) : R Bytes :=
  match d.packetPayloadSize with
  | none => .error .illTyped
  | some size =>
    -- `411`: `u16::try_from(packet_payload_size).unwrap()` at compile time
    if ¬ d.hasBuilder ∨ 65536 ≤ size then .error .illTyped
    else do
      let packetLen := size + 8
      let ret := List.replicate packetLen 0
      let ret ← setByte ret 0 SYNC_CHAR_1
      let ret ← setByte ret 1 SYNC_CHAR_2
      let ret ← setByte ret 2 d.cls
      let ret ← setByte ret 3 d.id
      let ret ← setByte ret 4 (UInt8.ofNat size)
      let ret ← setByte ret 5 (UInt8.ofNat (size / 256))
      let ret ← packFields d.fields b 6 ret
      let (ckA, ckB) := ubxChecksum (← sliceRange ret 2 (packetLen - 2))
      let ret ← setByte ret (packetLen - 2) ckA
      setByte ret (packetLen - 1) ckB

/-- `ublox/src/ubx_packets.rs:55-60`, trait `MemWriter`: `E` is the error of the writer (an error
of `MemWriterError<T::Error>`, `error.rs:4-7`), `W` its state. -/
structure MemWriter (W E : Type) where
  reserveAllocate : W → Nat → R (Except E Unit × W)
  write : W → Bytes → R (Except E Unit × W)

/-- The field part of `create_packet` (`ublox_derive/src/output.rs:357-361`): `out.write(&bytes)?;
checksum_calc.update(&bytes)`. -/
def MemWriter.writeFields {W E : Type} (mw : MemWriter W E) :
    List FieldDesc → Builder → W → ChecksumCalc → R (Except E ChecksumCalc × W)
  | [], [], w, ck => .ok (.ok ck, w)
  | f :: fs, v :: vs, w, ck => do
    let bytes ← f.bytes v
    match ← mw.write w bytes with
    | (.error e, w) => return (.error e, w)
    | (.ok (), w) => mw.writeFields fs vs w (ck.update bytes)
  | _, _, _, _ => .error .illTyped

/-- `ublox_derive/src/output.rs:439-453`, generated `create_packet` -/
def PackDesc.createPacket {W E : Type} (mw : MemWriter W E) (d : PackDesc) (b : Builder) (w : W) :
    R (Except E Unit × W) :=
  match d.packetPayloadSize with
  | none => .error .illTyped
  | some size =>
    if ¬ d.hasBuilder ∨ 65536 ≤ size then .error .illTyped
    else do
      match ← mw.reserveAllocate w (size + 8) with
      | (.error e, w) => return (.error e, w)
      | (.ok (), w) =>
        let header := [SYNC_CHAR_1, SYNC_CHAR_2, d.cls, d.id,
          UInt8.ofNat size, UInt8.ofNat (size / 256)]
        match ← mw.write w header with
        | (.error e, w) => return (.error e, w)
        | (.ok (), w) =>
          let ck := ChecksumCalc.default.update (header.drop 2)
          match ← mw.writeFields d.fields b w ck with
          | (.error e, w) => return (.error e, w)
          | (.ok ck, w) =>
            let (ckA, ckB) := ck.result
            mw.write w [ckA, ckB]

/-- `ublox/src/ubx_packets.rs:62-78`, `MemWriter` for `Vec<u8>`: `std::io::Write::write` of a `Vec`
appends everything.  Memory is taken to be available. -/
def vecWriter (E : Type) : MemWriter Bytes E where
  reserveAllocate w _ := .ok (.ok (), w)
  write w buf := .ok (.ok (), w ++ buf)

/-- `for f in self.name { len_bytes += f.extend_to(out); }` (`ublox_derive/src/output.rs:326-330`) -/
def extendCfgVals (M : Nat) : List CfgVal → Bytes → Nat → R (Bytes × Nat)
  | [], out, len => .ok (out, len)
  | v :: vs, out, len => do
    let (out, n) ← v.extendTo out
    extendCfgVals M vs out (← uadd M len n)

/-- The field part of `extend_to` (`ublox_derive/src/output.rs:322-371`). -/
def extendFields (M : Nat) : List FieldDesc → Builder → Bytes → Nat → R (Bytes × Nat)
  | [], [], out, len => .ok (out, len)
  | f :: fs, v :: vs, out, len =>
    match f.ty.size with
    | some _ => do
      let bytes ← f.bytes v
      let len ← uadd M len bytes.length
      extendFields M fs vs (out ++ bytes) len
    | none =>
      match fs, vs, v with
      | [], [], .cfgVals cs => extendCfgVals M cs out len
      | _, _, _ => .error .illTyped
  | _, _, _, _ => .error .illTyped

/-- `ublox_derive/src/output.rs:467-490`, generated `extend_to`, for an output that behaves like
`Vec<u8>` (appending, and indexing what was appended): the output after the call.
`len_bytes.to_le_bytes()` of a `usize` gives the two low bytes. -/
def PackDesc.extendTo (M : Nat) (d : PackDesc) (b : Builder) (out : Bytes) : R Bytes :=
  match d.packetPayloadSize with
  | some _ => .error .illTyped
  | none =>
    if ¬ d.hasBuilder then .error .illTyped
    else do
      let out := out ++ [SYNC_CHAR_1, SYNC_CHAR_2, d.cls, d.id, 0, 0]
      let (out, len) ← extendFields M d.fields b out 0
      let out ← setByte out 4 (UInt8.ofNat len)
      let out ← setByte out 5 (UInt8.ofNat (len / 256))
      let (ckA, ckB) := ubxChecksum (← sliceFrom out 2)
      return out ++ [ckA] ++ [ckB]

/-- `ublox_derive/src/output.rs:460-464`, generated `into_packet_vec` -/
def PackDesc.intoPacketVec (M : Nat) (d : PackDesc) (b : Builder) : R Bytes := d.extendTo M b []

/-- `ublox/src/ubx_packets.rs:115-131`, `UbxPacketRequest::into_packet_bytes` for the request of
class and id; `request_for::<T>` (`103-108`) takes them from the packet type. -/
def requestBytes (cls id : UInt8) : R Bytes := do
  let ret := [SYNC_CHAR_1, SYNC_CHAR_2, cls, id, 0, 0, 0, 0]
  let (ckA, ckB) := ubxChecksum (← sliceRange ret 2 6)
  let ret ← setByte ret 6 ckA
  setByte ret 7 ckB

/-- `ublox/src/ubx_packets.rs:103-108`, `request_for::<T>` and `into_packet_bytes` -/
def PackDesc.requestFor (d : PackDesc) : R Bytes := requestBytes d.cls d.id

end Ublox
