import Verif.Model.Codegen
import Verif.Spec.Input
import Verif.Spec.Build
import Verif.Model.Serialize
import Mathlib.Data.List.Forall2

/-!
# What the generated code is to compute

The values that the generated code works on, and what is assumed of the functions that it calls.
-/

namespace Ublox.Spec
open Rust

variable {W E : Type}

/-- A value of a field. -/
def valV (v : Val) : V W E := .val v

/-- A raw value of a field. -/
def rawV (r : RawVal) : V W E := .val (.raw r)

/-- The value `NameRef(payload)` -/
def refV (name : String) (payload : Bytes) : V W E := .data (name ++ "Ref") [("0", .bytes payload)]

/-- The errors of `validate`. -/
def parserErrorV : ParserError → V W E
  | .invalidPacketLen packet expect got => .data "ParserError::InvalidPacketLen"
    [("packet", .str packet), ("expect", .usize expect), ("got", .usize got)]
  | .invalidField packet field => .data "ParserError::InvalidField"
    [("packet", .str packet), ("field", .str field)]
  | .invalidChecksum .. => .data "ParserError::InvalidChecksum" []
  | .outOfMemory .. => .data "ParserError::OutOfMemory" []

/-- The result of `validate`. -/
def resultV : Except ParserError Unit → V W E
  | .ok () => .ok .unit
  | .error e => .err (parserErrorV e)

/-- The functions that the declaration names are those of the description, and the methods that are
given as sizes return the sizes. -/
structure RecvLinks (x : Externs W E) (d : Ublox.PackDesc) : Prop where
  fromFn : ∀ f ∈ d.fields, ∀ c, f.map = some c → ∀ r : RawVal,
    x.fn (convDesc f (rawTy true f.ty) c).fromFn (rawV r) = valV <$> c.convert f.mayFail r
  isValidFn : ∀ f ∈ d.fields, ∀ c, f.map = some c → f.mayFail = true → ∀ r : RawVal,
    x.fn (convDesc f (rawTy true f.ty) c).isValidFn (rawV r) = V.bool <$> c.isValid r
  sizeFn : ∀ f ∈ d.fields, ∀ s, f.sizeFn = some s → ∀ payload,
    x.method (refV d.name payload) (pathText (sizeFnName s)) = V.usize <$> s.run d payload

/-- The static part of the payload, and the values of the size functions (at most 128 each), can be
added. -/
def SizesFit (M : Nat) (d : Ublox.PackDesc) : Prop :=
  (d.fields.map fun f => f.ty.size.getD 0).sum + 128 * (d.fields.filterMap (·.sizeFn)).length ≤ M

/-- The methods of the type of received packets. -/
def methodNames (d : Ublox.PackDesc) : List String :=
  "as_bytes" :: (d.fields.flatMap fun f =>
    (if f.map.isSome && f.ty.size.isSome then [f.getName ++ "_raw"] else []) ++ [f.getName]) ++
    ["validate"]

/-- The method of this name of the type of received packets. -/
def methodNamed (ms : List FnDecl) (name : String) : Option FnDecl := ms.find? fun m => m.name = name

/-! ## Builders -/

/-- The value of a builder: one value per field. -/
def builderV (d : Ublox.PackDesc) (b : Builder) : V W E :=
  .data (d.name ++ "Builder") ((d.fields.map FieldDesc.getName).zip (b.map V.val))

/-- The result of `create_packet`. -/
def writeResultV : Except E Unit → V W E
  | .ok () => .ok .unit
  | .error e => .err (.writerError e)

/-- What the compiler asks of the values of a builder: values of the types of the fields, and
configuration values for a field without known size. -/
def FieldTyped (f : FieldDesc) (v : Val) : Prop :=
  match f.ty.size with
  | none => ∃ cs, v = .cfgVals cs
  | some _ => HasType f v

/-- One value of the right type for every field. -/
def BuilderTyped (fs : List FieldDesc) (b : Builder) : Prop := List.Forall₂ FieldTyped fs b

/-- The functions that the declaration names are those of the description, and the constants have their
values. -/
structure SendLinks (x : Externs W E) (d : Ublox.PackDesc) : Prop where
  intoFn : ∀ f ∈ d.fields, ∀ c, f.map = some c → ∀ v : Val, HasType f v →
    x.fn (convDesc f (rawTy true f.ty) c).intoFn (valV v) = rawV <$> c.intoRaw f.scale f.ty v
  sync1 : x.const "SYNC_CHAR_1" = .ok (.byte 0xb5)
  sync2 : x.const "SYNC_CHAR_2" = .ok (.byte 0x62)
  cls : x.const (d.name ++ "::CLASS") = .ok (.byte d.cls)
  id : x.const (d.name ++ "::ID") = .ok (.byte d.id)
  packetLen : ∀ size, d.packetPayloadSize = some size →
    x.const "Self::PACKET_LEN" = .ok (.usize (size + 8))
  cfgVal : ∀ (c : CfgVal) (out : Bytes), x.methodMut (.cfgVal c) "extend_to" (.bytes out) =
    (fun p => (.usize p.2, .bytes p.1)) <$> c.extendTo out

/-- Calling a method that changes its argument `out`: the result, and what is in `out` afterwards. -/
def runMut (x : Externs W E) (f : FnDecl) (self out : V W E) : R (V W E × V W E) := do
  let (v, env) ← f.run x [self, out]
  match getVar .out env with
  | some w => return (v, w)
  | none => .error .illTyped

/-! ## Enumerations and flags -/

/-- A value of an enumeration. -/
def variantV (v : Variant) : V W E := .val (.enum v)

/-- A value of a flags type. -/
def flagsV (bits : Nat) : V W E := .val (.flags bits)

/-- The variants that the generated code declares are values, and so are `true` and `false`. -/
structure EnumLinks (x : Externs W E) (code : EnumCode) : Prop where
  variant : ∀ v ∈ code.variants,
    x.const (code.name ++ "::" ++ v.1) = .ok (variantV (v.1, UInt8.ofNat v.2))
  true_ : x.const "true" = .ok (.bool true)
  false_ : x.const "false" = .ok (.bool false)

/-- The constants of the generated flags have these values. -/
def FlagValues (x : Externs W E) (nbits : Nat) (items : List (String × Expr)) (vals : List Nat) : Prop :=
  List.Forall₂ (fun i n => ∃ r : RawVal, ConstDecl.eval x ⟨"", i.1, i.2⟩ = .ok (rawV r) ∧
    r.unsigned? nbits = some n) items vals

/-- The methods of the `bitflags` crate: `from_bits_truncate` keeps the bits of the constants. -/
structure FlagsLinks (x : Externs W E) (nbits : Nat) (code : FlagsCode) : Prop where
  truncate : ∀ vals, FlagValues x nbits code.items vals → ∀ (r : RawVal) (n : Nat),
    r.unsigned? nbits = some n →
    x.call "Self::from_bits_truncate" [rawV r] = .ok (flagsV (n &&& vals.foldl (· ||| ·) 0))
  bits : ∀ n, x.method (flagsV n) "bits" = rawV <$> RawVal.ofUnsigned nbits n

/-- The serializer after a number was given to it. -/
def serializedV (name : String) (es : List (String × V W E)) (r : RawVal) : V W E :=
  .ok (.entries name (es ++ [("", rawV r)]))

/-! ## The list of packets -/

/-- A packet as a value of the generated union. -/
def packetRefV (r : Syn.RecvPackets) : PacketRef → V W E
  | .known d payload => .data (r.unionEnumName ++ "::" ++ d.name) [("0", refV d.name payload)]
  | .unknown payload cls msgId => .data (r.unionEnumName ++ "::Unknown") [("0", .data r.unknownTy
    [("payload", .bytes payload), ("class", .byte cls), ("msg_id", .byte msgId)])]

/-- The result of `match_packet`. -/
def matchV (r : Syn.RecvPackets) : Except ParserError PacketRef → V W E
  | .ok p => .ok (packetRefV r p)
  | .error e => .err (parserErrorV e)

/-- The constants of the packets have their values, and `validate` is that of the packets. -/
structure ParseLinks (x : Externs W E) (ds : List Ublox.PackDesc) : Prop where
  cls : ∀ d ∈ ds, x.const (d.name ++ "::CLASS") = .ok (.byte d.cls)
  id : ∀ d ∈ ds, x.const (d.name ++ "::ID") = .ok (.byte d.id)
  maxLen : ∀ d ∈ ds, x.const (d.name ++ "::MAX_PAYLOAD_LEN") =
    .ok (rawV (.u16 (UInt16.ofNat d.maxPayloadLen)))
  validate : ∀ d ∈ ds, ∀ payload, x.call ("<" ++ d.name ++ "Ref>::validate") [.bytes payload] =
    resultV <$> d.validate payload
  maxU16 : ∀ a b : UInt16, x.call "max_u16" [rawV (.u16 a), rawV (.u16 b)] =
    maxU16Code.call x [rawV (.u16 a), rawV (.u16 b)]

/-! ## Debug output and serialization -/

/-- The value `FieldIter(v)` -/
def fieldIterV (v : V W E) : V W E := .data "crate::ubx_packets::FieldIter" [("0", v)]

/-- What is given to the serializer for a field with this value. -/
def entryV (f : FieldDesc) (v : Val) : V W E :=
  if f.ty.size.isSome || f.isOptional then valV v else fieldIterV (valV v)

/-- The names of the fields, with what `g` makes of the values of the accessors. -/
def fieldEntries (d : Ublox.PackDesc) (payload : Bytes) (g : FieldDesc → Val → V W E) :
    List FieldDesc → R (List (String × V W E))
  | [] => .ok []
  | f :: fs => do
    let v ← d.get f.getName payload
    return (f.name, g f v) :: (← fieldEntries d payload g fs)

/-- The accessors of the packet are what the declaration says, and `FieldIter` wraps a value. -/
structure AccessorLinks (x : Externs W E) (d : Ublox.PackDesc) : Prop where
  get : ∀ f ∈ d.fields, ∀ payload,
    x.method (refV d.name payload) f.getName = valV <$> d.get f.getName payload
  fieldIter : ∀ v, x.call "crate::ubx_packets::FieldIter" [v] = .ok (fieldIterV v)

/-- Calling a method that changes its argument `state`: the result, and what is in `state` afterwards. -/
def runState (x : Externs W E) (f : FnDecl) (self state : V W E) : R (V W E × V W E) := do
  let (v, env) ← f.run x [self, state]
  match getVar .state env with
  | some w => return (v, w)
  | none => .error .illTyped

/-- The result of `serialize_fields`, and the serializer afterwards. -/
def fieldsResult (d : Ublox.PackDesc) (payload : Bytes) (name : String) (es : List (String × V W E)) :
    R (V W E × V W E) :=
  (fun kvs => (.ok .unit, .entries name (es ++ kvs))) <$> fieldEntries d payload entryV d.fields

/-- `PacketSerializer { class, msg_id, msg }` -/
def packetSerializerV (d : Ublox.PackDesc) (payload : Bytes) : V W E :=
  .data "crate::ubx_packets::PacketSerializer"
    [("class", .byte d.cls), ("msg_id", .byte d.id), ("msg", refV d.name payload)]

/-- The entries that a packet is serialized as. -/
def packetEntries : PacketRef → R (List (String × V W E))
  | .known d payload => ([("class", .byte d.cls), ("msg_id", .byte d.id)] ++ ·) <$>
    fieldEntries d payload entryV d.fields
  | .unknown payload cls msgId =>
    .ok [("payload", .bytes payload), ("class", .byte cls), ("msg_id", .byte msgId)]

/-- What the serialization of the enumeration of packets refers to: the constants, the serialization of a
packet with class and id, and that of the unknown packet.  A serializer is given away and not used
again. -/
structure UnionLinks (x : Externs W E) (r : Syn.RecvPackets) (ds : List Ublox.PackDesc) : Prop where
  cls : ∀ d ∈ ds, x.const (d.name ++ "::CLASS") = .ok (.byte d.cls)
  id : ∀ d ∈ ds, x.const (d.name ++ "::ID") = .ok (.byte d.id)
  packet : ∀ d ∈ ds, ∀ payload name es,
    x.methodMut (packetSerializerV d payload) "serialize" (.entries name es) =
      (fun kvs => (.ok (.entries name (es ++ kvs)), .entries name es)) <$> packetEntries (.known d payload)
  unknown : ∀ payload cls msgId name es,
    x.methodMut (.data r.unknownTy
      [("payload", .bytes payload), ("class", .byte cls), ("msg_id", .byte msgId)]) "serialize"
        (.entries name es) =
      (fun kvs => (.ok (.entries name (es ++ kvs)), .entries name es)) <$>
        packetEntries (.unknown payload cls msgId)

/-- What serde makes of a value: a value of a field as it is, and for a `FieldIter` the sequence of the
items of the iterator. -/
def serV (M : Nat) : V W E → Option (R Ser)
  | .val v => some (.ok (.val v))
  | .data _ [(_, .val (.iter k data))] => do
    let ys ← k.collectSeq M (k.new data)
    return ys.map Ser.seq
  | _ => some (.error .illTyped)

/-- What serde makes of entries. -/
def serEntries (M : Nat) : List (String × V W E) → Option (R (List (String × Ser)))
  | [] => some (.ok [])
  | kv :: kvs => do
    match ← serV M kv.2 with
    | .error p => return .error p
    | .ok s => return (← serEntries M kvs).map ((kv.1, s) :: ·)

end Ublox.Spec
