import Verif.Model.Rust

/-!
# The code generators

`ublox_derive/src/output.rs`, function by function: from the description of a packet, an enumeration,
flags, or the list of packets to Rust code.  Documentation attributes and the attributes that are copied
from the declaration are left out.
-/

namespace Ublox.Syn

/-- `ublox_derive/src/types.rs:158-163`, `intermediate_type` -/
def PackField.intermediateType (f : PackField) : Ty :=
  match f.map.mapType with
  | some m => m.ty
  | none => f.ty

/-- `ublox_derive/src/types.rs:164-166`, `intermediate_field_name` -/
def PackField.intermediateFieldName (f : PackField) : String := f.map.alias.getD f.name

/-- `ublox_derive/src/types.rs:167-173`, `is_field_raw_ty_byte_array` -/
def PackField.isFieldRawTyByteArray (f : PackField) : Bool :=
  match f.ty with
  | .array elem _ => elem = .path [.u8]
  | _ => false

/-- `ublox_derive/src/lib.rs:185-191`, `type_is_option` and `path_is_option` -/
def typeIsOption : Ty → Bool
  | .path [.option] => true
  | .generic [.option] _ => true
  | _ => false

/-- `ublox_derive/src/types.rs:76-81`, `is_optional` -/
def PackField.isOptional (f : PackField) : Bool :=
  match f.map.mapType with
  | some m => typeIsOption m.ty
  | none => false

/-- `ublox_derive/src/types.rs:15-17`, `packet_payload_size` -/
def PackDesc.packetPayloadSize (d : PackDesc) : Option Nat := fieldsSize d.fields

/-- `ublox_derive/src/types.rs:19-21`, `packet_payload_size_except_last_field` -/
def PackDesc.packetPayloadSizeExceptLastField (d : PackDesc) : Option Nat :=
  fieldsSize (d.fields.reverse.drop 1)

/-- `ublox_derive/src/types.rs:23-25`, `packet_payload_size_except_size_fn` -/
def PackDesc.packetPayloadSizeExceptSizeFn (d : PackDesc) : Option Nat :=
  fieldsSize (d.fields.filter fun f => f.sizeFn.isNone)

end Ublox.Syn

namespace Ublox.Rust
open Syn (Ty Fn Word PackField)

/-- `self.0` -/
def selfBytes : Expr := .field (.var .self_) "0"

/-- `self.name()` -/
def selfCall (name : String) : Expr := .meth (.var .self_) (.user name) []

/-- A `usize` that is put into the code. -/
def usizeLit (n : Nat) : Expr := .lit n .usize

/-- `let name = e;` -/
def letE (x : Var) (e : Expr) : Stmt := .let_ false x "" e

/-- `ublox_derive/src/output.rs:826-851`, `get_raw_field_code`, for a field whose size is known. -/
def getRawFieldCode (f : PackField) (sizeBytes curOff : Nat) (data : Expr) : Expr :=
  let bytes := (List.range sizeBytes).map fun i => Expr.index data (usizeLit (curOff + i))
  if f.map.getAsRef then
    .slice data (.range (usizeLit curOff) (.paren (.bin .add (usizeLit curOff) (usizeLit sizeBytes))))
  else if f.isFieldRawTyByteArray then .array bytes
  else if sizeBytes ≠ 1 ∨ f.ty = .path [.i8] then .fromLeBytes f.ty (.array bytes)
  else .index data (usizeLit curOff)

/-- `#[inline]` -/
def inlineAttr : String := "#[inline]"

/-- `ublox_derive/src/output.rs:97-111`, the accessor `<name>_raw`. -/
def rawGetter (f : PackField) (sizeBytes off : Nat) : FnDecl :=
  let name := f.intermediateFieldName ++ "_raw"
  let rawTy := if f.isFieldRawTyByteArray then "&[u8]" else tyText f.ty
  { attrs := inlineAttr, head := "pub fn " ++ name ++ "(&self) -> " ++ rawTy, name, params := [.self_]
    body := [letE .val (getRawFieldCode f sizeBytes off selfBytes), .tail (.var .val)] }

/-- `ublox_derive/src/output.rs:92-94`, `126-142`, the accessor of a field whose size is known. -/
def sizedGetter (f : PackField) (sizeBytes off : Nat) : FnDecl :=
  let name := f.intermediateFieldName
  let convert := match f.map.mapType with
    | some m => [letE .val (.fn m.fromFn (.var .val))]
    | none => []
  let scale := match f.map.scale with
    | some q => [letE .val (.bin .mul (.var .val) (.float q))]
    | none => []
  { attrs := inlineAttr, head := "pub fn " ++ name ++ "(&self) -> " ++ tyText f.intermediateType, name
    params := [.self_]
    body := [letE .val (getRawFieldCode f sizeBytes off selfBytes)] ++ convert ++ scale ++
      [.tail (.var .val)] }

/-- `off + e.f() + e.g() + ..` (`ublox_derive/src/output.rs:150`, `234`) -/
def offsetSum (off : Nat) (e : Expr) (sizeFns : List String) : Expr :=
  sizeFns.foldl (fun acc s => .bin .add acc (.meth e (.user s) [])) (usizeLit off)

/-- `ublox_derive/src/output.rs:147-160`, the bytes of a field whose size is not known. -/
def tailBytesCode (f : PackField) (off : Nat) (sizeFns : List String) : Expr :=
  .slice selfBytes <| match f.sizeFn with
    | some s => .block
      [letE .offset (offsetSum off (.var .self_) sizeFns),
       .tail (.range (.var .offset) (.bin .add (.var .offset) (selfCall (pathText s))))]
    | none => .rangeFrom (usizeLit off)

/-- `ublox_derive/src/output.rs:160-195`, the accessor of a field whose size is not known. -/
def unsizedGetter (f : PackField) (off : Nat) (sizeFns : List String) : FnDecl :=
  let name := f.intermediateFieldName
  let outTy := match f.map.mapType with
    | some m => tyText m.ty
    | none => "&[u8]"
  { attrs := inlineAttr, head := "pub fn " ++ name ++ "(&self) -> " ++ outTy, name, params := [.self_]
    body := match f.map.mapType with
      | some m => [letE .val (tailBytesCode f off sizeFns), .tail (.fn m.fromFn (.var .val))]
      | none => [.tail (tailBytesCode f off sizeFns)] }

/-- `ublox_derive/src/output.rs:116-124`, `172-180`: the check of one field, for the given bytes. -/
def validatorCode (packName : String) (f : PackField) (isValid : Fn) (bytes : Expr) : List Stmt :=
  [letE .val bytes,
   .expr (.ite (.not (.fn isValid (.var .val)))
     [.return_ (.err (.struct "ParserError::InvalidField"
       [("packet", .str packName), ("field", .stringify f.intermediateFieldName)]))] [])]

/-- `ublox_derive/src/output.rs:113-125`, `170-181`: the checks of a field, if there are any. -/
def fieldValidator (packName : String) (f : PackField) (off : Nat) : List Stmt :=
  match f.map.mapType with
  | none => []
  | some m =>
    if f.map.convertMayFail then
      validatorCode packName f m.isValidFn <| match f.sizeBytes with
        | some n => getRawFieldCode f n off (.var .payload)
        | none => .slice (.var .payload) (.rangeFrom (usizeLit off))
    else []

/-- `ublox_derive/src/output.rs:85-196`, the loop over the fields: accessors and validators.  A failing
`assert!` (`145`) is an error: a panic of the macro. -/
def recvFields (packName : String) :
    List PackField → Nat → List String → Except String (List FnDecl × List Stmt)
  | [], _, _ => .ok ([], [])
  | f :: fs, off, sizeFns =>
    match f.sizeBytes with
    | some n => do
      let (getters, validators) ← recvFields packName fs (off + n) sizeFns
      return ((if f.map.mapType.isSome then [rawGetter f n off] else []) ++
        sizedGetter f n off :: getters, fieldValidator packName f off ++ validators)
    | none =>
      if fs.isEmpty || f.sizeFn.isSome then do
        let (getters, validators) ←
          recvFields packName fs off (sizeFns ++ f.sizeFn.toList.map pathText)
        return (unsizedGetter f off sizeFns :: getters, fieldValidator packName f off ++ validators)
      else .error "assertion failed"

/-- `Err(ParserError::InvalidPacketLen { packet, expect, got })` -/
def invalidLen (packName : String) (expect : Expr) : Expr :=
  .err (.struct "ParserError::InvalidPacketLen"
    [("packet", .str packName), ("expect", expect), ("got", .var .got)])

/-- `ublox_derive/src/output.rs:198-251`, `validate` -/
def validateCode (d : Syn.PackDesc) (validators : List Stmt) : Except String FnDecl := do
  let refName := d.name ++ "Ref"
  let done := validators ++ [.tail (.ok .unit)]
  let body : List Stmt ← match d.packetPayloadSize with
    | some payloadLen =>
      .ok [letE .expect (usizeLit payloadLen),
        letE .got (.meth (.var .payload) .len []),
        .tail (.ite (.bin .eq (.var .got) (.var .expect)) done
          [.tail (invalidLen d.name (.var .expect))])]
    | none =>
      let sizeFns := (d.fields.filterMap (·.sizeFn)).map pathText
      let withMin (min : Expr) : List Stmt :=
        [letE .got (.meth (.var .payload) .len []),
         letE .min min,
         .tail (.ite (.bin .ge (.var .got) (.var .min)) done
           [.tail (invalidLen d.name (.var .min))])]
      if sizeFns.isEmpty then
        match d.packetPayloadSizeExceptLastField with
        | some size => .ok (withMin (usizeLit size))
        | none => .error "except last all fields should have fixed size"
      else
        let size := d.packetPayloadSizeExceptSizeFn.getD 0
        .ok (withMin (.block
          [.expr (.ite (.bin .lt (.var .got) (usizeLit size))
            [.return_ (invalidLen d.name (usizeLit size))] []),
           .tail (offsetSum size (.ctor refName (.var .payload)) sizeFns)]))
  return { head := "fn validate(payload: &[u8]) -> Result<(), ParserError>", name := "validate"
           params := [.payload], body }

/-- `ublox_derive/src/output.rs:11-29`, `generate_debug_impl`: the method `fmt`. -/
def debugCode (d : Syn.PackDesc) : FnDecl :=
  { head := "fn fmt(&self, f: &mut core::fmt::Formatter<'_>) -> core::fmt::Result", name := "fmt"
    params := [.self_, .f_]
    body := [.tail (.meth (d.fields.foldl (fun acc f => .meth acc .field
      [.stringify f.name, .ref (selfCall f.intermediateFieldName)])
      (.meth (.var .f_) .debugStruct [.str d.name])) .finish [])] }

/-- `ublox_derive/src/output.rs:35-50`, the entry of a field. -/
def serializeEntryCode (f : PackField) : Stmt :=
  let get := selfCall f.intermediateFieldName
  .expr (.try_ (.meth (.var .state) .serializeEntry [.stringify f.name,
    if f.sizeBytes.isSome || f.isOptional then .ref get
    else .ref (.call (.user "crate::ubx_packets::FieldIter") [get])]))

/-- `ublox_derive/src/output.rs:30-75`, `generate_serialize_impl`: the method `serialize_fields`. -/
def serializeFieldsCode (d : Syn.PackDesc) : FnDecl :=
  { head := "fn serialize_fields<S>(&self, state: &mut S) -> Result<(), S::Error> \
      where S: serde::ser::SerializeMap,"
    name := "serialize_fields", params := [.self_, .state]
    body := d.fields.map serializeEntryCode ++ [.tail (.ok .unit)] }

/-- The head of every `serialize`. -/
def serializeHead : String :=
  "fn serialize<S>(&self, serializer: S) -> Result<S::Ok, S::Error> where S: serde::Serializer,"

/-- `let mut state = serializer.serialize_map(None)?;` -/
def newMap : Stmt :=
  .let_ true .state "" (.try_ (.meth (.var .serializer) .serializeMap [.none]))

/-- `ublox_derive/src/output.rs:30-75`, `generate_serialize_impl`: the method `serialize`. -/
def serializeCode : FnDecl :=
  { head := serializeHead, name := "serialize", params := [.self_, .serializer]
    body := [newMap, .expr (.try_ (.callMut (.var .self_) "serialize_fields" true .state)),
      .tail (.meth (.var .state) .end_ [])] }

/-- `ublox_derive/src/output.rs:262-264`, `as_bytes` -/
def asBytesCode : FnDecl :=
  { attrs := inlineAttr, head := "pub fn as_bytes(&self) -> &[u8]", name := "as_bytes"
    params := [.self_], body := [.tail selfBytes] }

/-- The code for receiving a packet. -/
structure RecvCode where
  packName : String
  /-- the methods of the reference type -/
  methods : List FnDecl
  debug : FnDecl
  serializeFields : FnDecl
  serialize : FnDecl

/-- `ublox_derive/src/output.rs:77-274`, `generate_recv_code_for_packet` -/
def generateRecvCode (d : Syn.PackDesc) : Except String RecvCode := do
  let (getters, validators) ← recvFields d.name d.fields 0 []
  let validator ← validateCode d validators
  return { packName := d.name, methods := asBytesCode :: getters ++ [validator], debug := debugCode d
           serializeFields := serializeFieldsCode d, serialize := serializeCode }

/-- `#[cfg(feature = "serde")]` -/
def serdeAttr : String := "#[cfg(feature = \"serde\")]"

/-- `attrs impl head { members }` -/
def implText (attrs head : String) (members : List String) : String :=
  attrs ++ " impl" ++ head ++ " {" ++ " ".intercalate members ++ "}"

/-- The text of the code for receiving a packet, `ublox_derive/src/output.rs:256-273`. -/
def RecvCode.text (c : RecvCode) : String :=
  let refName := c.packName ++ "Ref"
  " ".intercalate
    ["pub struct " ++ refName ++ "<'a>(&'a [u8]);",
     implText "" ("<'a> " ++ refName ++ "<'a>") (c.methods.map FnDecl.text),
     implText "" (" core::fmt::Debug for " ++ refName ++ "<'_>") [c.debug.text],
     implText serdeAttr (" SerializeUbxPacketFields for " ++ refName ++ "<'_>")
       [c.serializeFields.text],
     implText serdeAttr (" serde::Serialize for " ++ refName ++ "<'_>") [c.serialize.text]]

/-- `ublox_derive/src/output.rs:276-300`, `generate_types_for_packet`: the constants. -/
def generateTypes (d : Syn.PackDesc) : List ConstDecl :=
  [⟨"const CLASS: u8", "CLASS", .lit d.header.cls .u8⟩,
   ⟨"const ID: u8", "ID", .lit d.header.id .u8⟩,
   ⟨"const FIXED_PAYLOAD_LEN: Option<u16>", "FIXED_PAYLOAD_LEN",
     match Syn.payloadFixed d.header.payloadLen with
     | some x => .some (.lit x .u16)
     | none => .none⟩,
   ⟨"const MAX_PAYLOAD_LEN: u16", "MAX_PAYLOAD_LEN",
     match d.header.payloadLen with
     | .fixed x => .lit x .u16
     | .max x => .lit x .u16⟩]

/-- The text of the constants of a packet, `ublox_derive/src/output.rs:289-297`. -/
def typesText (d : Syn.PackDesc) : String :=
  "pub struct " ++ d.name ++ "; " ++
    implText "" (" UbxPacketMeta for " ++ d.name) ((generateTypes d).map ConstDecl.text)

/-! ## Builders -/

/-- `ublox_derive/src/output.rs:343-355`, `let bytes = ..` -/
def bytesCode (f : PackField) : Stmt :=
  let value := Expr.field (.var .self_) f.intermediateFieldName
  match f.map.mapType with
  | some m => letE .bytes (.meth (.fn m.intoFn value) .toLeBytes [])
  | none =>
    if !f.isFieldRawTyByteArray then letE .bytes (.meth value .toLeBytes [])
    else .let_ false .bytes "&[u8]" (.ref value)

/-- `ublox_derive/src/output.rs:343-355`, `373-378`, the part of a field in `into_packet_bytes`. -/
def packFieldCode (f : PackField) (sizeBytes off : Nat) : List Stmt :=
  bytesCode f :: (List.range sizeBytes).map fun i =>
    .setIndex .ret (usizeLit (off + i)) (.index (.var .bytes) (usizeLit i))

/-- `ublox_derive/src/output.rs:357-361`, the part of a field in `create_packet`. -/
def writeFieldCode (f : PackField) : List Stmt :=
  [bytesCode f, .expr (.try_ (.meth (.var .out) .write [.ref (.var .bytes)])),
   .expr (.meth (.var .checksumCalc) .update [.ref (.var .bytes)])]

/-- `for b in e.iter() { out.extend(core::iter::once(*b)); }` -/
def extendAll (x : Var) : Stmt :=
  .forIn .b_ (.meth (.var x) .iter [])
    [.expr (.meth (.var .out) .extend [.call .once [.deref (.var .b_)]])]

/-- `ublox_derive/src/output.rs:363-371`, the part of a field in `extend_to`. -/
def extendFieldCode (f : PackField) : List Stmt :=
  [bytesCode f, .addAssign .lenBytes (.meth (.var .bytes) .len []), extendAll .bytes]

/-- `ublox_derive/src/output.rs:325-330`, the part of a field without known size in `extend_to`. -/
def extendIterCode (f : PackField) : List Stmt :=
  [.forIn .f_ (.field (.var .self_) f.intermediateFieldName)
    [.addAssign .lenBytes (.callMut (.var .f_) "extend_to" false .out)]]

/-- The lists that the loop over the fields fills, `ublox_derive/src/output.rs:306-311`. -/
structure SendState where
  needsLifetime : Bool := false
  fields : List (String × Ty) := []
  packFields : List Stmt := []
  writeFields : List Stmt := []
  extendFields : List Stmt := []

/-- `ublox_derive/src/output.rs:312-381`, the loop over the fields; it ends at a field without known
size, which has to be the last one (`334-338`). -/
def sendFields : List PackField → Nat → Except String SendState
  | [], _ => .ok {}
  | f :: fs, off =>
    let field := (f.intermediateFieldName, f.intermediateType)
    match f.sizeBytes with
    | none =>
      if fs.isEmpty then
        .ok { needsLifetime := true, fields := [field], extendFields := extendIterCode f }
      else .error "Iterator field must be the last field."
    | some n => do
      let s ← sendFields fs (off + n)
      return { s with
        fields := field :: s.fields
        packFields := packFieldCode f n off ++ s.packFields
        writeFields := writeFieldCode f ++ s.writeFields
        extendFields := extendFieldCode f ++ s.extendFields }

/-- `Self::PACKET_LEN - n` -/
def packetLenMinus (n : Nat) : Expr := .bin .sub (.const "Self::PACKET_LEN") (.int n)

/-- `ublox_derive/src/output.rs:415-431`, `into_packet_bytes` -/
def intoPacketBytesCode (name : String) (payloadSize : Nat) (packFields : List Stmt) : FnDecl :=
  { attrs := inlineAttr, head := "pub fn into_packet_bytes(self) -> [u8; Self::PACKET_LEN]"
    name := "into_packet_bytes", params := [.self_]
    body :=
      [.let_ true .ret "" (.zeros (.const "Self::PACKET_LEN")),
       .setIndex .ret (.int 0) (.const "SYNC_CHAR_1"),
       .setIndex .ret (.int 1) (.const "SYNC_CHAR_2"),
       .setIndex .ret (.int 2) (.const (name ++ "::CLASS")),
       .setIndex .ret (.int 3) (.const (name ++ "::ID")),
       letE .packLenBytes (.meth (.lit payloadSize .u16) .toLeBytes []),
       .setIndex .ret (.int 4) (.index (.var .packLenBytes) (.int 0)),
       .setIndex .ret (.int 5) (.index (.var .packLenBytes) (.int 1))] ++
      packFields ++
      [.letPair .ckA .ckB (.call .ubxChecksum
         [.slice (.var .ret) (.range (.int 2) (.paren (packetLenMinus 2)))]),
       .setIndex .ret (packetLenMinus 2) (.var .ckA),
       .setIndex .ret (packetLenMinus 1) (.var .ckB),
       .tail (.var .ret)] }

/-- `ublox_derive/src/output.rs:433-437`, the conversion from the builder. -/
def fromBuilderCode (builder : String) : FnDecl :=
  { head := "fn from(x: " ++ builder ++ ") -> Self", name := "from", params := [.x_]
    body := [.tail (.meth (.var .x_) (.user "into_packet_bytes") [])] }

/-- `ublox_derive/src/output.rs:439-453`, `create_packet` -/
def createPacketCode (name : String) (payloadSize : Nat) (writeFields : List Stmt) : FnDecl :=
  { attrs := inlineAttr
    head := "fn create_packet<T: MemWriter>(self, out: &mut T) -> Result<(), MemWriterError<T::Error>>"
    name := "create_packet", params := [.self_, .out]
    body :=
      [.expr (.try_ (.meth (.var .out) .reserveAllocate [usizeLit (payloadSize + 8)])),
       letE .lenBytes (.meth (.lit payloadSize .u16) .toLeBytes []),
       letE .header (.array [.const "SYNC_CHAR_1", .const "SYNC_CHAR_2", .const (name ++ "::CLASS"),
         .const (name ++ "::ID"), .index (.var .lenBytes) (.int 0), .index (.var .lenBytes) (.int 1)]),
       .expr (.try_ (.meth (.var .out) .write [.ref (.var .header)])),
       .let_ true .checksumCalc "" (.call .calcDefault []),
       .expr (.meth (.var .checksumCalc) .update [.slice (.var .header) (.rangeFrom (.int 2))])] ++
      writeFields ++
      [.letPair .ckA .ckB (.meth (.var .checksumCalc) .result []),
       .expr (.try_ (.meth (.var .out) .write [.ref (.array [.var .ckA, .var .ckB])])),
       .tail (.ok .unit)] }

/-- `ublox_derive/src/output.rs:458-464`, `into_packet_vec` -/
def intoPacketVecCode : FnDecl :=
  { attrs := "#[cfg(feature = \"alloc\")] #[inline]", head := "pub fn into_packet_vec(self) -> Vec<u8>"
    name := "into_packet_vec", params := [.self_]
    body :=
      [.let_ true .vec "" (.call .vecNew []), .expr (.callMut (.var .self_) "extend_to" true .vec),
       .tail (.var .vec)] }

/-- `ublox_derive/src/output.rs:466-491`, `extend_to` -/
def extendToCode (name : String) (extendFields : List Stmt) : FnDecl :=
  { attrs := inlineAttr
    head := "pub fn extend_to<T>(self, out: &mut T) where T: core::iter::Extend<u8> + \
      core::ops::DerefMut<Target = [u8]>"
    name := "extend_to", params := [.self_, .out]
    body :=
      [.let_ true .lenBytes "" (.int 0),
       letE .header (.array [.const "SYNC_CHAR_1", .const "SYNC_CHAR_2", .const (name ++ "::CLASS"),
         .const (name ++ "::ID"), .int 0, .int 0]),
       extendAll .header] ++
      extendFields ++
      [letE .lenBytes (.meth (.var .lenBytes) .toLeBytes []),
       .setIndex .out (.int 4) (.index (.var .lenBytes) (.int 0)),
       .setIndex .out (.int 5) (.index (.var .lenBytes) (.int 1)),
       .letPair .ckA .ckB (.call .ubxChecksum [.slice (.var .out) (.rangeFrom (.int 2))]),
       .expr (.meth (.var .out) .extend [.call .once [.var .ckA]]),
       .expr (.meth (.var .out) .extend [.call .once [.var .ckB]])] }

/-- The methods of a builder: for packets of a fixed length, or of any length. -/
inductive BuilderBody where
  | fixed (packetLen : Nat) (intoPacketBytes fromBuilder createPacket : FnDecl)
  | dynamic (intoPacketVec extendTo : FnDecl)

/-- The code for sending a packet. -/
structure SendCode where
  packName : String
  default : Bool
  needsLifetime : Bool
  fields : List (String × Ty)
  body : BuilderBody

/-- `ublox_derive/src/output.rs:302-496`, `generate_send_code_for_packet` -/
def generateSendCode (d : Syn.PackDesc) : Except String SendCode := do
  let s ← sendFields d.fields 6
  let body : BuilderBody ← match d.packetPayloadSize with
    | some size =>
      if size < 65536 then
        .ok (.fixed (size + 8) (intoPacketBytesCode d.name size s.packFields)
          (fromBuilderCode (d.name ++ "Builder")) (createPacketCode d.name size s.writeFields))
      else .error "called `Result::unwrap()` on an `Err` value"
    | none => .ok (.dynamic intoPacketVecCode (extendToCode d.name s.extendFields))
  return { packName := d.name, default := d.header.flags.any (· = .defaultForBuilder)
           needsLifetime := s.needsLifetime, fields := s.fields, body }

/-- The text of the code for sending a packet. -/
def SendCode.text (c : SendCode) : String :=
  let builder := c.packName ++ "Builder"
  let lifetime := if c.needsLifetime then "<'a>" else ""
  (if c.default then "#[derive(Default)] " else "") ++ "pub struct " ++ builder ++ lifetime ++ " {" ++
    ", ".intercalate (c.fields.map fun f => "pub " ++ f.1 ++ ": " ++ tyText f.2) ++ "} " ++
    match c.body with
    | .fixed n into from_ create =>
      implText "" (lifetime ++ " " ++ builder ++ lifetime)
        ["pub const PACKET_LEN: usize = " ++ toString n ++ "usize;", into.text] ++ " " ++
      implText "" (" From<" ++ builder ++ "> for [u8; " ++ toString n ++ "usize]") [from_.text] ++ " " ++
      implText "" (" UbxPacketCreator for " ++ builder) [create.text]
    | .dynamic into extend =>
      implText "" (lifetime ++ " " ++ builder ++ lifetime) [into.text, extend.text]

/-! ## Enumerations and flags -/

/-- The code of an enumeration. -/
structure EnumCode where
  name : String
  variants : List (String × Nat)
  from_ : Option FnDecl
  fromUnchecked : Option FnDecl
  isValid : Option FnDecl
  intoRaw : Option FnDecl
  serialize : FnDecl

/-- `ublox_derive/src/output.rs:522-525`, `539-542`: one arm per variant. -/
def variantArms (name : String) (variants : List (String × Nat)) : List Arm :=
  variants.map fun v => .plain (.nums [v.2]) (.const (name ++ "::" ++ v.1))

/-- `ublox_derive/src/output.rs:527-535`, `from` -/
def enumFromCode (name : String) (variants : List (String × Nat)) : FnDecl :=
  { head := "fn from(x: u8) -> Self", name := "from", params := [.x_]
    body := [.tail (.match_ (.var .x_) (variantArms name variants))] }

/-- `ublox_derive/src/output.rs:554-560`, `from_unchecked` -/
def enumFromUncheckedCode (name : String) (variants : List (String × Nat)) : FnDecl :=
  { head := "fn from_unchecked(x: u8) -> Self", name := "from_unchecked", params := [.x_]
    body := [.tail (.match_ (.var .x_) (variantArms name variants ++ [.plain .wild .unreachable]))] }

/-- `ublox_derive/src/output.rs:544-551`, `561-566`, `is_valid` -/
def enumIsValidCode (variants : List (String × Nat)) : FnDecl :=
  { head := "fn is_valid(x: u8) -> bool", name := "is_valid", params := [.x_]
    body := [.tail (.match_ (.var .x_) [.plain (.nums (variants.map (·.2))) (.const "true"),
      .plain .wild (.const "false")])] }

/-- `ublox_derive/src/output.rs:575-581`, `into_raw` of an enumeration -/
def enumIntoRawCode : FnDecl :=
  { head := "const fn into_raw(self) -> u8", name := "into_raw", params := [.self_]
    body := [.tail (.cast (.var .self_) .u8)] }

/-- `ublox_derive/src/output.rs:498-609`, `generate_code_to_extend_enum`; a failing `assert_ne!` (`518`,
`538`) is an error. -/
def generateEnumCode (e : EnumDesc) : Except String EnumCode := do
  let variants := e.variants.map fun v => (v.1, v.2.toNat)
  let variants := if e.rest = some .reserved then
      variants ++ ((List.range 256).filter fun i => !(variants.map (·.2)).contains i).map
        fun i => ("Reserved" ++ toString i, i)
    else variants
  let code : EnumCode :=
    { name := e.name, variants, from_ := none, fromUnchecked := none, isValid := none
      intoRaw := if e.intoRaw then some enumIntoRawCode else none
      serialize :=
        { head := serializeHead, name := "serialize", params := [.self_, .serializer]
          body := [.tail (.meth (.var .serializer) (.serializeNum "u8")
            [.cast (.deref (.var .self_)) .u8])] } }
  match e.fromFn with
  | some .from =>
    if e.rest = some .errorProne then throw "assertion failed"
    return { code with from_ := some (enumFromCode e.name variants) }
  | some .fromUnchecked =>
    if e.rest = some .reserved then throw "assertion failed"
    return { code with
      fromUnchecked := some (enumFromUncheckedCode e.name variants)
      isValid := some (enumIsValidCode variants) }
  | none => return code

/-- The text of the code of an enumeration. -/
def EnumCode.text (c : EnumCode) : String :=
  "pub enum " ++ c.name ++ " {" ++
    ", ".intercalate (c.variants.map fun v => v.1 ++ " = " ++ toString v.2 ++ "u8") ++ "} " ++
    (match c.from_ with
      | some f => implText "" (" " ++ c.name) [f.text] ++ " "
      | none => "") ++
    (match c.fromUnchecked, c.isValid with
      | some f, some g => implText "" (" " ++ c.name) [f.text, g.text] ++ " "
      | _, _ => "") ++
    (match c.intoRaw with
      | some f => implText "" (" " ++ c.name) [f.text] ++ " "
      | none => "") ++
    implText serdeAttr (" serde::Serialize for " ++ c.name) [c.serialize.text]

/-- The code of flags. -/
structure FlagsCode where
  name : String
  repr : IntTy
  items : List (String × Expr)
  from_ : Option FnDecl
  intoRaw : Option FnDecl
  serialize : FnDecl

/-- The representation of flags with this number of bits, `ublox_derive/src/input.rs:149-168`. -/
def flagsRepr (nbits : Nat) : IntTy :=
  if nbits = 8 then .u8 else if nbits = 16 then .u16 else .u32

/-- `ublox_derive/src/output.rs:632-650`, the value of one constant. -/
def flagExpr (repr : IntTy) (bit : Nat) : Expr :=
  if bit ≠ 0 then .paren (.bin .shl (.paren (.cast (.int 1) repr)) (.lit bit .u32))
  else .paren (.cast (.int 1) repr)

/-- `ublox_derive/src/output.rs:611-713`, `generate_code_to_extend_bitflags` -/
def generateFlagsCode (d : FlagsDesc) (fromFn : Option FromFn) (rest : Option Rest) :
    Except String FlagsCode := do
  if rest ≠ some .reserved then throw "Only reserved supported"
  let repr := flagsRepr d.nbits
  let items := (List.range d.nbits).map fun bit =>
    match d.consts.find? fun c => c.2 == 1 <<< bit with
    | some c => (c.1, flagExpr repr bit)
    | none => ("RESERVED" ++ toString bit, flagExpr repr bit)
  let knownFlags := ((List.range d.nbits).filter fun bit => d.consts.any fun c => c.2 == 1 <<< bit)
  if knownFlags.length ≠ d.consts.length then throw "Strange flags, not power of 2?"
  let from_ : Option FnDecl ← match fromFn with
    | none => .ok none
    | some .from =>
      .ok (some { head := "const fn from(x: " ++ repr.text ++ ") -> Self", name := "from"
                  params := [.x_]
                  body := [.tail (.call (.user "Self::from_bits_truncate") [.var .x_])] })
    | some .fromUnchecked => .error "not implemented"
  return { name := d.name, repr, items, from_
           intoRaw := if d.intoRaw then some
             { head := "const fn into_raw(self) -> " ++ repr.text, name := "into_raw", params := [.self_]
               body := [.tail (.meth (.var .self_) (.user "bits") [])] }
             else none
           serialize :=
             { head := serializeHead, name := "serialize", params := [.self_, .serializer]
               body := [.tail (.meth (.var .serializer) (.serializeNum repr.text)
                 [.meth (.var .self_) (.user "bits") []])] } }

/-- The text of the code of flags. -/
def FlagsCode.text (c : FlagsCode) : String :=
  "bitflags! { pub struct " ++ c.name ++ " : " ++ c.repr.text ++ " {" ++
    "; ".intercalate (c.items.map fun i => "const " ++ i.1 ++ " = " ++ i.2.text) ++ ";} } " ++
    (match c.from_ with
      | some f => implText "" (" " ++ c.name) [f.text] ++ " "
      | none => "") ++
    (match c.intoRaw with
      | some f => implText "" (" " ++ c.name) [f.text] ++ " "
      | none => "") ++
    implText serdeAttr (" serde::Serialize for " ++ c.name) [c.serialize.text]

/-! ## The list of packets -/

/-- The code for the list of packets. -/
structure ParseCode where
  unionName : String
  unknownTy : String
  packets : List String
  classAndMsgId : FnDecl
  matchPacket : FnDecl
  maxU16 : FnDecl
  maxPayloadLen : ConstDecl
  serializePacket : FnDecl
  serializeUnion : FnDecl

/-- `ublox_derive/src/output.rs:735-737`, `766-773`, `class_and_msg_id` -/
def classAndMsgIdCode (r : Syn.RecvPackets) : FnDecl :=
  { head := "pub fn class_and_msg_id(&self) -> (u8, u8)", name := "class_and_msg_id"
    params := [.self_]
    body := [.tail (.match_ (.deref (.var .self_))
      (r.allPackets.map (fun name => .plain (.ctor (r.unionEnumName ++ "::" ++ name) none)
          (.pair (.const (name ++ "::CLASS")) (.const (name ++ "::ID")))) ++
        [.plain (.ctor (r.unionEnumName ++ "::Unknown") (some .pack))
          (.pair (.field (.var .pack) "class") (.field (.var .pack) "msg_id"))]))] }

/-- `ublox_derive/src/output.rs:729-733`, `775-784`, `match_packet` -/
def matchPacketCode (r : Syn.RecvPackets) : FnDecl :=
  { head := "pub(crate) fn match_packet(class: u8, msg_id: u8, payload: &[u8]) -> Result<" ++
      r.unionEnumName ++ ", ParserError>"
    name := "match_packet", params := [.class_, .msgId, .payload]
    body := [.tail (.match_ (.pair (.var .class_) (.var .msgId))
      (r.allPackets.map (fun name => .guarded (.consts (name ++ "::CLASS") (name ++ "::ID"))
          (.meth (.call (.user ("<" ++ name ++ "Ref>::validate")) [.var .payload]) .isOk [])
          (.block [.tail (.ok (.ctor (r.unionEnumName ++ "::" ++ name)
            (.ctor (name ++ "Ref") (.var .payload))))])) ++
        [.plain .wild (.ok (.ctor (r.unionEnumName ++ "::Unknown") (.struct r.unknownTy
          [("payload", .var .payload), ("class", .var .class_), ("msg_id", .var .msgId)])))]))] }

/-- `ublox_derive/src/output.rs:786-788`, `max_u16` -/
def maxU16Code : FnDecl :=
  { head := "const fn max_u16(a: u16, b: u16) -> u16", name := "max_u16", params := [.a_, .b_]
    body := [.tail (.index (.array [.var .a_, .var .b_])
      (.cast (.paren (.bin .lt (.var .a_) (.var .b_))) .usize))] }

/-- `ublox_derive/src/output.rs:751-756`, the value of `MAX_PAYLOAD_LEN`. -/
def maxPayloadLenExpr (packets : List String) : Expr :=
  packets.foldl (fun prev name =>
    .call (.user "max_u16") [.const (name ++ "::MAX_PAYLOAD_LEN"), prev]) (.lit 0 .u16)

/-- `ublox_derive/src/output.rs:797-809`, `serialize` of `PacketSerializer` -/
def serializePacketCode : FnDecl :=
  { head := serializeHead, name := "serialize", params := [.self_, .serializer]
    body := [newMap,
      .expr (.try_ (.meth (.var .state) .serializeEntry
        [.str "class", .ref (.field (.var .self_) "class")])),
      .expr (.try_ (.meth (.var .state) .serializeEntry
        [.str "msg_id", .ref (.field (.var .self_) "msg_id")])),
      .expr (.try_ (.callMut (.field (.var .self_) "msg") "serialize_fields" true .state)),
      .tail (.meth (.var .state) .end_ [])] }

/-- `ublox_derive/src/output.rs:739-746`, `811-822`, `serialize` of the enumeration of packets -/
def serializeUnionCode (r : Syn.RecvPackets) : FnDecl :=
  { head := serializeHead, name := "serialize", params := [.self_, .serializer]
    body := [.tail (.match_ (.deref (.var .self_))
      (r.allPackets.map (fun name =>
          .plain (.ctor (r.unionEnumName ++ "::" ++ name) (some .msg))
            (.callMut (.struct "crate::ubx_packets::PacketSerializer"
              [("class", .const (name ++ "::CLASS")), ("msg_id", .const (name ++ "::ID")),
               ("msg", .var .msg)]) "serialize" false .serializer)) ++
        [.plain (.ctor (r.unionEnumName ++ "::Unknown") (some .pack))
          (.callMut (.var .pack) "serialize" false .serializer)]))] }

/-- `ublox_derive/src/output.rs:715-824`, `generate_code_for_parse` -/
def generateParseCode (r : Syn.RecvPackets) : ParseCode :=
  { unionName := r.unionEnumName, unknownTy := r.unknownTy, packets := r.allPackets
    classAndMsgId := classAndMsgIdCode r
    matchPacket := matchPacketCode r
    maxU16 := maxU16Code
    maxPayloadLen :=
      ⟨"pub(crate) const MAX_PAYLOAD_LEN: u16", "MAX_PAYLOAD_LEN", maxPayloadLenExpr r.allPackets⟩
    serializePacket := serializePacketCode
    serializeUnion := serializeUnionCode r }

/-- The text of the code for the list of packets. -/
def ParseCode.text (c : ParseCode) : String :=
  " ".intercalate
    ["#[derive(Debug)] pub enum " ++ c.unionName ++ "<'a> {" ++
        ", ".intercalate (c.packets.map fun n => n ++ "(" ++ n ++ "Ref<'a>)") ++
        ", Unknown(" ++ c.unknownTy ++ "<'a>)}",
     implText "" ("<'a> " ++ c.unionName ++ "<'a>") [c.classAndMsgId.text],
     c.matchPacket.text,
     c.maxU16.text,
     c.maxPayloadLen.text,
     serdeAttr ++ " pub struct PacketSerializer<'a, T> { class: u8, msg_id: u8, msg: &'a T, }",
     implText serdeAttr "<'a, T: SerializeUbxPacketFields> serde::Serialize for PacketSerializer<'a, T>"
       [c.serializePacket.text],
     implText serdeAttr (" serde::Serialize for " ++ c.unionName ++ "<'_>") [c.serializeUnion.text]]

/-! ## The macros -/

/-- `ublox_derive/src/lib.rs:112-123`, `generate_code_for_recv_packet` -/
def recvPacketText (s : Syn.StructDecl) : Except String String := do
  let d ← Syn.parsePacketDescription s
  return typesText d ++ " " ++ (← generateRecvCode d).text

/-- `ublox_derive/src/lib.rs:125-136`, `generate_code_for_send_packet` -/
def sendPacketText (s : Syn.StructDecl) : Except String String := do
  let d ← Syn.parsePacketDescription s
  return typesText d ++ " " ++ (← generateSendCode d).text

/-- `ublox_derive/src/lib.rs:138-151`, `generate_code_for_recv_send_packet` -/
def recvSendPacketText (s : Syn.StructDecl) : Except String String := do
  let d ← Syn.parsePacketDescription s
  return typesText d ++ " " ++ (← generateSendCode d).text ++ " " ++ (← generateRecvCode d).text

/-- `ublox_derive/src/lib.rs:153-161`, `extend_enum` -/
def extendEnumText (d : Syn.EnumDecl) : Except String String := do
  return (← generateEnumCode (← Syn.parseUbxEnumType d)).text

/-- `ublox_derive/src/lib.rs:163-178`, `extend_bitflags` -/
def extendBitflagsText (d : Syn.FlagsDecl) : Except String String := do
  let (f, fromFn, rest) ← Syn.parseBitflags d
  return (← generateFlagsCode f fromFn rest).text

/-- `ublox_derive/src/lib.rs:180-183`, `do_define_recv_packets` -/
def defineRecvPacketsText (ts : List Syn.Tok) : Except String String := do
  return (generateParseCode (← Syn.parseIdentsList ts)).text

end Ublox.Rust
