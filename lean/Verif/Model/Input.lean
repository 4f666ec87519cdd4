import Verif.Model.Derive

/-!
# Reading packet declarations

`ublox_derive/src/input.rs`: from the syntax of a declaration to the description that the code is
generated from.  The tokens and the syntax tree are those of the crates `proc_macro2` and `syn`
(version 1), reduced to what the macros look at; what is left out is refused by the model.
-/

namespace Ublox.Syn

/-- An identifier that is not a keyword of Rust.  The identifiers that the macros compare with have
constructors of their own. -/
inductive Word where
  | ubx | doc | repr
  | class_ | id | fixedPayloadLen | maxPayloadLen | flags | defaultForBuilder
  | mapType | scale | alias | mayFail | from_ | isValid | sizeFn | getAsRef | into
  | intoRaw | fromUnchecked | restReserved | restError
  | u8 | i8 | u16 | i16 | u32 | i32 | f32 | f64
  | option
  | name (s : String)
  deriving DecidableEq, Repr

/-- The text of an identifier, as `Ident::to_string` gives it. -/
def Word.text : Word → String
  | .ubx => "ubx" | .doc => "doc" | .repr => "repr"
  | .class_ => "class" | .id => "id" | .fixedPayloadLen => "fixed_payload_len"
  | .maxPayloadLen => "max_payload_len" | .flags => "flags"
  | .defaultForBuilder => "default_for_builder"
  | .mapType => "map_type" | .scale => "scale" | .alias => "alias" | .mayFail => "may_fail"
  | .from_ => "from" | .isValid => "is_valid" | .sizeFn => "size_fn" | .getAsRef => "get_as_ref"
  | .into => "into" | .intoRaw => "into_raw" | .fromUnchecked => "from_unchecked"
  | .restReserved => "rest_reserved" | .restError => "rest_error"
  | .u8 => "u8" | .i8 => "i8" | .u16 => "u16" | .i16 => "i16" | .u32 => "u32" | .i32 => "i32"
  | .f32 => "f32" | .f64 => "f64" | .option => "Option"
  | .name s => s

/-- The keywords of Rust that the macros look for. -/
inductive Kw where
  | enum | struct | const | pub
  deriving DecidableEq, Repr

/-- A token inside a string literal that is parsed (`flags = "..."`). -/
inductive StrTok where
  | word (w : Word)
  | comma
  | other
  deriving DecidableEq, Repr

/-- `syn::Lit`.  A string is given by the tokens of its content; the suffix of a number is ignored
by `base10_parse`. -/
inductive Lit where
  | int (n : Int)
  | float (q : Rat)
  | str (content : List StrTok)
  | other
  deriving DecidableEq, Repr

/-- A token.  Parentheses inside attributes do not occur in anything that is accepted. -/
inductive Tok where
  | word (w : Word)
  | kw (k : Kw)
  | lit (l : Lit)
  | punct (c : Char)
  /-- an attribute, where its content does not matter -/
  | attr
  deriving DecidableEq, Repr

/-- `syn::Type`: paths, paths with one generic argument at the end, references without lifetime,
slices, arrays. -/
inductive Ty where
  | path (segments : List Word)
  | generic (segments : List Word) (arg : Ty)
  | ref (t : Ty)
  | slice (t : Ty)
  | array (elem : Ty) (len : Lit)
  | other
  deriving DecidableEq, Repr

/-- What follows the path of an attribute. -/
inductive AttrBody where
  | empty
  | eq (l : Lit)
  | paren (toks : List Tok)
  /-- anything else; nothing reads it -/
  | other
  deriving DecidableEq, Repr

/-- `syn::Attribute` -/
structure Attr where
  path : Word
  body : AttrBody
  deriving DecidableEq, Repr

/-- `syn::NestedMeta` without nested lists, which all users refuse. -/
inductive NestedMeta where
  | path (w : Word)
  | nameValue (w : Word) (l : Lit)
  | lit (l : Lit)
  deriving DecidableEq, Repr

/-- One element of a `syn::MetaList` from the beginning of the tokens. -/
def parseNestedMeta : List Tok → Except String (NestedMeta × List Tok)
  | .word w :: .punct '=' :: .lit l :: ts => .ok (.nameValue w l, ts)
  | .word _ :: .punct '=' :: _ => .error "expected literal"
  | .word w :: ts => .ok (.path w, ts)
  | .lit l :: ts => .ok (.lit l, ts)
  | _ => .error "expected identifier or literal"

/-- `Punctuated::parse_terminated` of `syn` for elements of a `MetaList`: elements separated by
commas, also after the last one.  `fuel` bounds the number of elements; every element is at least one
token. -/
def parseNested : Nat → List Tok → Except String (List NestedMeta)
  | _, [] => .ok []
  | 0, _ :: _ => .error "unreachable"
  | fuel + 1, ts@(_ :: _) => do
    match ← parseNestedMeta ts with
    | (m, []) => return [m]
    | (m, .punct ',' :: rest) => return m :: (← parseNested fuel rest)
    | (_, _ :: _) => throw "expected `,`"

/-- `syn::Meta` as `Attribute::parse_meta` returns it. -/
inductive Meta where
  | path
  | list (nested : List NestedMeta)
  | nameValue (l : Lit)
  deriving DecidableEq, Repr

/-- `syn::Attribute::parse_meta` -/
def Attr.parseMeta (a : Attr) : Except String Meta :=
  match a.body with
  | .empty => .ok .path
  | .eq l => .ok (.nameValue l)
  | .paren toks => do return .list (← parseNested toks.length toks)
  | .other => .error "not supported"

/-- `LitInt::base10_parse` for an unsigned type with `n` values, together with the match on the
literal, `input.rs:291-294` and the like. -/
def Lit.parseInt (bound : Nat) : Lit → Except String Nat
  | .int n => if 0 ≤ n ∧ n < bound then .ok n.toNat else .error "number out of range"
  | _ => .error "Should be integer literal"

/-- `ublox_derive/src/types.rs:221-224`, `PacketFlag` -/
inductive PacketFlag where
  | defaultForBuilder
  deriving DecidableEq, Repr

/-- `ublox_derive/src/input.rs:665-685`, parsing of `StructFlags`: flags separated by commas, also
after the last one. -/
def parseStructFlags : List StrTok → Except String (List PacketFlag)
  | [] => .ok []
  | [.word .defaultForBuilder] => .ok [.defaultForBuilder]
  | .word .defaultForBuilder :: .comma :: ts => do return .defaultForBuilder :: (← parseStructFlags ts)
  | _ => .error "expected `default_for_builder`"

/-- The local variables of `parse_ubx_attr`, `ublox_derive/src/input.rs:276-280`. -/
structure HeaderVars where
  cls : Option Nat := none
  id : Option Nat := none
  fixedPayloadLen : Option Nat := none
  flags : List PacketFlag := []
  maxPayloadLen : Option Nat := none
  deriving DecidableEq, Repr

/-- `ublox_derive/src/input.rs:282-340`, one round of the loop of `parse_ubx_attr`. -/
def headerStep (v : HeaderVars) : NestedMeta → Except String HeaderVars
  | .nameValue .class_ l => do
    if v.cls.isSome then throw "Duplicate \"class\" attribute"
    return { v with cls := some (← l.parseInt 256) }
  | .nameValue .id l => do
    if v.id.isSome then throw "Duplicate \"id\" attribute"
    return { v with id := some (← l.parseInt 256) }
  | .nameValue .fixedPayloadLen l => do
    if v.fixedPayloadLen.isSome then throw "Duplicate \"fixed_payload_len\" attribute"
    return { v with fixedPayloadLen := some (← l.parseInt 65536) }
  | .nameValue .maxPayloadLen l => do
    if v.maxPayloadLen.isSome then throw "Duplicate \"max_payload_len\" attribute"
    return { v with maxPayloadLen := some (← l.parseInt 65536) }
  | .nameValue .flags l => do
    if !v.flags.isEmpty then throw "Duplicate flags"
    match l with
    | .str content => return { v with flags := ← parseStructFlags content }
    | _ => throw "Should be string literal"
  | _ => .error "Unsupported attribute"

/-- `ublox_derive/src/types.rs:39-44`, `PackHeader` -/
structure PackHeader where
  cls : Nat
  id : Nat
  payloadLen : PayloadLen
  flags : List PacketFlag
  deriving DecidableEq, Repr

/-- `ublox_derive/src/input.rs:341-366`, the end of `parse_ubx_attr`. -/
def headerEnd (v : HeaderVars) : Except String PackHeader :=
  match v.cls, v.id with
  | none, _ => .error "No \"class\" attribute"
  | _, none => .error "No \"id\" attribute"
  | some cls, some id =>
    match v.maxPayloadLen, v.fixedPayloadLen with
    | some x, none => .ok ⟨cls, id, .max x, v.flags⟩
    | none, some x => .ok ⟨cls, id, .fixed x, v.flags⟩
    | some _, some _ => .error "You should not note max_payload_len AND fixed_payload_len"
    | none, none => .error "You should note max_payload_len or fixed_payload_len"

/-- `ublox_derive/src/input.rs:260-367`, `parse_ubx_attr` -/
def parseUbxAttr (attrs : List Attr) : Except String PackHeader :=
  match attrs.find? (fun a => a.path = .ubx) with
  | none => .error "No ubx attribute for struct"
  | some attr => do
    match ← attr.parseMeta with
    | .list nested => headerEnd (← nested.foldlM headerStep {})
    | _ => throw "Invalid ubx attribute syntax"

/-- `ublox_derive/src/input.rs:369-387`, `extract_item_comment`, as far as it refuses something; the
comments themselves are left out. -/
def checkComment (attrs : List Attr) : Except String Unit :=
  attrs.forM fun a =>
    if a.path = .doc then
      match a.body with
      | .eq (.str _) => .ok ()
      | .eq _ => .error "Invalid comment"
      | _ => .error "Invalid comments"
    else .ok ()

/-! ## Attributes of fields -/

/-- The segments of a `syn::Path` after the first. -/
def parsePathTail : List Tok → List Word × List Tok
  | .punct ':' :: .punct ':' :: .word w :: ts =>
    let r := parsePathTail ts
    (w :: r.1, r.2)
  | ts => ([], ts)

/-- `syn::Path` (without generic arguments) from the beginning of the tokens. -/
def parsePath : List Tok → Except String (List Word × List Tok)
  | .word w :: ts =>
    let r := parsePathTail ts
    .ok (w :: r.1, r.2)
  | _ => .error "expected identifier"

/-- `syn::Type` from the beginning of the tokens, for the types of `Ty`.  `fuel` bounds the nesting;
every level has at least one token. -/
def parseType : Nat → List Tok → Except String (Ty × List Tok)
  | 0, _ => .error "unreachable"
  | fuel + 1, .punct '&' :: ts => do
    let (t, ts) ← parseType fuel ts
    return (.ref t, ts)
  | fuel + 1, .punct '[' :: ts => do
    match ← parseType fuel ts with
    | (t, .punct ';' :: .lit l :: .punct ']' :: ts) => return (.array t l, ts)
    | (t, .punct ']' :: ts) => return (.slice t, ts)
    | _ => throw "expected slice or array type"
  | fuel + 1, ts => do
    match ← parsePath ts with
    | (p, .punct '<' :: ts) =>
      match ← parseType fuel ts with
      | (t, .punct '>' :: ts) => return (.generic p t, ts)
      | _ => throw "expected `>`"
    | (p, ts) => return (.path p, ts)

/-- The local variables of `PackFieldMap::parse`, `ublox_derive/src/input.rs:483-488`; `into` is any
expression in the code, here only a path. -/
structure MapVars where
  mapTy : Option Ty := none
  scale : Option Rat := none
  alias : Option String := none
  mayFail : Bool := false
  getAsRef : Bool := false
  fromFn : Option (List Word) := none
  intoFn : Option (List Word) := none
  isValidFn : Option (List Word) := none
  sizeFn : Option (List Word) := none
  deriving DecidableEq, Repr

/-- `ublox_derive/src/input.rs:490-528`, one round of the loop of `PackFieldMap::parse` without the
comma at its end. -/
def mapStep (v : MapVars) : List Tok → Except String (MapVars × List Tok)
  | .word .mapType :: .punct '=' :: ts => do
    let (t, ts) ← parseType ts.length ts
    return ({ v with mapTy := some t }, ts)
  | .word .scale :: .punct '=' :: .lit (.float q) :: ts => .ok ({ v with scale := some q }, ts)
  | .word .alias :: .punct '=' :: .word w :: ts => .ok ({ v with alias := some w.text }, ts)
  | .word .mayFail :: ts => .ok ({ v with mayFail := true }, ts)
  | .word .from_ :: .punct '=' :: ts => do
    let (p, ts) ← parsePath ts
    return ({ v with fromFn := some p }, ts)
  | .word .isValid :: .punct '=' :: ts => do
    let (p, ts) ← parsePath ts
    return ({ v with isValidFn := some p }, ts)
  | .word .sizeFn :: .punct '=' :: ts => do
    let (p, ts) ← parsePath ts
    return ({ v with sizeFn := some p }, ts)
  | .word .getAsRef :: ts => .ok ({ v with getAsRef := true }, ts)
  | .word .into :: .punct '=' :: ts => do
    let (p, ts) ← parsePath ts
    return ({ v with intoFn := some p }, ts)
  | _ => .error "expected one of the keywords, or bad value"

/-- `ublox_derive/src/input.rs:530-532`: a comma is skipped if there is one. -/
def skipComma : List Tok → List Tok
  | .punct ',' :: ts => ts
  | ts => ts

/-- `ublox_derive/src/input.rs:489-533`, the loop of `PackFieldMap::parse`.  `fuel` bounds the number
of rounds; every round reads at least one token. -/
def mapLoop : Nat → MapVars → List Tok → Except String MapVars
  | _, v, [] => .ok v
  | 0, _, _ :: _ => .error "unreachable"
  | fuel + 1, v, ts@(_ :: _) => do
    let (v, ts) ← mapStep v ts
    mapLoop fuel v (skipComma ts)

/-- `ublox_derive/src/input.rs:473-479`, `MapType` -/
structure MapType where
  ty : Ty
  fromFn : Option (List Word)
  isValidFn : Option (List Word)
  intoFn : Option (List Word)
  sizeFn : Option (List Word)
  deriving DecidableEq, Repr

/-- `ublox_derive/src/input.rs:458-465`, `PackFieldMap` -/
structure PackFieldMap where
  mapType : Option MapType := none
  scale : Option Rat := none
  alias : Option String := none
  convertMayFail : Bool := false
  getAsRef : Bool := false
  deriving DecidableEq, Repr

/-- `ublox_derive/src/input.rs:467-471`, `PackFieldMap::is_none` -/
def PackFieldMap.isNone (m : PackFieldMap) : Bool :=
  m.mapType.isNone && m.scale.isNone && m.alias.isNone

/-- `ublox_derive/src/input.rs:535-545`, the end of `PackFieldMap::parse`. -/
def mapEnd (v : MapVars) : PackFieldMap :=
  { mapType := v.mapTy.map fun t => ⟨t, v.fromFn, v.isValidFn, v.intoFn, v.sizeFn⟩
    scale := v.scale, alias := v.alias, convertMayFail := v.mayFail, getAsRef := v.getAsRef }

/-- `ublox_derive/src/input.rs:481-547`, `PackFieldMap::parse` -/
def parseFieldMap (toks : List Tok) : Except String PackFieldMap := do
  return mapEnd (← mapLoop toks.length {} toks)

/-- `syn::Attribute::parse_args` with this parser. -/
def Attr.parseArgs (a : Attr) : Except String PackFieldMap :=
  match a.body with
  | .paren toks => parseFieldMap toks
  | _ => .error "expected parentheses"

/-- `ublox_derive/src/input.rs:563-608`, `field_size_bytes`.  Sizes are natural numbers: the limit of
`usize` is left out. -/
def fieldSizeBytes : Ty → Except String (Option Nat)
  | .path [.u8] => .ok (some 1)
  | .path [.i8] => .ok (some 1)
  | .path [.u16] => .ok (some 2)
  | .path [.i16] => .ok (some 2)
  | .path [.u32] => .ok (some 4)
  | .path [.i32] => .ok (some 4)
  | .path [.f32] => .ok (some 4)
  | .path [.f64] => .ok (some 8)
  | .array elem len =>
    if elem ≠ .path [.u8] then .error "Only u8 supported"
    else match len with
      | .int n => if 0 ≤ n then .ok (if n = 0 then none else some n.toNat) else .error "invalid digit"
      | _ => .error "Can not interpret array length"
  | .ref _ => .ok none
  | _ => .error "Not supported type"

/-- A function in the generated code: a path that was written, a method of the mapped type, or
the conversion `ScaleBack::<ty>(1. / scale).as_raw`. -/
inductive Fn where
  | custom (path : List Word)
  | method (ty : Ty) (name : Word)
  | scaleBack (ty : Ty) (scale : Rat) (raw : Ty)
  deriving DecidableEq, Repr

/-- `ublox_derive/src/types.rs:93-100`, `MapTypeDesc` -/
structure MapTypeDesc where
  ty : Ty
  fromFn : Fn
  isValidFn : Fn
  intoFn : Fn
  sizeFn : Option (List Word)
  deriving DecidableEq, Repr

/-- `ublox_derive/src/types.rs:84-91`, `PackFieldMapDesc` -/
structure PackFieldMapDesc where
  mapType : Option MapTypeDesc
  scale : Option Rat
  alias : Option String
  convertMayFail : Bool
  getAsRef : Bool
  deriving DecidableEq, Repr

/-- `ublox_derive/src/types.rs:102-151`, `PackFieldMapDesc::new` -/
def PackFieldMapDesc.new (x : PackFieldMap) (rawTy : Ty) : PackFieldMapDesc :=
  { mapType := x.mapType.map fun m =>
      { ty := m.ty
        fromFn := match m.fromFn with
          | some p => .custom p
          | none => if !x.convertMayFail then .method m.ty .from_ else .method m.ty .fromUnchecked
        isValidFn := match m.isValidFn with
          | some p => .custom p
          | none => .method m.ty .isValid
        intoFn := match m.intoFn with
          | some p => .custom p
          | none =>
            if m.ty = .path [.f32] ∨ m.ty = .path [.f64] then
              match x.scale with
              | some q => .scaleBack m.ty q rawTy
              | none => .method m.ty .intoRaw
            else .method m.ty .intoRaw
        sizeFn := m.sizeFn }
    scale := x.scale, alias := x.alias, convertMayFail := x.convertMayFail, getAsRef := x.getAsRef }

/-- `syn::Field` with a name -/
structure Field where
  name : String
  attrs : List Attr
  ty : Ty
  deriving DecidableEq, Repr

/-- `ublox_derive/src/types.rs:62-69`, `PackField` without the comment -/
structure PackField where
  name : String
  ty : Ty
  map : PackFieldMapDesc
  sizeBytes : Option Nat
  deriving DecidableEq, Repr

/-- `ublox_derive/src/types.rs:72-74`, `size_fn` -/
def PackField.sizeFn (f : PackField) : Option (List Word) := f.map.mapType.bind (·.sizeFn)

/-- `ublox_derive/src/input.rs:409-420`, the loop over the attributes of a field. -/
def fieldAttrs : PackFieldMap → List Attr → Except String PackFieldMap
  | map, [] => .ok map
  | map, a :: as => do
    if a.path ≠ .doc then
      if !map.isNone then throw "Two map attributes for the same field"
      fieldAttrs (← a.parseArgs) as
    else fieldAttrs map as

/-- `ublox_derive/src/input.rs:397-440`, one round of the loop of `parse_fields`. -/
def parseField (f : Field) : Except String PackField := do
  let sizeBytes ← fieldSizeBytes f.ty
  checkComment f.attrs
  let map ← fieldAttrs {} f.attrs
  match map.mapType with
  | some m => if m.ty = f.ty then throw "You map type to the same type"
  | none => pure ()
  return ⟨f.name, f.ty, .new map f.ty, sizeBytes⟩

/-- The declaration of a struct, as `syn::DeriveInput` gives it; `fields` is `none` if the fields have
no names. -/
structure StructDecl where
  kind : PackKind
  name : String
  attrs : List Attr
  fields : Option (List Field)
  deriving DecidableEq, Repr

/-- `ublox_derive/src/input.rs:389-443`, `parse_fields` -/
def parseFields : Option (List Field) → Except String (List PackField)
  | none => .error "Unsupported fields format"
  | some fields => fields.mapM parseField

/-- `ublox_derive/src/types.rs:6-11`, `PackDesc`, without the comment -/
structure PackDesc where
  name : String
  header : PackHeader
  fields : List PackField
  deriving DecidableEq, Repr

/-- `ublox_derive/src/types.rs:27-36`, `fields_size` -/
def fieldsSize : List PackField → Option Nat
  | [] => some 0
  | f :: fs => do
    let n ← f.sizeBytes
    return n + (← fieldsSize fs)

/-- `ublox_derive/src/types.rs:52-60`, `PayloadLen::fixed` -/
def payloadFixed : PayloadLen → Option Nat
  | .fixed n => some n
  | .max _ => none

/-- `ublox_derive/src/input.rs:15-59`, `parse_packet_description` -/
def parsePacketDescription (decl : StructDecl) : Except String PackDesc := do
  let header ← parseUbxAttr decl.attrs
  checkComment decl.attrs
  let fields ← parseFields decl.fields
  match (fields.reverse.drop 1).find? (fun f => f.sizeBytes.isNone && f.sizeFn.isNone) with
  | some _ => throw "Non-finite size for field which is not the last field"
  | none => pure ()
  if payloadFixed header.payloadLen = fieldsSize fields then return ⟨decl.name, header, fields⟩
  else throw "Calculated packet size doesn't match specified"

/-! ## Enumerations, flags and the list of packets -/

/-- The local variables of `parse_ubx_extend_attrs`, `ublox_derive/src/input.rs:210-212`. -/
structure ExtendVars where
  fromFn : Option FromFn := none
  rest : Option Rest := none
  intoRaw : Bool := false
  deriving DecidableEq, Repr

/-- `ublox_derive/src/input.rs:216-243`, one round of the loop of `parse_ubx_extend_attrs`. -/
def extendStep (v : ExtendVars) : NestedMeta → Except String ExtendVars
  | .path .from_ => .ok { v with fromFn := some .from }
  | .path .intoRaw => .ok { v with intoRaw := true }
  | .path .fromUnchecked => .ok { v with fromFn := some .fromUnchecked }
  | .path .restReserved =>
    if v.rest.isSome then .error "rest_reserved or rest_error already defined"
    else .ok { v with rest := some .reserved }
  | .path .restError =>
    if v.rest.isSome then .error "rest_reserved or rest_error already defined"
    else .ok { v with rest := some .errorProne }
  | _ => .error "Invalid ubx attribute"

/-- `ublox_derive/src/input.rs:196-258`, `parse_ubx_extend_attrs` -/
def parseUbxExtendAttrs (attrs : List Attr) : Except String ExtendVars :=
  match attrs.find? (fun a => a.path = .ubx) with
  | none => .error "No ubx attribute"
  | some attr => do
    match ← attr.parseMeta with
    | .list nested =>
      let v ← nested.foldlM extendStep {}
      if v.fromFn = some .from ∧ v.rest = some .errorProne then
        throw "you should use rest_error with from_unchecked"
      return v
    | _ => throw "Invalid ubx attributes"

/-- `syn::Variant`: `unit` says that there are no fields, `discriminant` is the expression after `=`,
where expressions that are not literals are `Lit.other`. -/
structure VariantDecl where
  name : String
  unit : Bool
  discriminant : Option Lit
  deriving DecidableEq, Repr

/-- The declaration of an enumeration, as `syn::DeriveInput` gives it. -/
structure EnumDecl where
  name : String
  attrs : List Attr
  variants : List VariantDecl
  deriving DecidableEq, Repr

/-- `ublox_derive/src/input.rs:69-99`, the check of `repr` in `parse_ubx_enum_type`; a type that is not
`u8` is `unimplemented!()`, a panic of the macro. -/
def checkRepr (attrs : List Attr) : Except String Unit :=
  match attrs.find? (fun a => a.path = .repr) with
  | none => .error "No repr attribute for ubx_type enum"
  | some attr => do
    match ← attr.parseMeta with
    | .list [.path w] => if w = .u8 then return () else throw "not implemented"
    | _ => throw "Invalid repr attribute for ubx_type enum"

/-- `ublox_derive/src/input.rs:101-125`, one round of the loop of `parse_ubx_enum_type`. -/
def parseVariant (v : VariantDecl) : Except String Variant :=
  if !v.unit then .error "Invalid variant for ubx_type enum"
  else match v.discriminant with
    | none => .error "ubx_type enum variant should has value"
    | some l => do return (v.name, UInt8.ofNat (← l.parseInt 256))

/-- `ublox_derive/src/input.rs:61-141`, `parse_ubx_enum_type`; the attributes that are passed on to the
generated enumeration are left out. -/
def parseUbxEnumType (d : EnumDecl) : Except String EnumDesc := do
  let v ← parseUbxExtendAttrs d.attrs
  checkRepr d.attrs
  let variants ← d.variants.mapM parseVariant
  return { name := d.name, fromFn := v.fromFn, rest := v.rest, intoRaw := v.intoRaw, variants }

/-- A `const` of `BitFlagsAstConst::parse`, `ublox_derive/src/input.rs:653-663`, from the beginning of
the tokens: attributes are skipped. -/
def parseConst : List Tok → Except String ((String × Int) × List Tok)
  | .attr :: ts => parseConst ts
  | .kw .const :: .word w :: .punct '=' :: .lit (.int n) :: ts => .ok ((w.text, n), ts)
  | _ => .error "expected `const`"

/-- `parse_terminated` of `syn` for these up to the brace at the end,
`ublox_derive/src/input.rs:638-639`; `fuel` bounds their number. -/
def parseConsts : Nat → List Tok → Except String (List (String × Int))
  | _, [.punct '}'] => .ok []
  | 0, _ => .error "unreachable"
  | fuel + 1, ts => do
    match ← parseConst ts with
    | (c, [.punct '}']) => return [c]
    | (c, .punct ';' :: rest) => return c :: (← parseConsts fuel rest)
    | _ => throw "expected `;`"

/-- `ublox_derive/src/input.rs:610-619`, `BitFlagsAst`, without attributes and visibility -/
structure BitFlagsAst where
  name : String
  reprTy : Ty
  items : List (String × Int)
  deriving DecidableEq, Repr

/-- `ublox_derive/src/input.rs:629-651`, `BitFlagsAst::parse`; the visibility is absent or `pub`. -/
def parseBitFlagsAst : List Tok → Except String BitFlagsAst
  | .attr :: ts => parseBitFlagsAst ts
  | .kw .pub :: .kw .struct :: .word w :: .punct ':' :: ts => body w.text ts
  | .kw .struct :: .word w :: .punct ':' :: ts => body w.text ts
  | _ => .error "expected `struct`"
where
  /-- the part after the colon -/
  body (s : String) (ts : List Tok) : Except String BitFlagsAst := do
    match ← parseType ts.length ts with
    | (ty, .punct '{' :: ts) => return ⟨s, ty, ← parseConsts ts.length ts⟩
    | _ => throw "expected curly braces"

/-- The invocation of `bitflags!`, as `syn::ItemMacro` gives it. -/
structure FlagsDecl where
  attrs : List Attr
  tokens : List Tok
  deriving DecidableEq, Repr

/-- `ublox_derive/src/input.rs:149-168`, the number of bits in `parse_bitflags` -/
def reprBits : Ty → Except String Nat
  | .path [.u8] => .ok 8
  | .path [.u16] => .ok 16
  | .path [.u32] => .ok 32
  | _ => .error "Not supported type"

/-- `ublox_derive/src/input.rs:143-190`, `parse_bitflags`; the attributes that the code is generated
from are returned as well. -/
def parseBitflags (d : FlagsDecl) : Except String (FlagsDesc × Option FromFn × Option Rest) := do
  let v ← parseUbxExtendAttrs d.attrs
  let ast ← parseBitFlagsAst d.tokens
  let nbits ← reprBits ast.reprTy
  let consts ← ast.items.mapM fun c => do
    return (c.1, ← (Lit.int c.2).parseInt (2 ^ 64))
  return ({ name := ast.name, nbits, from_ := v.fromFn == some .from, intoRaw := v.intoRaw, consts },
    v.fromFn, v.rest)

/-- `parse_terminated(Ident::parse)` of `syn` up to the brace at the end,
`ublox_derive/src/input.rs:697`. -/
def parseIdents : List Tok → Except String (List String)
  | [.punct '}'] => .ok []
  | [.word w, .punct '}'] => .ok [w.text]
  | .word w :: .punct ',' :: ts => do return w.text :: (← parseIdents ts)
  | _ => .error "expected identifier"

/-- `ublox_derive/src/types.rs:226-230`, `RecvPackets` -/
structure RecvPackets where
  unionEnumName : String
  unknownTy : String
  allPackets : List String
  deriving DecidableEq, Repr

/-- `ublox_derive/src/input.rs:192-194`, `687-704`, `parse_idents_list` with `RecvPackets::parse`. -/
def parseIdentsList : List Tok → Except String RecvPackets
  | .kw .enum :: .word w :: .punct '{' :: .punct '_' :: .punct '=' :: .word u ::
      .punct ',' :: ts => do return ⟨w.text, u.text, ← parseIdents ts⟩
  | _ => .error "expected `enum`"

end Ublox.Syn
