import Verif.Model.Input
import Mathlib.Data.List.Forall2

/-!
# What declarations mean

The notation of attributes (`Listed`, `Args.Written`), independent of the way in which the macros read
it, and what is to be read (`HeaderMeans`, `FieldMeans`, `DeclMeans`, ...).
-/

namespace Ublox.Spec
open Syn

/-! ## The code that a description stands for -/

/-- The type that is written for a conversion. -/
def convTy : Conv → Ty
  | .f32 => .path [.f32]
  | .f64 => .path [.f64]
  | .enum e => .path [.name e.name]
  | .flags d => .path [.name d.name]
  | .fixStatusInfo => .path [.name "FixStatusInfo"]
  | .navSatSvFlags => .path [.name "NavSatSvFlags"]
  | .timTpFlags => .path [.name "TimTpFlags"]
  | .timTpRefInfo => .path [.name "TimTpRefInfo"]
  | .timTm2Flags => .path [.name "TimTm2Flags"]
  | .uartMode => .path [.name "UartMode"]
  | .itfmConfig => .path [.name "CfgItfmConfig"]
  | .itfmConfig2 => .path [.name "CfgItfmConfig2"]
  | .resetMode => .path [.name "ResetMode"]
  | .alignment => .path [.name "AlignmentToReferenceTime"]
  | .infStr => .generic [.option] (.ref (.path [.name "str"]))
  | .cstr => .ref (.path [.name "str"])
  | .calibTag => .generic [.option] (.path [.u32])
  | .iter .navSat => .path [.name "NavSatIter"]
  | .iter .monVerExt => .path [.name "MonVerExtensionIter"]
  | .iter .esfMeas => .path [.name "EsfMeasDataIter"]
  | .iter .esfRaw => .path [.name "EsfRawDataIter"]
  | .iter .rxmRawx => .path [.name "RxmRawxInfoIter"]
  | .iter .dwrd => .path [.name "DwrdIter"]

/-- The function that makes the value, if it is not the method `from` or `from_unchecked` of the
type. -/
def convFrom : Conv → Option (List Word)
  | .timTpFlags => some [.name "TimTpFlags"]
  | .timTpRefInfo => some [.name "TimTpRefInfo"]
  | .timTm2Flags => some [.name "TimTm2Flags"]
  | .infStr => some [.name "inf", .name "convert_to_str"]
  | .cstr => some [.name "mon_ver", .name "convert_to_str_unchecked"]
  | .calibTag => some [.name "EsfMeas", .name "calib_tag"]
  | .iter .navSat => some [.name "NavSatIter", .name "new"]
  | .iter .monVerExt => some [.name "MonVerExtensionIter", .name "new"]
  | .iter .esfMeas => some [.name "EsfMeasDataIter", .name "new"]
  | .iter .esfRaw => some [.name "EsfRawDataIter", .name "new"]
  | .iter .rxmRawx => some [.name "RxmRawxInfoIter", .name "new"]
  | .iter .dwrd => some [.name "DwrdIter", .name "new"]
  | _ => none

/-- The function that checks the bytes, if it is not the method `is_valid` of the type. -/
def convIsValid : Conv → Option (List Word)
  | .infStr => some [.name "inf", .isValid]
  | .cstr => some [.name "mon_ver", .name "is_cstr_valid"]
  | .iter .navSat => some [.name "NavSatIter", .isValid]
  | .iter .monVerExt => some [.name "MonVerExtensionIter", .isValid]
  | .iter .esfMeas => some [.name "EsfMeasDataIter", .isValid]
  | .iter .esfRaw => some [.name "EsfRawDataIter", .isValid]
  | .iter .rxmRawx => some [.name "RxmRawxInfoIter", .isValid]
  | .iter .dwrd => some [.name "DwrdIter", .isValid]
  | _ => none

/-- The name of a size function. -/
def sizeFnName : SizeFn → List Word
  | .dataLen => [.name "data_len"]
  | .calibTagLen => [.name "calib_tag_len"]

/-- The raw type of a field; a field without size is an empty array if it is mapped, and the slice of
configuration values otherwise. -/
def rawTy (mapped : Bool) : RawTy → Ty
  | .u8 => .path [.u8]
  | .i8 => .path [.i8]
  | .u16 => .path [.u16]
  | .i16 => .path [.i16]
  | .u32 => .path [.u32]
  | .i32 => .path [.i32]
  | .f32 => .path [.f32]
  | .f64 => .path [.f64]
  | .bytes n => .array (.path [.u8]) (.int n)
  | .tail =>
    if mapped then .array (.path [.u8]) (.int 0) else .ref (.slice (.path [.name "CfgVal"]))

/-- The functions that the code of a field with this conversion has to call. -/
def convDesc (f : FieldDesc) (raw : Ty) (c : Conv) : MapTypeDesc where
  ty := convTy c
  fromFn := match convFrom c with
    | some p => .custom p
    | none => .method (convTy c) (if f.mayFail then .fromUnchecked else .from_)
  isValidFn := match convIsValid c with
    | some p => .custom p
    | none => .method (convTy c) .isValid
  intoFn := match c, f.scale with
    | .f32, some q => .scaleBack (convTy c) q raw
    | .f64, some q => .scaleBack (convTy c) q raw
    | _, _ => .method (convTy c) .intoRaw
  sizeFn := f.sizeFn.map sizeFnName

/-- A field as the code generators get it. -/
def fieldCode (f : FieldDesc) : PackField where
  name := f.name
  ty := rawTy f.map.isSome f.ty
  map :=
    { mapType := f.map.map (convDesc f (rawTy f.map.isSome f.ty))
      scale := f.scale, «alias» := f.alias, convertMayFail := f.mayFail, getAsRef := f.getAsRef }
  sizeBytes := f.ty.size

/-- A packet as the code generators get it. -/
def packetCode (d : Ublox.PackDesc) : Syn.PackDesc where
  name := d.name
  header := ⟨d.cls.toNat, d.id.toNat, d.payloadLen,
    if d.defaultForBuilder then [.defaultForBuilder] else []⟩
  fields := d.fields.map fieldCode

/-! ## Attributes of packets -/

/-- Elements with a separator between them and possibly after the last one. -/
inductive Listed (sep : Tok) (toks : α → List Tok) : List α → List Tok → Prop
  | nil : Listed sep toks [] []
  | last (a : α) : Listed sep toks [a] (toks a)
  | cons (a : α) {as : List α} {ts : List Tok} :
    Listed sep toks as ts → Listed sep toks (a :: as) (toks a ++ sep :: ts)

/-- `key = literal` -/
def entryToks (e : Word × Lit) : List Tok := [.word e.1, .punct '=', .lit e.2]

/-- The literals that are given for a key. -/
def valuesOf (k : Word) (es : List (Word × Lit)) : List Lit :=
  (es.filter fun e => e.1 = k).map (·.2)

/-- A list of `n` flags as text: separated by commas, possibly with one at the end. -/
inductive FlagText : List StrTok → Nat → Prop
  | nil : FlagText [] 0
  | one : FlagText [.word .defaultForBuilder] 1
  | cons {ts : List StrTok} {n : Nat} :
    FlagText ts n → FlagText (.word .defaultForBuilder :: .comma :: ts) (n + 1)

/-- The entries `key = literal` give this header, in whatever order they are written: class and number
exactly once, exactly one of the two lengths, no other keys.  The flags may be missing; before them
they may be given as empty text. -/
structure HeaderMeans (es : List (Word × Lit)) (h : PackHeader) : Prop where
  keys : ∀ e ∈ es, e.1 = .class_ ∨ e.1 = .id ∨ e.1 = .fixedPayloadLen ∨ e.1 = .maxPayloadLen ∨
    e.1 = .flags
  cls : valuesOf .class_ es = [.int h.cls] ∧ h.cls < 256
  id : valuesOf .id es = [.int h.id] ∧ h.id < 256
  len : ∃ n : Nat, n < 65536 ∧
    ((valuesOf .fixedPayloadLen es = [.int n] ∧ valuesOf .maxPayloadLen es = [] ∧
        h.payloadLen = .fixed n) ∨
      (valuesOf .fixedPayloadLen es = [] ∧ valuesOf .maxPayloadLen es = [.int n] ∧
        h.payloadLen = .max n))
  flags : (valuesOf .flags es = [] ∧ h.flags = []) ∨
    ∃ k content n, valuesOf .flags es = List.replicate k (.str []) ++ [.str content] ∧
      FlagText content n ∧ h.flags = List.replicate n .defaultForBuilder

/-- The first attribute with this name has these tokens between parentheses. -/
def FirstParen (w : Word) (attrs : List Attr) (ts : List Tok) : Prop :=
  ∃ before after, attrs = before ++ ⟨w, .paren ts⟩ :: after ∧ ∀ a ∈ before, a.path ≠ w

/-- The attributes of a packet give this header. -/
def PacketHeader (attrs : List Attr) (h : PackHeader) : Prop :=
  ∃ ts es, FirstParen .ubx attrs ts ∧ Listed (.punct ',') entryToks es ts ∧ HeaderMeans es h

/-- Documentation is text. -/
def DocsOk (attrs : List Attr) : Prop :=
  ∀ a ∈ attrs, a.path = .doc → ∃ c, a.body = .eq (.str c)

/-! ## Attributes of fields -/

/-- `first::second::third` -/
def pathToks : List Word → List Tok
  | [] => []
  | w :: ws => .word w :: ws.flatMap fun w => [.punct ':', .punct ':', .word w]

/-- A type as it is written. -/
def tyToks : Ty → List Tok
  | .path p => pathToks p
  | .generic p t => pathToks p ++ .punct '<' :: tyToks t ++ [.punct '>']
  | .ref t => .punct '&' :: tyToks t
  | .slice t => .punct '[' :: tyToks t ++ [.punct ']']
  | .array t l => .punct '[' :: tyToks t ++ [.punct ';', .lit l, .punct ']']
  | .other => []

/-- A type that can be written. -/
def TyOk : Ty → Prop
  | .path p => p ≠ []
  | .generic p t => p ≠ [] ∧ TyOk t
  | .ref t => TyOk t
  | .slice t => TyOk t
  | .array t _ => TyOk t
  | .other => False

/-- An argument of the attribute of a field. -/
inductive Arg where
  | mapType (t : Ty)
  | scale (q : Rat)
  | alias (w : Word)
  | mayFail
  | from_ (p : List Word)
  | isValid (p : List Word)
  | sizeFn (p : List Word)
  | getAsRef
  | into (p : List Word)
  deriving DecidableEq

/-- An argument as it is written. -/
def argToks : Arg → List Tok
  | .mapType t => .word .mapType :: .punct '=' :: tyToks t
  | .scale q => [.word .scale, .punct '=', .lit (.float q)]
  | .alias w => [.word .alias, .punct '=', .word w]
  | .mayFail => [.word .mayFail]
  | .from_ p => .word .from_ :: .punct '=' :: pathToks p
  | .isValid p => .word .isValid :: .punct '=' :: pathToks p
  | .sizeFn p => .word .sizeFn :: .punct '=' :: pathToks p
  | .getAsRef => [.word .getAsRef]
  | .into p => .word .into :: .punct '=' :: pathToks p

/-- An argument that can be written. -/
def ArgOk : Arg → Prop
  | .mapType t => TyOk t
  | .from_ p => p ≠ []
  | .isValid p => p ≠ []
  | .sizeFn p => p ≠ []
  | .into p => p ≠ []
  | _ => True

/-- Arguments one after the other; after each of them there may be a comma. -/
inductive ArgsWritten : List Arg → List Tok → Prop
  | nil : ArgsWritten [] []
  | cons (a : Arg) {as : List Arg} {ts : List Tok} : ArgOk a →
    ArgsWritten as ts → ArgsWritten (a :: as) (argToks a ++ ts)
  | comma (a : Arg) {as : List Arg} {ts : List Tok} : ArgOk a →
    ArgsWritten as ts → ArgsWritten (a :: as) (argToks a ++ .punct ',' :: ts)

/-- The last of the arguments of a kind. -/
def lastOf (kind : Arg → Option α) (as : List Arg) : Option α := (as.filterMap kind).getLast?

/-- What the arguments say: the last one of each kind counts; the functions are dropped if there is no
`map_type`. -/
def argsMean (as : List Arg) : PackFieldMap where
  mapType := (lastOf (fun | .mapType t => some t | _ => none) as).map fun t =>
    { ty := t
      fromFn := lastOf (fun | .from_ p => some p | _ => none) as
      isValidFn := lastOf (fun | .isValid p => some p | _ => none) as
      intoFn := lastOf (fun | .into p => some p | _ => none) as
      sizeFn := lastOf (fun | .sizeFn p => some p | _ => none) as }
  scale := lastOf (fun | .scale q => some q | _ => none) as
  «alias» := lastOf (fun | .alias w => some w.text | _ => none) as
  convertMayFail := decide (.mayFail ∈ as)
  getAsRef := decide (.getAsRef ∈ as)

/-- An attribute of a field says this. -/
def AttrMeans (a : Attr) (m : PackFieldMap) : Prop :=
  ∃ ts as, a.body = .paren ts ∧ ArgsWritten as ts ∧ m = argsMean as

/-- The attributes of a field that are not documentation, whatever their name.  All but the last one
may say nothing about type, scale and name, and are without effect. -/
def AttrsMean (attrs : List Attr) (m : PackFieldMap) : Prop :=
  match attrs.filter fun a => a.path ≠ .doc with
  | [] => m = {}
  | a :: as => ∃ init last, a :: as = init ++ [last] ∧ AttrMeans last m ∧
    ∀ b ∈ init, ∃ mb, AttrMeans b mb ∧ mb.mapType = none ∧ mb.scale = none ∧ mb.alias = none

/-- The sizes of the numbers. -/
def scalarSizes : List (Word × Nat) :=
  [(.u8, 1), (.i8, 1), (.u16, 2), (.i16, 2), (.u32, 4), (.i32, 4), (.f32, 4), (.f64, 8)]

/-- The size of a raw type, if it is known. -/
inductive SizeMeans : Ty → Option Nat → Prop
  | scalar {w : Word} {n : Nat} : (w, n) ∈ scalarSizes → SizeMeans (.path [w]) (some n)
  | bytes {n : Nat} : 0 < n → SizeMeans (.array (.path [.u8]) (.int n)) (some n)
  | empty : SizeMeans (.array (.path [.u8]) (.int 0)) none
  | ref {t : Ty} : SizeMeans (.ref t) none

/-- The functions that the code of a field calls: those that are written, otherwise methods of the type
that is written; floating point numbers with a scale are divided by it. -/
def mapCode (m : PackFieldMap) (raw : Ty) : PackFieldMapDesc where
  mapType := m.mapType.map fun t =>
    { ty := t.ty
      fromFn := (t.fromFn.map Fn.custom).getD
        (.method t.ty (if m.convertMayFail then .fromUnchecked else .from_))
      isValidFn := (t.isValidFn.map Fn.custom).getD (.method t.ty .isValid)
      intoFn := (t.intoFn.map Fn.custom).getD
        (if t.ty = .path [.f32] ∨ t.ty = .path [.f64] then
          (m.scale.map fun q => Fn.scaleBack t.ty q raw).getD (.method t.ty .intoRaw)
        else .method t.ty .intoRaw)
      sizeFn := t.sizeFn }
  scale := m.scale
  «alias» := m.alias
  convertMayFail := m.convertMayFail
  getAsRef := m.getAsRef

/-- The declaration of a field gives this description. -/
structure FieldMeans (f : Field) (p : PackField) : Prop where
  name : p.name = f.name
  ty : p.ty = f.ty
  size : SizeMeans f.ty p.sizeBytes
  docs : DocsOk f.attrs
  map : ∃ m, AttrsMean f.attrs m ∧ (∀ t, m.mapType = some t → t.ty ≠ f.ty) ∧ p.map = mapCode m f.ty

/-- The declaration of a packet gives this description. -/
structure DeclMeans (s : StructDecl) (p : Syn.PackDesc) : Prop where
  name : p.name = s.name
  header : PacketHeader s.attrs p.header
  docs : DocsOk s.attrs
  fields : ∃ fs, s.fields = some fs ∧ List.Forall₂ FieldMeans fs p.fields
  /-- only the last field may be of unknown size without a function for it -/
  sized : ∀ f ∈ p.fields.dropLast, f.sizeBytes = none →
    ∃ t, f.map.mapType = some t ∧ t.sizeFn.isSome
  /-- a fixed length is the sum of the sizes, and all sizes are known exactly if the length is fixed -/
  length : match p.header.payloadLen with
    | .fixed n => (∀ f ∈ p.fields, f.sizeBytes.isSome) ∧ n = (p.fields.filterMap (·.sizeBytes)).sum
    | .max _ => ∃ f ∈ p.fields, f.sizeBytes = none

/-! ## Enumerations, flags and the list of packets -/

/-- What the words in the attribute of an enumeration or of flags say: the last of `from` and
`from_unchecked` counts, `rest_reserved` and `rest_error` occur at most once together, and `from` is
refused with `rest_error`. -/
structure ExtendMeans (ws : List Word) (v : ExtendVars) : Prop where
  words : ∀ w ∈ ws, w = .from_ ∨ w = .fromUnchecked ∨ w = .intoRaw ∨ w = .restReserved ∨ w = .restError
  fromFn : v.fromFn = (ws.filterMap fun
    | .from_ => some FromFn.from | .fromUnchecked => some FromFn.fromUnchecked | _ => none).getLast?
  intoRaw : v.intoRaw = decide (.intoRaw ∈ ws)
  rest : (ws.filterMap fun
    | .restReserved => some Rest.reserved | .restError => some Rest.errorProne | _ => none) =
      v.rest.toList
  compatible : v.fromFn = some .from → v.rest ≠ some .errorProne

/-- The attributes of an enumeration or of flags say this. -/
def ExtendAttrs (attrs : List Attr) (v : ExtendVars) : Prop :=
  ∃ ts ws, FirstParen .ubx attrs ts ∧ Listed (.punct ',') (fun w => [.word w]) ws ts ∧
    ExtendMeans ws v

/-- A variant: a name with a number of one byte. -/
def VariantMeans (d : VariantDecl) (v : Variant) : Prop :=
  d = ⟨v.1, true, some (.int v.2.toNat)⟩

/-- The declaration of an enumeration gives this description. -/
structure EnumMeans (s : EnumDecl) (e : EnumDesc) : Prop where
  name : e.name = s.name
  attrs : ExtendAttrs s.attrs ⟨e.fromFn, e.rest, e.intoRaw⟩
  repr : ∃ ts, FirstParen .repr s.attrs ts ∧ (ts = [.word .u8] ∨ ts = [.word .u8, .punct ','])
  variants : List.Forall₂ VariantMeans s.variants e.variants

/-- `const NAME = number`, after any number of attributes. -/
inductive ConstWritten : Word × Int → List Tok → Prop
  | const (c : Word × Int) : ConstWritten c [.kw .const, .word c.1, .punct '=', .lit (.int c.2)]
  | attr {c : Word × Int} {ts : List Tok} : ConstWritten c ts → ConstWritten c (.attr :: ts)

/-- Constants with semicolons between them and possibly after the last one. -/
inductive ConstsWritten : List (Word × Int) → List Tok → Prop
  | nil : ConstsWritten [] []
  | last {c : Word × Int} {ts : List Tok} : ConstWritten c ts → ConstsWritten [c] ts
  | cons {c : Word × Int} {ts ts' : List Tok} {cs : List (Word × Int)} : ConstWritten c ts →
    ConstsWritten cs ts' → ConstsWritten (c :: cs) (ts ++ .punct ';' :: ts')

/-- The declaration of flags gives this description and these attributes. -/
structure FlagsMeans (s : FlagsDecl) (d : FlagsDesc) (fromFn : Option FromFn) (rest : Option Rest) :
    Prop where
  attrs : ExtendAttrs s.attrs ⟨fromFn, rest, d.intoRaw⟩
  from_ : d.from_ = true ↔ fromFn = some .from
  body : ∃ docs vis name w cs ts, (w, d.nbits) ∈ [(Word.u8, 8), (.u16, 16), (.u32, 32)] ∧
    (vis = [] ∨ vis = [.kw .pub]) ∧ d.name = Word.text name ∧ ConstsWritten cs ts ∧
    s.tokens = List.replicate docs .attr ++ vis ++
      [.kw .struct, .word name, .punct ':', .word w, .punct '{'] ++ ts ++ [.punct '}'] ∧
    List.Forall₂ (fun (c : Word × Int) (d : String × Nat) => d.1 = c.1.text ∧ c.2 = d.2 ∧ d.2 < 2 ^ 64)
      cs d.consts

/-- The list of packets: `enum Name { _ = Unknown, First, Second, }` -/
def RecvMeans (toks : List Tok) (r : RecvPackets) : Prop :=
  ∃ name unknown ids ts, r = ⟨Word.text name, Word.text unknown, ids.map Word.text⟩ ∧
    Listed (.punct ',') (fun w => [.word w]) ids ts ∧
    toks = [.kw .enum, .word name, .punct '{', .punct '_', .punct '=', .word unknown, .punct ','] ++
      ts ++ [.punct '}']

end Ublox.Spec
