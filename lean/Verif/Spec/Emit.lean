import Verif.Model.Quote
import Verif.Model.Tokens

/-!
# The tokens of generated code

The code of the model (`Model/Rust.lean`, `Model/Codegen.lean`) as tokens, independent of the text that the model
prints.  A name of the model is a text; where it is a path it is taken apart at `:`, `<` and `>`.
-/

namespace Ublox.Emit

open Code (Tk Name)
open Quote (joinToks wordsToks tyToks fnToks scaleTok)
open Rust
open Syn (Ty PackField)

/-! ## Names -/

/-- `:`, `<`, `>` -/
def sign (c : Nat) : Bool := c == 58 || c == 60 || c == 62

/-- The token of the characters so far, which are in reverse -/
def flush : List Nat → List Tk
  | [] => []
  | acc => [.id acc.reverse]

/-- The tokens of a path; `acc` are the characters of the current name, in reverse. -/
def splitPath : List Nat → List Nat → List Tk
  | acc, [] => flush acc
  | acc, c :: cs => if sign c then flush acc ++ .p c :: splitPath [] cs else splitPath (c :: acc) cs

/-- The tokens of a path -/
def path (s : String) : List Tk := splitPath [] (Src.codes s)

/-- A name is not empty, has none of the characters of paths, and is not the number of a field. -/
def IsName (s : String) : Prop :=
  Src.codes s ≠ [] ∧ (Src.codes s).all (fun c => !sign c) = true ∧ Src.codes s ≠ [48]

instance (s : String) : Decidable (IsName s) := inferInstanceAs (Decidable (_ ∧ _ ∧ _))

/-- The token of a name -/
def ident (s : String) : List Tk := [.id (Src.codes s)]

/-! ## Expressions and statements -/

/-- A variable -/
def varToks : Var → List Tk
  | .self_ => t!"self" | .val => t!"val" | .payload => t!"payload" | .got => t!"got" | .expect => t!"expect"
  | .min => t!"min" | .offset => t!"offset" | .ret => t!"ret" | .bytes => t!"bytes"
  | .packLenBytes => t!"pack_len_bytes" | .lenBytes => t!"len_bytes" | .header => t!"header"
  | .checksumCalc => t!"checksum_calc" | .ckA => t!"ck_a" | .ckB => t!"ck_b" | .out => t!"out" | .vec => t!"vec"
  | .b_ => t!"b" | .f_ => t!"f" | .x_ => t!"x" | .a_ => t!"a" | .state => t!"state" | .serializer => t!"serializer"
  | .class_ => t!"class" | .msgId => t!"msg_id" | .msg => t!"msg" | .pack => t!"pack"

/-- The type of a number -/
def intTyName : IntTy → Name
  | .u8 => i!"u8" | .u16 => i!"u16" | .u32 => i!"u32" | .usize => i!"usize"

/-- The type of a number -/
def intTyToks : IntTy → List Tk
  | .u8 => t!"u8" | .u16 => t!"u16" | .u32 => t!"u32" | .usize => t!"usize"

/-- An operator -/
def binOpToks : BinOp → List Tk
  | .add => t!"+" | .sub => t!"-" | .mul => t!"*" | .shl => t!"<<" | .eq => t!"==" | .ge => t!">=" | .lt => t!"<"

/-- A function -/
def funcToks : Func → List Tk
  | .ubxChecksum => t!"ubx_checksum" | .calcDefault => t!"UbxChecksumCalc::default"
  | .once => t!"core::iter::once" | .vecNew => t!"Vec::new" | .user p => path p

/-- A method -/
def methToks : Meth → List Tk
  | .len => t!"len" | .toLeBytes => t!"to_le_bytes" | .iter => t!"iter" | .isOk => t!"is_ok"
  | .write => t!"write" | .reserveAllocate => t!"reserve_allocate" | .update => t!"update"
  | .result => t!"result" | .extend => t!"extend" | .debugStruct => t!"debug_struct" | .field => t!"field"
  | .finish => t!"finish" | .serializeMap => t!"serialize_map" | .serializeEntry => t!"serialize_entry"
  | .end_ => t!"end" | .serializeNum ty => ident ("serialize_" ++ ty) | .user n => path n

/-- A pattern -/
def patToks : Pat → List Tk
  | .nums ns => joinToks t!"|" (ns.map fun n => [.tnum n i!"u8"])
  | .wild => t!"_"
  | .consts a b => t!"(" ++ path a ++ t!"," ++ path b ++ t!")"
  | .ctor p none => path p ++ t!"(_)"
  | .ctor p (some x) => path p ++ t!"(ref" ++ varToks x ++ t!")"

/-- The last field of this structure is followed by a comma. -/
def trailing (p : String) : List Tk := if p = "crate::ubx_packets::PacketSerializer" then t!"," else []

/-- The end of `let min = n;` -/
def minEnd : Var → Expr → List Tk
  | .min, .lit _ _ => t!";"
  | _, _ => []

mutual
/-- The tokens of an expression -/
def exprToks : Expr → List Tk
  | .var x => varToks x
  | .int n => [.num n]
  | .lit n ty => [.tnum n (intTyName ty)]
  | .float q => [scaleTok q]
  | .str s => [.str (Src.codes s)]
  | .stringify s => t!"stringify!(" ++ ident s ++ t!")"
  | .const p => path p
  | .unit => t!"()"
  | .none => t!"None"
  | .field e n => exprToks e ++ t!"." ++ (if n = "0" then t!"0" else ident n)
  | .index e i => exprToks e ++ t!"[" ++ exprToks i ++ t!"]"
  | .slice e r => t!"&" ++ exprToks e ++ t!"[" ++ exprToks r ++ t!"]"
  | .rangeFrom lo => exprToks lo ++ t!".."
  | .range lo hi => exprToks lo ++ t!".." ++ exprToks hi
  | .array es => t!"[" ++ exprsToks es ++ t!"]"
  | .zeros n => t!"[0u8;" ++ exprToks n ++ t!"]"
  | .pair a b => t!"(" ++ exprToks a ++ t!"," ++ exprToks b ++ t!")"
  | .paren e => t!"(" ++ exprToks e ++ t!")"
  | .ref e => t!"&" ++ exprToks e
  | .some e => t!"Some(" ++ exprToks e ++ t!")"
  | .ok e => t!"Ok(" ++ exprToks e ++ t!")"
  | .err e => t!"Err(" ++ exprToks e ++ t!")"
  | .ctor p e => path p ++ t!"(" ++ exprToks e ++ t!")"
  | .struct p fs => path p ++ t!"{" ++ fieldsToks fs ++ trailing p ++ t!"}"
  | .fn f e => fnToks f ++ t!"(" ++ exprToks e ++ t!")"
  | .fromLeBytes ty e => t!"<" ++ tyToks ty ++ t!">::from_le_bytes(" ++ exprToks e ++ t!")"
  | .call f as => funcToks f ++ t!"(" ++ exprsToks as ++ t!")"
  | .meth e m as => exprToks e ++ t!"." ++ methToks m ++ t!"(" ++ exprsToks as ++ t!")"
  | .callMut e n amp x =>
    exprToks e ++ t!"." ++ ident n ++ t!"(" ++ (if amp then t!"&mut" else []) ++ varToks x ++ t!")"
  | .bin op a b => exprToks a ++ binOpToks op ++ exprToks b
  | .not e => t!"!" ++ exprToks e
  | .cast e ty => exprToks e ++ t!"as" ++ intTyToks ty
  | .deref e => t!"*" ++ exprToks e
  | .try_ e => exprToks e ++ t!"?"
  | .unreachable => t!"unreachable!()"
  | .ite c t [] => t!"if" ++ exprToks c ++ t!"{" ++ stmtsToks t ++ t!"}"
  | .ite c t e => t!"if" ++ exprToks c ++ t!"{" ++ stmtsToks t ++ t!"} else {" ++ stmtsToks e ++ t!"}"
  | .block ss => t!"{" ++ stmtsToks ss ++ t!"}"
  | .match_ e arms => t!"match" ++ exprToks e ++ t!"{" ++ armsToks arms ++ t!"}"
/-- Expressions with commas between them -/
def exprsToks : List Expr → List Tk
  | [] => []
  | [e] => exprToks e
  | e :: f :: es => exprToks e ++ t!"," ++ exprsToks (f :: es)
/-- Fields of a structure -/
def fieldsToks : List (String × Expr) → List Tk
  | [] => []
  | [(n, e)] => fieldToks n e
  | (n, e) :: f :: fs => fieldToks n e ++ t!"," ++ fieldsToks (f :: fs)
/-- A field of a structure; a variable of the same name is written once. -/
def fieldToks (n : String) : Expr → List Tk
  | .var x => if x.text = n then varToks x else ident n ++ t!":" ++ varToks x
  | e => ident n ++ t!":" ++ exprToks e
/-- A statement without the semicolon at its end, which loops do not have; one with a type has its own, and so has
the number that is the smallest length. -/
def stmtToks : Stmt → List Tk
  | .let_ m x ty e => t!"let" ++ (if m then t!"mut" else []) ++ varToks x ++ (if ty = "" then [] else t!": &[u8]") ++
      t!"=" ++ exprToks e ++ (if ty = "" then [] else t!";") ++ minEnd x e
  | .letPair x y e => t!"let (" ++ varToks x ++ t!"," ++ varToks y ++ t!") =" ++ exprToks e
  | .expr e => exprToks e
  | .tail e => exprToks e
  | .setIndex x i e => varToks x ++ t!"[" ++ exprToks i ++ t!"] =" ++ exprToks e
  | .addAssign x e => varToks x ++ t!"+=" ++ exprToks e
  | .forIn x e body => t!"for" ++ varToks x ++ t!"in" ++ exprToks e ++ t!"{" ++ stmtsToks body ++ t!"}"
  | .return_ e => t!"return" ++ exprToks e
/-- The statements of a block -/
def stmtsToks : List Stmt → List Tk
  | [] => []
  | s :: ss => stmtToks s ++ stmtEnd s ++ stmtsToks ss
/-- The end of a statement -/
def stmtEnd : Stmt → List Tk
  | .expr (.ite ..) => []
  | .tail _ => []
  | .forIn .. => []
  | _ => t!";"
/-- Arms of `match`, each with a comma at its end unless it has a condition -/
def armsToks : List Arm → List Tk
  | [] => []
  | .plain p e :: arms => patToks p ++ t!"=>" ++ exprToks e ++ t!"," ++ armsToks arms
  | .guarded p g e :: arms =>
    patToks p ++ t!"if" ++ exprToks g ++ t!"=>" ++ exprToks e ++ armsToks arms
end

/-- Statements that are separated by semicolons, with one at the end -/
def linesToks (ss : List Stmt) : List Tk := joinToks t!";" (ss.map stmtToks) ++ t!";"

/-- The body of a function -/
def bodyToks (f : FnDecl) : List Tk := t!"{" ++ stmtsToks f.body ++ t!"}"

/-! ## Packets -/

/-- Documentation -/
def docToks (cs : List Nat) : List Tk := t!"#[doc =" ++ [.str cs] ++ t!"]"

/-- The constants of a packet -/
def typesToks (doc : List Nat) (d : Syn.PackDesc) : List Tk :=
  docToks doc ++ t!"pub struct" ++ ident d.name ++ t!"; impl UbxPacketMeta for" ++ ident d.name ++ t!"{" ++
    (List.zipWith (fun head c => head ++ t!"=" ++ exprToks c.value ++ t!";")
      [t!"const CLASS: u8", t!"const ID: u8", t!"const FIXED_PAYLOAD_LEN: Option<u16>",
       t!"const MAX_PAYLOAD_LEN: u16"] (generateTypes d)).flatten ++ t!"}"

/-- `impl Debug` -/
def debugToks (d : Syn.PackDesc) : List Tk :=
  t!"impl core::fmt::Debug for" ++ ident (d.name ++ "Ref") ++
    t!"<'_> { fn fmt(&self, f: &mut core::fmt::Formatter<'_>) -> core::fmt::Result" ++ bodyToks (debugCode d) ++ t!"}"

/-- The head of every `serialize` -/
def serializeHead : List Tk :=
  t!"fn serialize<S>(&self, serializer: S) -> Result<S::Ok, S::Error> where S: serde::Serializer,"

/-- `impl SerializeUbxPacketFields` and `impl Serialize` -/
def serializeToks (d : Syn.PackDesc) : List Tk :=
  t!"#[cfg(feature = \"serde\")] impl SerializeUbxPacketFields for" ++ ident (d.name ++ "Ref") ++
    t!"<'_> { fn serialize_fields<S>(&self, state: &mut S) -> Result<(), S::Error> where S: serde::ser::SerializeMap," ++
    bodyToks (serializeFieldsCode d) ++
    t!"} #[cfg(feature = \"serde\")] impl serde::Serialize for" ++ ident (d.name ++ "Ref") ++ t!"<'_> {" ++
    serializeHead ++ bodyToks serializeCode ++ t!"}"

/-- The head of a getter -/
def getterHead (doc : List Nat) (name : String) (ty : List Tk) : List Tk :=
  docToks doc ++ t!"#[inline] pub fn" ++ ident name ++ t!"(&self) ->" ++ ty

/-- The heads of the getters of a field -/
def fieldHeads (doc : List Nat) (f : PackField) : List (List Tk) :=
  (if f.sizeBytes.isSome && f.map.mapType.isSome then
    [getterHead doc (f.intermediateFieldName ++ "_raw") (if f.isFieldRawTyByteArray then t!"&[u8]" else tyToks f.ty)]
  else []) ++
  [getterHead doc f.intermediateFieldName
    (match f.map.mapType with
    | some m => tyToks m.ty
    | none => if f.sizeBytes.isSome then tyToks f.ty else t!"&[u8]")]

/-- Methods with these heads -/
def methodsToks (heads : List (List Tk)) (fs : List FnDecl) : List Tk :=
  (List.zipWith (fun h f => h ++ bodyToks f) heads fs).flatten

/-- The heads of the methods for a packet that is received -/
def recvHeads (docs : PackField → List Nat) (d : Syn.PackDesc) : List (List Tk) :=
  [t!"#[inline] pub fn as_bytes(&self) -> &[u8]"] ++ d.fields.flatMap (fun f => fieldHeads (docs f) f) ++
    [t!"fn validate(payload: &[u8]) -> Result<(), ParserError>"]

/-- The code for a packet that is received -/
def recvToks (doc : List Nat) (docs : PackField → List Nat) (d : Syn.PackDesc) (c : RecvCode) : List Tk :=
  docToks doc ++
    t!"#[doc = \"Contains a reference to an underlying buffer, contains accessor methods to retrieve data.\"] pub struct" ++
    ident (d.name ++ "Ref") ++ t!"<'a>(&'a [u8]); impl<'a>" ++ ident (d.name ++ "Ref") ++ t!"<'a> {" ++
    methodsToks (recvHeads docs d) c.methods ++ t!"}" ++ debugToks d ++ serializeToks d

/-- The body of a function whose statements between the first `a` and the last `b` are separated by semicolons -/
def framedToks (a b : Nat) (f : FnDecl) : List Tk :=
  t!"{" ++ stmtsToks (f.body.take a) ++ linesToks ((f.body.take (f.body.length - b)).drop a) ++
    stmtsToks (f.body.drop (f.body.length - b)) ++ t!"}"

/-- The fields of a builder -/
def builderFields (docs : PackField → List Nat) (fs : List PackField) (ps : List (String × Ty)) : List (List Tk) :=
  List.zipWith (fun f p => docToks (docs f) ++ t!"pub" ++ ident p.1 ++ t!":" ++ tyToks p.2) fs ps

/-- The methods of a builder for a packet of fixed length -/
def fixedToks (builder life : List Tk) (n : Nat) (into from_ create : FnDecl) : List Tk :=
  t!"impl" ++ life ++ builder ++ life ++ t!"{ pub const PACKET_LEN: usize =" ++ [.tnum n i!"usize"] ++
    t!"; #[inline] pub fn into_packet_bytes(self) -> [u8; Self::PACKET_LEN]" ++ framedToks 8 4 into ++
    t!"} impl From<" ++ builder ++ t!"> for [u8;" ++ [.tnum n i!"usize"] ++ t!"] { fn from(x:" ++ builder ++
    t!") -> Self" ++ bodyToks from_ ++ t!"} impl UbxPacketCreator for" ++ builder ++
    t!"{ #[inline] fn create_packet<T: MemWriter>(self, out: &mut T) -> Result<(), MemWriterError<T::Error>>" ++
    framedToks 6 3 create ++ t!"}"

/-- The methods of a builder for a packet of any length -/
def dynamicToks (builder life : List Tk) (into extend : FnDecl) : List Tk :=
  t!"impl" ++ life ++ builder ++ life ++
    t!"{ #[cfg(feature = \"alloc\")] #[inline] pub fn into_packet_vec(self) -> Vec<u8>" ++ bodyToks into ++
    t!"#[inline] pub fn extend_to<T>(self, out: &mut T) where T: core::iter::Extend<u8> + core::ops::DerefMut<Target = [u8]>" ++
    framedToks 3 6 extend ++ t!"}"

/-- The methods of a builder -/
def builderToks (builder life : List Tk) : BuilderBody → List Tk
  | .fixed n into from_ create => fixedToks builder life n into from_ create
  | .dynamic into extend => dynamicToks builder life into extend

/-- The lifetime of a builder with a reference -/
def lifeToks (c : SendCode) : List Tk := if c.needsLifetime then t!"<'a>" else []

/-- The code for sending a packet -/
def sendToks (doc : List Nat) (docs : PackField → List Nat) (d : Syn.PackDesc) (c : SendCode) : List Tk :=
  docToks doc ++
    t!"#[doc = \"Struct that is used to construct packets, see the crate-level documentation for more information\"]" ++
    (if c.default then t!"#[derive(Default)]" else []) ++ t!"pub struct" ++ ident (d.name ++ "Builder") ++ lifeToks c ++
    t!"{" ++ joinToks t!"," (builderFields docs d.fields c.fields) ++ t!"}" ++
    builderToks (ident (d.name ++ "Builder")) (lifeToks c) c.body

/-- The names of a packet are names, and the parts of the paths of its functions are. -/
def NamesOk (d : Syn.PackDesc) : Prop :=
  IsName d.name ∧ ∀ f ∈ d.fields, IsName f.intermediateFieldName ∧ ∀ p ∈ f.sizeFn.toList, ∀ w ∈ p, IsName w.text

instance (d : Syn.PackDesc) : Decidable (NamesOk d) := by unfold NamesOk; infer_instance

/-! ## The list of packets -/

/-- A variant of the enumeration of packets -/
def variantToks (n : String) : List Tk := ident n ++ t!"(" ++ ident (n ++ "Ref") ++ t!"<'a>)"

/-- The code for the list of packets -/
def parseToks (c : ParseCode) : List Tk :=
  t!"#[doc = \"All possible packets enum\"] #[derive(Debug)] pub enum" ++ ident c.unionName ++ t!"<'a> {" ++
    joinToks t!"," (c.packets.map variantToks) ++ t!", Unknown(" ++ ident c.unknownTy ++ t!"<'a>) } impl<'a>" ++
    ident c.unionName ++ t!"<'a> { pub fn class_and_msg_id(&self) -> (u8, u8)" ++ bodyToks c.classAndMsgId ++
    t!"} pub(crate) fn match_packet(class: u8, msg_id: u8, payload: &[u8]) -> Result<" ++ ident c.unionName ++
    t!", ParserError>" ++ bodyToks c.matchPacket ++ t!"const fn max_u16(a: u16, b: u16) -> u16" ++ bodyToks c.maxU16 ++
    t!"pub(crate) const MAX_PAYLOAD_LEN: u16 =" ++ exprToks c.maxPayloadLen.value ++
    t!"; #[cfg(feature = \"serde\")] pub struct PacketSerializer<'a, T> { class: u8, msg_id: u8, msg: &'a T, }" ++
    t!"#[cfg(feature = \"serde\")] impl<'a, T: SerializeUbxPacketFields> serde::Serialize for PacketSerializer<'a, T> {" ++
    serializeHead ++ bodyToks c.serializePacket ++ t!"} #[cfg(feature = \"serde\")] impl serde::Serialize for" ++
    ident c.unionName ++ t!"<'a> {" ++ serializeHead ++ bodyToks c.serializeUnion ++ t!"}"

/-- The names of a list of packets are names, and there are some. -/
def ListOk (r : Syn.RecvPackets) : Prop :=
  IsName r.unionEnumName ∧ IsName r.unknownTy ∧ r.allPackets ≠ [] ∧ ∀ n ∈ r.allPackets, IsName n

instance (r : Syn.RecvPackets) : Decidable (ListOk r) := by unfold ListOk; infer_instance

/-! ## Enumerations -/

/-- An arm without its comma -/
def armToks : Arm → List Tk
  | .plain p e => patToks p ++ t!"=>" ++ exprToks e
  | .guarded p g e => patToks p ++ t!"if" ++ exprToks g ++ t!"=>" ++ exprToks e

/-- A function of one `match`, with no comma after its last arm -/
def matchToks (f : FnDecl) : List Tk :=
  match f.body with
  | [.tail (.match_ e as)] => t!"{ match" ++ exprToks e ++ t!"{" ++ joinToks t!"," (as.map armToks) ++ t!"} }"
  | _ => []

/-- The functions that make an enumeration from a number -/
def enumFromToks (c : EnumCode) : List Tk :=
  match c.from_, c.fromUnchecked, c.isValid with
  | some f, none, none => t!"impl" ++ ident c.name ++ t!"{ fn from(x: u8) -> Self" ++ matchToks f ++ t!"}"
  | none, some f, some g =>
    t!"impl" ++ ident c.name ++ t!"{ fn from_unchecked(x: u8) -> Self" ++ bodyToks f ++ t!"fn is_valid(x: u8) -> bool" ++
      bodyToks g ++ t!"}"
  | _, _, _ => []

/-- The function that makes a number of an enumeration -/
def enumIntoToks (c : EnumCode) : List Tk :=
  match c.intoRaw with
  | some f => t!"impl" ++ ident c.name ++ t!"{ const fn into_raw(self) -> u8" ++ bodyToks f ++ t!"}"
  | none => []

/-- The code for an enumeration -/
def enumToks (attrs : List (List Tk)) (c : EnumCode) : List Tk :=
  attrs.flatten ++ t!"pub enum" ++ ident c.name ++ t!"{" ++
    joinToks t!"," (c.variants.map fun v => ident v.1 ++ t!"=" ++ [.tnum v.2 i!"u8"]) ++ t!"}" ++ enumFromToks c ++
    enumIntoToks c ++ t!"#[cfg(feature = \"serde\")] impl serde::Serialize for" ++ ident c.name ++ t!"{" ++ serializeHead ++
    bodyToks c.serialize ++ t!"}"

/-- The names of an enumeration are names, and it has variants. -/
def EnumOk (e : EnumDesc) : Prop := IsName e.name ∧ e.variants ≠ [] ∧ ∀ v ∈ e.variants, IsName v.1

instance (e : EnumDesc) : Decidable (EnumOk e) := by unfold EnumOk; infer_instance

/-! ## Flags -/

/-- The attributes of the constant for a bit, if one is declared for it -/
def bitAttrs (constAttrs : String → List (List Tk)) (d : FlagsDesc) (bit : Nat) : List (List Tk) :=
  match d.consts.find? fun c => c.2 == 2 ^ bit with
  | some c => constAttrs c.1
  | none => []

/-- A constant of flags -/
def flagToks (constAttrs : String → List (List Tk)) (d : FlagsDesc) (bit : Nat) (it : String × Expr) : List Tk :=
  (bitAttrs constAttrs d bit).flatten ++ t!"const" ++ ident it.1 ++ t!"=" ++ exprToks it.2

/-- The function that makes flags from a number -/
def flagsFromToks (c : FlagsCode) : List Tk :=
  match c.from_ with
  | some f => t!"impl" ++ ident c.name ++ t!"{ const fn from(x:" ++ intTyToks c.repr ++ t!") -> Self" ++ bodyToks f ++ t!"}"
  | none => []

/-- The function that makes a number of flags -/
def flagsIntoToks (c : FlagsCode) : List Tk :=
  match c.intoRaw with
  | some f => t!"impl" ++ ident c.name ++ t!"{ const fn into_raw(self) ->" ++ intTyToks c.repr ++ bodyToks f ++ t!"}"
  | none => []

/-- The code for flags -/
def flagsToks (attrs : List (List Tk)) (vis : List Tk) (constAttrs : String → List (List Tk)) (d : FlagsDesc)
    (c : FlagsCode) : List Tk :=
  t!"bitflags! {" ++ attrs.flatten ++ vis ++ t!"struct" ++ ident c.name ++ t!":" ++ intTyToks c.repr ++ t!"{" ++
    joinToks t!";" (c.items.zipIdx.map fun p => flagToks constAttrs d p.2 p.1) ++ t!"; } }" ++ flagsFromToks c ++
    flagsIntoToks c ++ t!"#[cfg(feature = \"serde\")] impl serde::Serialize for" ++ ident c.name ++ t!"{" ++ serializeHead ++
    bodyToks c.serialize ++ t!"}"

end Ublox.Emit
