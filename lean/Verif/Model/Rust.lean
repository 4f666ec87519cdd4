import Verif.Model.Input

/-!
# The Rust that the macros generate

The functions of `ublox_derive/src/output.rs` return Rust code.  This file has the expressions and
statements that occur in that code, their text, and their meaning.  None of it is code of `/repo`: the
meaning is that of the Rust language, restricted to what the generated code uses.  There is no type
checker: what the Rust compiler would reject has no value (`Panic.illTyped`).  References are not
distinguished from what they refer to, and a method may change the variable that it is called on.
-/

namespace Ublox.Rust
open Syn (Ty Fn Word)

/-! ## Syntax -/

/-- The local variables and parameters of the generated code. -/
inductive Var where
  | self_ | val | payload | got | expect | min | offset | ret | bytes | packLenBytes | lenBytes
  | header | checksumCalc | ckA | ckB | out | vec | b_ | f_ | x_ | a_ | state | serializer | class_ | msgId
  | msg | pack
  deriving DecidableEq, Repr

/-- The name of a variable. -/
def Var.text : Var → String
  | .self_ => "self" | .val => "val" | .payload => "payload" | .got => "got" | .expect => "expect"
  | .min => "min" | .offset => "offset" | .ret => "ret" | .bytes => "bytes"
  | .packLenBytes => "pack_len_bytes" | .lenBytes => "len_bytes" | .header => "header"
  | .checksumCalc => "checksum_calc" | .ckA => "ck_a" | .ckB => "ck_b" | .out => "out" | .vec => "vec"
  | .b_ => "b" | .f_ => "f" | .x_ => "x" | .a_ => "a" | .state => "state" | .serializer => "serializer"
  | .class_ => "class" | .msgId => "msg_id" | .msg => "msg" | .pack => "pack"

/-- The suffix of an integer literal. -/
inductive IntTy where
  | u8 | u16 | u32 | usize
  deriving DecidableEq, Repr

/-- The name of an integer type. -/
def IntTy.text : IntTy → String
  | .u8 => "u8" | .u16 => "u16" | .u32 => "u32" | .usize => "usize"

/-- Binary operators. -/
inductive BinOp where
  | add | sub | mul | shl | eq | ge | lt
  deriving DecidableEq, Repr

/-- The text of an operator. -/
def BinOp.text : BinOp → String
  | .add => "+" | .sub => "-" | .mul => "*" | .shl => "<<" | .eq => "==" | .ge => ">=" | .lt => "<"

/-- Functions: those of the crate and of the standard library that the code generators name, and
generated ones. -/
inductive Func where
  | ubxChecksum | calcDefault | once | vecNew
  | user (path : String)
  deriving DecidableEq, Repr

/-- The path of a function. -/
def Func.text : Func → String
  | .ubxChecksum => "ubx_checksum" | .calcDefault => "UbxChecksumCalc::default"
  | .once => "core::iter::once" | .vecNew => "Vec::new" | .user p => p

/-- Methods: those of the crate and of libraries that the code generators name, and generated ones. -/
inductive Meth where
  | len | toLeBytes | iter | isOk | write | reserveAllocate | update | result | extend
  | debugStruct | field | finish | serializeMap | serializeEntry | end_ | serializeNum (ty : String)
  | user (name : String)
  deriving DecidableEq, Repr

/-- The name of a method. -/
def Meth.text : Meth → String
  | .len => "len" | .toLeBytes => "to_le_bytes" | .iter => "iter" | .isOk => "is_ok"
  | .write => "write" | .reserveAllocate => "reserve_allocate" | .update => "update"
  | .result => "result" | .extend => "extend" | .debugStruct => "debug_struct" | .field => "field"
  | .finish => "finish" | .serializeMap => "serialize_map" | .serializeEntry => "serialize_entry"
  | .end_ => "end" | .serializeNum ty => "serialize_" ++ ty | .user n => n

/-- Patterns of `match`. -/
inductive Pat where
  /-- `1u8 | 2u8 | ..` -/
  | nums (ns : List Nat)
  | wild
  /-- `(A::CLASS, A::ID)` -/
  | consts (a b : String)
  /-- `Enum::Variant(_)`, `Enum::Variant(ref x)` -/
  | ctor (path : String) (bind : Option Var)
  deriving DecidableEq, Repr

mutual
/-- Expressions. -/
inductive Expr where
  | var (x : Var)
  /-- an integer without suffix -/
  | int (n : Nat)
  | lit (n : Nat) (ty : IntTy)
  | float (q : Rat)
  | str (s : String)
  | stringify (s : String)
  | const (path : String)
  | unit
  | none
  | field (e : Expr) (name : String)
  /-- `e[i]` -/
  | index (e i : Expr)
  /-- `&e[r]` -/
  | slice (e r : Expr)
  | rangeFrom (lo : Expr)
  | range (lo hi : Expr)
  | array (es : List Expr)
  /-- `[0u8; n]` -/
  | zeros (n : Expr)
  | pair (a b : Expr)
  | paren (e : Expr)
  | ref (e : Expr)
  | some (e : Expr)
  | ok (e : Expr)
  | err (e : Expr)
  /-- a tuple structure or variant -/
  | ctor (path : String) (e : Expr)
  | struct (path : String) (fields : List (String × Expr))
  /-- a function that the declaration names -/
  | fn (f : Fn) (e : Expr)
  | fromLeBytes (ty : Ty) (e : Expr)
  | call (f : Func) (args : List Expr)
  | meth (e : Expr) (m : Meth) (args : List Expr)
  /-- a method that changes its argument: `e.name(&mut x)`, or `e.name(x)` if `x` is a reference -/
  | callMut (e : Expr) (name : String) (amp : Bool) (x : Var)
  | bin (op : BinOp) (a b : Expr)
  | not (e : Expr)
  | cast (e : Expr) (ty : IntTy)
  | deref (e : Expr)
  | try_ (e : Expr)
  | unreachable
  | ite (c : Expr) (t e : List Stmt)
  | block (ss : List Stmt)
  | match_ (e : Expr) (arms : List Arm)
/-- Statements. -/
inductive Stmt where
  | let_ (isMut : Bool) (x : Var) (ty : String) (e : Expr)
  | letPair (x y : Var) (e : Expr)
  | expr (e : Expr)
  /-- the value of the block -/
  | tail (e : Expr)
  | setIndex (x : Var) (i e : Expr)
  | addAssign (x : Var) (e : Expr)
  | forIn (x : Var) (e : Expr) (body : List Stmt)
  | return_ (e : Expr)
/-- Arms of `match`. -/
inductive Arm where
  | plain (p : Pat) (e : Expr)
  | guarded (p : Pat) (g e : Expr)
end

/-- A function, a method or a constant. -/
structure FnDecl where
  attrs : String := ""
  /-- everything from the visibility to the opening brace -/
  head : String
  name : String
  params : List Var
  body : List Stmt

/-- A constant. -/
structure ConstDecl where
  /-- everything before `=` -/
  head : String
  name : String
  value : Expr

/-! ## Text -/

/-- A path. -/
def pathText (p : List Word) : String := "::".intercalate (p.map Word.text)

/-- The text of a type. -/
def tyText : Ty → String
  | .path p => pathText p
  | .generic p t => pathText p ++ "<" ++ tyText t ++ ">"
  | .ref t => "&" ++ tyText t
  | .slice t => "[" ++ tyText t ++ "]"
  | .array t (.int n) => "[" ++ tyText t ++ "; " ++ toString n ++ "]"
  | .array t _ => "[" ++ tyText t ++ "; _]"
  | .other => "_"

/-- A scale: a power of ten or a fraction.  (The literal of the declaration is used in the code; the
model has only its value.) -/
def floatText (q : Rat) : String :=
  match (List.range 20).find? fun k => q * (10 : Rat) ^ k = 1 with
  | some k => "1e-" ++ toString k
  | none => toString q

/-- The text of a function that the declaration names (`ublox_derive/src/types.rs:105-134`). -/
def fnText : Fn → String
  | .custom p => pathText p
  | .method ty name => "<" ++ tyText ty ++ ">::" ++ name.text
  | .scaleBack ty q raw =>
    "ScaleBack::<" ++ tyText ty ++ ">(1. / " ++ floatText q ++ ").as_" ++ tyText raw

/-- The text of a pattern. -/
def Pat.text : Pat → String
  | .nums ns => " | ".intercalate (ns.map fun n => toString n ++ "u8")
  | .wild => "_"
  | .consts a b => "(" ++ a ++ ", " ++ b ++ ")"
  | .ctor p none => p ++ "(_)"
  | .ctor p (some x) => p ++ "(ref " ++ x.text ++ ")"

mutual
/-- The text of an expression. -/
def Expr.text : Expr → String
  | .var x => x.text
  | .int n => toString n
  | .lit n ty => toString n ++ ty.text
  | .float q => floatText q
  | .str s => "\"" ++ s ++ "\""
  | .stringify s => "stringify!(" ++ s ++ ")"
  | .const p => p
  | .unit => "()"
  | .none => "None"
  | .field e n => e.text ++ "." ++ n
  | .index e i => e.text ++ "[" ++ i.text ++ "]"
  | .slice e r => "&" ++ e.text ++ "[" ++ r.text ++ "]"
  | .rangeFrom lo => lo.text ++ ".."
  | .range lo hi => lo.text ++ ".." ++ hi.text
  | .array es => "[" ++ exprsText es ++ "]"
  | .zeros n => "[0u8; " ++ n.text ++ "]"
  | .pair a b => "(" ++ a.text ++ ", " ++ b.text ++ ")"
  | .paren e => "(" ++ e.text ++ ")"
  | .ref e => "&" ++ e.text
  | .some e => "Some(" ++ e.text ++ ")"
  | .ok e => "Ok(" ++ e.text ++ ")"
  | .err e => "Err(" ++ e.text ++ ")"
  | .ctor p e => p ++ "(" ++ e.text ++ ")"
  | .struct p fs => p ++ " {" ++ fieldsText fs ++ "}"
  | .fn f e => fnText f ++ "(" ++ e.text ++ ")"
  | .fromLeBytes ty e => "<" ++ tyText ty ++ ">::from_le_bytes(" ++ e.text ++ ")"
  | .call f as => f.text ++ "(" ++ exprsText as ++ ")"
  | .meth e m as => e.text ++ "." ++ m.text ++ "(" ++ exprsText as ++ ")"
  | .callMut e n amp x => e.text ++ "." ++ n ++ "(" ++ (if amp then "&mut " else "") ++ x.text ++ ")"
  | .bin op a b => a.text ++ " " ++ op.text ++ " " ++ b.text
  | .not e => "!" ++ e.text
  | .cast e ty => e.text ++ " as " ++ ty.text
  | .deref e => "*" ++ e.text
  | .try_ e => e.text ++ "?"
  | .unreachable => "unreachable!()"
  | .ite c t [] => "if " ++ c.text ++ " {" ++ stmtsText t ++ "}"
  | .ite c t e => "if " ++ c.text ++ " {" ++ stmtsText t ++ "} else {" ++ stmtsText e ++ "}"
  | .block ss => "{" ++ stmtsText ss ++ "}"
  | .match_ e arms => "match " ++ e.text ++ " {" ++ armsText arms ++ "}"
/-- Expressions, separated by commas. -/
def exprsText : List Expr → String
  | [] => ""
  | [e] => e.text
  | e :: es => e.text ++ ", " ++ exprsText es
/-- The fields of a structure; a field that is a variable of the same name is written once. -/
def fieldsText : List (String × Expr) → String
  | [] => ""
  | (n, e) :: fs =>
    (if e.text = n then n else n ++ ": " ++ e.text) ++ ", " ++ fieldsText fs
/-- The text of a statement. -/
def Stmt.text : Stmt → String
  | .let_ m x ty e =>
    "let " ++ (if m then "mut " else "") ++ x.text ++ (if ty = "" then "" else ": " ++ ty) ++ " = " ++
      e.text ++ ";"
  | .letPair x y e => "let (" ++ x.text ++ ", " ++ y.text ++ ") = " ++ e.text ++ ";"
  | .expr (.ite c t e) => (Expr.ite c t e).text
  | .expr e => e.text ++ ";"
  | .tail e => e.text
  | .setIndex x i e => x.text ++ "[" ++ i.text ++ "] = " ++ e.text ++ ";"
  | .addAssign x e => x.text ++ " += " ++ e.text ++ ";"
  | .forIn x e body => "for " ++ x.text ++ " in " ++ e.text ++ " {" ++ stmtsText body ++ "}"
  | .return_ e => "return " ++ e.text ++ ";"
/-- The text of a block. -/
def stmtsText : List Stmt → String
  | [] => ""
  | s :: ss => s.text ++ " " ++ stmtsText ss
/-- The text of an arm. -/
def Arm.text : Arm → String
  | .plain p e => p.text ++ " => " ++ e.text ++ ", "
  | .guarded p g e => p.text ++ " if " ++ g.text ++ " => " ++ e.text ++ " "
/-- The text of the arms. -/
def armsText : List Arm → String
  | [] => ""
  | a :: as => a.text ++ armsText as
end

/-- The text of a function. -/
def FnDecl.text (f : FnDecl) : String := f.attrs ++ " " ++ f.head ++ " {" ++ stmtsText f.body ++ "}"

/-- The text of a constant. -/
def ConstDecl.text (c : ConstDecl) : String := c.head ++ " = " ++ c.value.text ++ ";"

/-! ## Meaning -/

/-- Values.  `W` is the type of a writer, `E` of its errors. -/
inductive V (W E : Type) where
  | val (v : Val)
  /-- an integer whose type depends on its use -/
  | int (n : Nat)
  | usize (n : Nat)
  | float (q : Rat)
  | bool (b : Bool)
  | unit
  | none
  | some (v : V W E)
  | str (s : String)
  | range (lo : Nat) (hi : Option Nat)
  | arr (vs : List (V W E))
  | pair (a b : V W E)
  | ok (v : V W E)
  | err (v : V W E)
  | data (path : String) (fields : List (String × V W E))
  | calc (c : ChecksumCalc)
  | writer (w : W)
  | writerError (e : E)
  | cfgVal (c : CfgVal)
  /-- what was given to a `DebugStruct` or to a `SerializeMap`, and a `Formatter` or `Serializer` before
  anything was given to it -/
  | entries (name : String) (es : List (String × V W E))

variable {W E : Type}

/-- A byte. -/
abbrev V.byte (b : UInt8) : V W E := .val (.raw (.u8 b))
/-- Bytes. -/
abbrev V.bytes (bs : Bytes) : V W E := .val (.raw (.bytes bs))

/-- The variables that are in scope, the innermost first. -/
abbrev Env (W E : Type) := List (Var × V W E)

/-- Evaluation: a panic, or a value or an early `return`, with the variables afterwards. -/
def Ev (W E α : Type) := Env W E → R (Except (V W E) α × Env W E)

/-- A value. -/
def Ev.pure {α : Type} (a : α) : Ev W E α := fun env => .ok (.ok a, env)

/-- One evaluation after another. -/
def Ev.bind {α β : Type} (m : Ev W E α) (g : α → Ev W E β) : Ev W E β := fun env =>
  match m env with
  | .error p => .error p
  | .ok (.error r, env) => .ok (.error r, env)
  | .ok (.ok a, env) => g a env

instance : Monad (Ev W E) where
  pure := Ev.pure
  bind := Ev.bind

/-- Something that may panic. -/
def Ev.lift {α : Type} (r : R α) : Ev W E α := fun env =>
  match r with
  | .error p => .error p
  | .ok a => .ok (.ok a, env)

/-- `return` -/
def Ev.ret {α : Type} (v : V W E) : Ev W E α := fun env => .ok (.error v, env)

/-- The variables that are introduced inside are not visible afterwards. -/
def Ev.scoped {α : Type} (m : Ev W E α) : Ev W E α := fun env =>
  match m env with
  | .error p => .error p
  | .ok (r, env') => .ok (r, env'.drop (env'.length - env.length))

/-- Introduce a variable. -/
def Ev.push (x : Var) (v : V W E) : Ev W E Unit := fun env => .ok (.ok (), (x, v) :: env)

/-- The innermost variable of this name. -/
def getVar (x : Var) : Env W E → Option (V W E)
  | [] => none
  | (y, v) :: env => if y = x then some v else getVar x env

/-- Change the innermost variable of this name. -/
def setVar (x : Var) (v : V W E) : Env W E → Env W E
  | [] => []
  | (y, u) :: env => if y = x then (y, v) :: env else (y, u) :: setVar x v env

/-- Read a variable. -/
def Ev.get (x : Var) : Ev W E (V W E) := fun env =>
  match getVar x env with
  | some v => .ok (.ok v, env)
  | none => .error .illTyped

/-- Write a variable. -/
def Ev.set (x : Var) (v : V W E) : Ev W E Unit := fun env => .ok (.ok (), setVar x v env)

/-- A value that is used as `u8`. -/
def V.asU8 : V W E → R UInt8
  | .val (.raw (.u8 b)) => .ok b
  | .int n => if n < 256 then .ok (UInt8.ofNat n) else .error .illTyped
  | _ => .error .illTyped

/-- A value that is used as `usize`. -/
def V.asUsize : V W E → R Nat
  | .usize n => .ok n
  | .int n => .ok n
  | _ => .error .illTyped

/-- A value that is used as a slice of bytes. -/
def V.asBytes : V W E → R Bytes
  | .val (.raw (.bytes bs)) => .ok bs
  | _ => .error .illTyped

/-- A literal with a suffix. -/
def litV (n : Nat) : IntTy → V W E
  | .u8 => .val (.raw (.u8 (UInt8.ofNat n)))
  | .u16 => .val (.raw (.u16 (UInt16.ofNat n)))
  | .u32 => .val (.raw (.u32 (UInt32.ofNat n)))
  | .usize => .usize n

/-- `e[i]` -/
def indexV (e i : V W E) : R (V W E) := do
  let i ← i.asUsize
  match e with
  | .arr vs =>
    match vs[i]? with
    | some v => return v
    | none => .error .index
  | e => return .byte (← getByte (← e.asBytes) i)

/-- `&e[r]` -/
def sliceV (e r : V W E) : R (V W E) := do
  let bs ← e.asBytes
  match r with
  | .range lo (some hi) => return .bytes (← sliceRange bs lo hi)
  | .range lo none => return .bytes (← sliceFrom bs lo)
  | _ => .error .illTyped

/-- Values that are used as bytes. -/
def bytesOf : List (V W E) → R Bytes
  | [] => .ok []
  | v :: vs => do
    let b ← v.asU8
    return b :: (← bytesOf vs)

/-- `[a, b, ..]`: of bytes, or of something else. -/
def arrayV (vs : List (V W E)) : V W E :=
  match bytesOf vs with
  | .ok bs => .bytes bs
  | .error _ => .arr vs

/-- Arithmetic, comparison; `M` is `usize::MAX`.  A literal that is an operand of `*` is a scale. -/
def binV (M : Nat) (op : BinOp) (a b : V W E) : R (V W E) :=
  match op, a, b with
  | .mul, .val v, .float q => do return .val (← mulScale v q)
  | .shl, .val (.raw (.u8 x)), .val (.raw (.u32 k)) =>
    if k.toNat < 8 then .ok (.val (.raw (.u8 (x <<< k.toUInt8)))) else .error .overflow
  | .shl, .val (.raw (.u16 x)), .val (.raw (.u32 k)) =>
    if k.toNat < 16 then .ok (.val (.raw (.u16 (x <<< k.toUInt16)))) else .error .overflow
  | .shl, .val (.raw (.u32 x)), .val (.raw (.u32 k)) =>
    if k.toNat < 32 then .ok (.val (.raw (.u32 (x <<< k)))) else .error .overflow
  | .lt, .val (.raw (.u16 x)), .val (.raw (.u16 y)) => .ok (.bool (decide (x < y)))
  | .add, a, b => do return .usize (← uadd M (← a.asUsize) (← b.asUsize))
  | .sub, a, b => do return .usize (← usub (← a.asUsize) (← b.asUsize))
  | .eq, a, b => do return .bool ((← a.asUsize) == (← b.asUsize))
  | .ge, a, b => do return .bool (decide ((← b.asUsize) ≤ (← a.asUsize)))
  | .lt, a, b => do return .bool (decide ((← a.asUsize) < (← b.asUsize)))
  | _, _, _ => .error .illTyped

/-- `e as ty` -/
def castV (v : V W E) (ty : IntTy) : R (V W E) :=
  match v, ty with
  | .int n, ty => .ok (litV n ty)
  | .bool b, .usize => .ok (.usize b.toNat)
  | .val (.enum v), .u8 => .ok (.byte (EnumDesc.intoRawVal v))
  | _, _ => .error .illTyped

/-- `<ty>::from_le_bytes(bytes)` -/
def fromLeBytesV (ty : Ty) (v : V W E) : R (V W E) := do
  let bs ← v.asBytes
  let raw : RawTy ← match ty with
    | .path [.u8] => .ok .u8
    | .path [.i8] => .ok .i8
    | .path [.u16] => .ok .u16
    | .path [.i16] => .ok .i16
    | .path [.u32] => .ok .u32
    | .path [.i32] => .ok .i32
    | .path [.f32] => .ok .f32
    | .path [.f64] => .ok .f64
    | _ => .error .illTyped
  return .val (.raw (← raw.fromLeBytes bs))

/-- What the generated code refers to. -/
structure Externs (W E : Type) where
  /-- `usize::MAX` -/
  maxUsize : Nat
  /-- the number of bytes of a `usize` after the first two -/
  usizeRest : Nat
  writer : MemWriter W E
  const : String → R (V W E)
  /-- functions that the declaration names -/
  fn : Fn → V W E → R (V W E)
  /-- functions without further meaning -/
  call : String → List (V W E) → R (V W E)
  /-- methods without arguments -/
  method : V W E → String → R (V W E)
  /-- methods that change their argument -/
  methodMut : V W E → String → V W E → R (V W E × V W E)

/-- The low bytes of a number, `n` of them. -/
def natToLe (n : Nat) : Nat → Bytes
  | 0 => []
  | k + 1 => UInt8.ofNat n :: natToLe (n / 256) k

/-- Functions. -/
def callV (x : Externs W E) (f : Func) (args : List (V W E)) : R (V W E) :=
  match f, args with
  | .ubxChecksum, [v] => do
    let (a, b) := Ublox.ubxChecksum (← v.asBytes)
    return .pair (.byte a) (.byte b)
  | .calcDefault, [] => .ok (.calc ChecksumCalc.default)
  | .once, [v] => do return .byte (← v.asU8)
  | .vecNew, [] => .ok (.bytes [])
  | .user p, args => x.call p args
  | _, _ => .error .illTyped

/-- Methods: the result, and the object afterwards. -/
def methV (x : Externs W E) (m : Meth) (v : V W E) (args : List (V W E)) : R (V W E × V W E) :=
  match m, v, args with
  | .len, v, [] => do return (.usize (← v.asBytes).length, v)
  | .toLeBytes, .usize n, [] => .ok (.bytes (natToLe n (2 + x.usizeRest)), v)
  -- `len_bytes`, to which values of type `usize` are added
  | .toLeBytes, .int n, [] => .ok (.bytes (natToLe n (2 + x.usizeRest)), v)
  | .toLeBytes, .val (.raw (.bytes _)), [] => .error .illTyped
  | .toLeBytes, .val (.raw r), [] => .ok (.bytes r.toLeBytes, v)
  | .iter, v, [] => .ok (v, v)
  | .isOk, .ok w, [] => .ok (.bool true, .ok w)
  | .isOk, .err w, [] => .ok (.bool false, .err w)
  | .write, .writer w, [b] => do
    match ← x.writer.write w (← b.asBytes) with
    | (.ok (), w) => return (.ok .unit, .writer w)
    | (.error e, w) => return (.err (.writerError e), .writer w)
  | .reserveAllocate, .writer w, [n] => do
    match ← x.writer.reserveAllocate w (← n.asUsize) with
    | (.ok (), w) => return (.ok .unit, .writer w)
    | (.error e, w) => return (.err (.writerError e), .writer w)
  | .update, .calc c, [b] => do return (.unit, .calc (c.update (← b.asBytes)))
  | .result, .calc c, [] => .ok (.pair (.byte c.result.1) (.byte c.result.2), .calc c)
  | .extend, v, [b] => do return (.unit, .bytes ((← v.asBytes) ++ [← b.asU8]))
  | .debugStruct, .entries _ _, [.str n] => .ok (.entries n [], v)
  | .field, .entries n es, [.str k, w] => .ok (.entries n (es ++ [(k, w)]), v)
  | .finish, .entries n es, [] => .ok (.ok (.entries n es), v)
  | .serializeMap, .entries n es, [_] => .ok (.ok (.entries n es), v)
  | .serializeEntry, .entries n es, [.str k, w] => .ok (.ok .unit, .entries n (es ++ [(k, w)]))
  | .end_, .entries n es, [] => .ok (.ok (.entries n es), v)
  | .serializeNum _, .entries n es, [w] => .ok (.ok (.entries n (es ++ [("", w)])), v)
  | .user n, v, [] => do return (← x.method v n, v)
  | _, _, _ => .error .illTyped

/-- Does the value match the pattern, and which variables are bound? -/
def matchPat (x : Externs W E) (p : Pat) (v : V W E) : R (Option (Env W E)) :=
  match p, v with
  | .nums ns, v => do
    let b ← v.asU8
    return if ns.any (fun n => UInt8.ofNat n == b) then some [] else none
  | .wild, _ => .ok (some [])
  | .consts p q, .pair a b => do
    let m ← (← x.const p).asU8
    let n ← (← x.const q).asU8
    return if (← a.asU8) = m ∧ (← b.asU8) = n then some [] else none
  | .ctor p none, .data q _ => .ok (if p = q then some [] else none)
  | .ctor p (some y), .data q fs =>
    if p = q then
      match fs with
      | [(_, w)] => .ok (some [(y, w)])
      | _ => .error .illTyped
    else .ok none
  | _, _ => .error .illTyped

/-- The elements that a `for` loop visits. -/
def elemsV : V W E → R (List (V W E))
  | .val (.raw (.bytes bs)) => .ok (bs.map V.byte)
  | .val (.cfgVals cs) => .ok (cs.map V.cfgVal)
  | _ => .error .illTyped

/-- The rounds of a `for` loop. -/
def forEach (body : V W E → Ev W E Unit) : List (V W E) → Ev W E Unit
  | [] => pure ()
  | v :: vs => do
    body v
    forEach body vs

/-- A `bool`. -/
def V.asBool : V W E → R Bool
  | .bool b => .ok b
  | _ => .error .illTyped

/-- A field of a structure. -/
def fieldV (v : V W E) (name : String) : R (V W E) :=
  match v with
  | .data _ fs =>
    match fs.lookup name with
    | some w => .ok w
    | none => .error .illTyped
  | _ => .error .illTyped

mutual
/-- The meaning of an expression. -/
def Expr.eval (x : Externs W E) : Expr → Ev W E (V W E)
  | .var y => Ev.get y
  | .int n => pure (.int n)
  | .lit n ty => pure (litV n ty)
  | .float q => pure (.float q)
  | .str s => pure (.str s)
  | .stringify s => pure (.str s)
  | .const p => Ev.lift (x.const p)
  | .unit => pure .unit
  | .none => pure .none
  | .field e n => do Ev.lift (fieldV (← e.eval x) n)
  | .index e i => do
    let v ← e.eval x
    Ev.lift (indexV v (← i.eval x))
  | .slice e r => do
    let v ← e.eval x
    Ev.lift (sliceV v (← r.eval x))
  | .rangeFrom lo => do return .range (← Ev.lift (← lo.eval x).asUsize) Option.none
  | .range lo hi => do
    let lo ← Ev.lift (← lo.eval x).asUsize
    return .range lo (Option.some (← Ev.lift (← hi.eval x).asUsize))
  | .array es => do return arrayV (← evalExprs x es)
  | .zeros n => do return .bytes (List.replicate (← Ev.lift (← n.eval x).asUsize) 0)
  | .pair a b => do
    let v ← a.eval x
    return .pair v (← b.eval x)
  | .paren e => e.eval x
  | .ref e => e.eval x
  | .some e => do return .some (← e.eval x)
  | .ok e => do return .ok (← e.eval x)
  | .err e => do return .err (← e.eval x)
  | .ctor p e => do return .data p [("0", ← e.eval x)]
  | .struct p fs => do return .data p (← evalFields x fs)
  | .fn f e => do Ev.lift (x.fn f (← e.eval x))
  | .fromLeBytes ty e => do Ev.lift (fromLeBytesV ty (← e.eval x))
  | .call f as => do Ev.lift (callV x f (← evalExprs x as))
  | .meth e m as => do
    let v ← e.eval x
    let (r, v) ← Ev.lift (methV x m v (← evalExprs x as))
    match e with
    | .var y => Ev.set y v
    | _ => pure ()
    return r
  | .callMut e n _ y => do
    let v ← e.eval x
    let (r, w) ← Ev.lift (x.methodMut v n (← Ev.get y))
    Ev.set y w
    return r
  | .bin op a b => do
    let v ← a.eval x
    Ev.lift (binV x.maxUsize op v (← b.eval x))
  | .not e => do return .bool (!(← Ev.lift (← e.eval x).asBool))
  | .cast e ty => do Ev.lift (castV (← e.eval x) ty)
  | .deref e => e.eval x
  | .try_ e => do
    match ← e.eval x with
    | .ok v => return v
    | .err v => Ev.ret (.err v)
    | _ => Ev.lift (.error .illTyped)
  | .unreachable => Ev.lift (.error .explicit)
  | .ite c t e => do
    if ← Ev.lift (← c.eval x).asBool then Ev.scoped (evalStmts x t) else Ev.scoped (evalStmts x e)
  | .block ss => Ev.scoped (evalStmts x ss)
  | .match_ e arms => do evalArms x (← e.eval x) arms
/-- Expressions from left to right. -/
def evalExprs (x : Externs W E) : List Expr → Ev W E (List (V W E))
  | [] => pure []
  | e :: es => do
    let v ← e.eval x
    return v :: (← evalExprs x es)
/-- The fields of a structure. -/
def evalFields (x : Externs W E) : List (String × Expr) → Ev W E (List (String × V W E))
  | [] => pure []
  | (n, e) :: fs => do
    let v ← e.eval x
    return (n, v) :: (← evalFields x fs)
/-- The meaning of a statement other than the last expression of a block. -/
def Stmt.eval (x : Externs W E) : Stmt → Ev W E Unit
  | .let_ _ y _ e => do Ev.push y (← e.eval x)
  | .letPair y z e => do
    match ← e.eval x with
    | .pair v w => do
      Ev.push y v
      Ev.push z w
    | _ => Ev.lift (.error .illTyped)
  | .expr e => do let _ ← e.eval x
  | .tail _ => Ev.lift (.error .illTyped)
  | .setIndex y i e => do
    let v ← e.eval x
    let i ← Ev.lift (← i.eval x).asUsize
    let bs ← Ev.lift (← Ev.get y).asBytes
    Ev.set y (.bytes (← Ev.lift (setByte bs i (← Ev.lift v.asU8))))
  | .addAssign y e => do
    let v ← e.eval x
    Ev.set y (← Ev.lift (binV x.maxUsize .add (← Ev.get y) v))
  | .forIn y e body => do
    let vs ← Ev.lift (elemsV (← e.eval x))
    forEach (fun v => Ev.scoped do
      Ev.push y v
      let _ ← evalStmts x body) vs
  | .return_ e => do Ev.ret (← e.eval x)
/-- The meaning of a block. -/
def evalStmts (x : Externs W E) : List Stmt → Ev W E (V W E)
  | [] => pure .unit
  | [.tail e] => e.eval x
  | s :: ss => do
    s.eval x
    evalStmts x ss
/-- The first arm that matches. -/
def evalArms (x : Externs W E) (v : V W E) : List Arm → Ev W E (V W E)
  | [] => Ev.lift (.error .illTyped)
  | .plain p e :: arms => do
    match ← Ev.lift (matchPat x p v) with
    | some env => Ev.scoped do
      env.forM fun (y, w) => Ev.push y w
      e.eval x
    | none => evalArms x v arms
  | .guarded p g e :: arms => do
    match ← Ev.lift (matchPat x p v) with
    | some env =>
      if ← Ev.scoped (do
          env.forM fun (y, w) => Ev.push y w
          Ev.lift (← g.eval x).asBool) then
        Ev.scoped do
          env.forM fun (y, w) => Ev.push y w
          e.eval x
      else evalArms x v arms
    | none => evalArms x v arms
end

/-- The parameters with their values. -/
def bindParams (params : List Var) (args : List (V W E)) : Env W E := (params.zip args).reverse

/-- Calling a function: the result and the variables at the end. -/
def FnDecl.run (x : Externs W E) (f : FnDecl) (args : List (V W E)) : R (V W E × Env W E) :=
  if f.params.length ≠ args.length then .error .illTyped
  else match evalStmts x f.body (bindParams f.params args) with
    | .error p => .error p
    | .ok (.ok v, env) => .ok (v, env)
    | .ok (.error v, env) => .ok (v, env)

/-- Calling a function: the result. -/
def FnDecl.call (x : Externs W E) (f : FnDecl) (args : List (V W E)) : R (V W E) := do
  return (← f.run x args).1

/-- The value of a constant. -/
def ConstDecl.eval (x : Externs W E) (c : ConstDecl) : R (V W E) :=
  match c.value.eval x [] with
  | .ok (.ok v, _) => .ok v
  | .ok (.error _, _) => .error .illTyped
  | .error p => .error p

end Ublox.Rust
