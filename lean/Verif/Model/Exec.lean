import Verif.Model.Code
import Verif.Model.Debug
import Verif.Model.Eval
import Verif.Model.Iter
import Verif.Model.Position
import Verif.Model.Reset

/-!
# What the functions written by hand for the packets do

The meaning of the part of Rust that `Verif.Model.Code` reads, as far as `ublox/src/ubx_packets.rs`,
`ubx_packets/packets.rs`, `ubx_packets/types.rs` and `ubx_packets/cfg_val.rs` need it.  No
code of `/repo`.  Integers have their types here.  Simplifications:

* A reference is the value it refers to; a method called on a place may change its receiver, and the new
  value is written back to the place.  (No function of these files returns a reference through which something
  is changed.)  `write_to` also changes its argument.
* A number without type takes the type of the other operand, of the field, or of the result that it is used
  for.  Until then it carries the largest number that occurred in its computation, which must be a number
  of that type too.  A conversion (`into`, `try_into`) is done when the type it leads to is known.
* The functions that the macros generate for a packet, an enumeration or a set of flags are those of the
  model of the macros (`PackDesc.get`, `EnumDesc`, `FlagsDesc`, `CfgVal`), and the functions of `core`,
  `chrono` and `num_traits` are those of the model (`Fl`, `NaiveDate`, ..).
* `Debug::fmt` of a structure returns the text that it writes.
* The functions of `CfgVal` are those of the model if the program has a table of items, and those of the program
  otherwise.
* Overflow is checked, as in a debug build.  Memory is not limited.
-/

namespace Ublox.Exec

open Code

/-- The text of an identifier. -/
def chars : Nat → Nat → List Char → List Char
  | 0, _, acc => acc
  | _ + 1, 0, acc => acc
  | fuel + 1, n + 1, acc => chars fuel ((n + 1) / 256) (Char.ofNat ((n + 1) % 256) :: acc)

/-- The text of an identifier of at most 64 characters. -/
def nameStr (n : Name) : String := String.ofList (chars 64 n [])

/-- Values -/
inductive W where
  | unit
  | bool (b : Bool)
  | u8 (x : UInt8)
  | u16 (x : UInt16)
  | u32 (x : UInt32)
  | u64 (x : UInt64)
  | usize (n : Nat)
  | i8 (x : Int8)
  | i16 (x : Int16)
  | i32 (x : Int32)
  | i64 (n : Int)
  /-- a number whose type is not known yet, and the largest number that it was computed from -/
  | lit (n hi : Nat)
  | fl (fmt : FloatFmt) (x : Fl)
  /-- a number with point whose type is not known yet -/
  | flit (q : Rat)
  /-- slices of bytes, arrays of bytes and `Vec<u8>` -/
  | bytes (bs : Bytes)
  /-- `&str` -/
  | str (bs : Bytes)
  /-- a text of the program -/
  | text (s : Name)
  /-- a text that was computed -/
  | string (s : String)
  | pair (a b : W)
  /-- a variant of an enumeration, `Some(x)`, `None`, .., or a structure without names of fields -/
  | adt (path : List Name) (args : List W)
  | struct (name : Name) (fields : List (Name × W))
  /-- a slice of values -/
  | list (vs : List W)
  /-- `core::slice::ChunksExact`: size of the blocks, and what was not visited -/
  | chunks (n : Nat) (rest : Bytes)
  /-- `core::slice::Chunks` -/
  | pieces (l : List Bytes)
  | range (lo hi : Nat)
  | rangeFrom (lo : Nat)
  | rangeTo (hi : Nat)
  /-- a reference to a packet or block: its declaration and its bytes -/
  | packet (d : PackDesc) (payload : Bytes)
  | flags (ty : Name) (bits : Nat)
  | cfg (v : CfgVal)
  | date (d : NaiveDate)
  | time (t : NaiveTime)
  /-- `NaiveDateTime` and `DateTime<Utc>` -/
  | dateTime (t : DateTime)
  /-- `chrono::Duration`, in nanoseconds -/
  | duration (n : Int)
  /-- the result of `into`, `try_into`, and of `ok` and `unwrap` behind it, for a type that is not known yet -/
  | pend (how : Name) (v : W)
  /-- `core::fmt::Formatter` -/
  | formatter
  /-- `core::fmt::DebugStruct` -/
  | debug (name : Name) (fields : List (Name × W))

/-- How an expression ends: with a value, or `return`. -/
inductive Out where
  | val (v : W)
  | ret (v : W)

/-- Variables; the innermost comes first. -/
abbrev Env := List (Name × W)

/-- Result of an expression. -/
abbrev Res := O (Out × Env)

/-- The program: the functions, structures and enumerations of the text, and what macros have generated. -/
structure Prog where
  impls : List Impl
  decls : List Decl
  enums : List EnumDesc
  flags : List FlagsDesc
  items : List CfgItem

/-- The machine, and the arguments for the type parameters -/
structure Mach where
  /-- `usize::MAX` -/
  M : Nat
  /-- the type of floats that the type parameter `T` of `ScaleBack` stands for -/
  fmt : FloatFmt
  /-- `T::CLASS` and `T::ID` for a type parameter `T: UbxPacketMeta` -/
  cls : UInt8
  id : UInt8

/-- What an expression is evaluated in. -/
structure Ctx where
  prog : Prog
  mach : Mach
  /-- the type that `Self` stands for -/
  me : Name
  /-- the functions of the program: names that occur in the name of the trait, type, name, arguments;
  result and new value of `self` -/
  user : List Name → Name → Name → List W → O (W × W)
  /-- the methods of the program: type, name, arguments; result and new value of the last argument -/
  change : Name → Name → List W → O (W × W)

/-- Evaluation goes on with the value, unless it was `return`. -/
def bindV (r : Res) (k : W → Env → Res) : Res :=
  match r with
  | .ok (.val v, env) => k v env
  | .ok (.ret v, env) => .ok (.ret v, env)
  | .error e => .error e

/-- At the end of a block only `n` variables remain. -/
def scope (n : Nat) (r : Res) : Res :=
  match r with
  | .ok (o, env) => .ok (o, env.drop (env.length - n))
  | .error e => .error e

/-- A pattern fits, or not. -/
def fits {α : Type} (o : Option Env) (k : Env → α) (e : α) : α :=
  match o with
  | some bs => k bs
  | none => e

/-- A result that may be missing because the compiler would have refused the program. -/
def need {α β : Type} (o : Option α) (k : α → O β) : O β :=
  match o with
  | some a => k a
  | none => stuck

/-- The value under a name. -/
def get (x : Name) : List (Name × W) → Option W
  | [] => .none
  | (y, v) :: env => if y = x then some v else get x env

/-- The first value under a name is replaced. -/
def set (x : Name) (v : W) : List (Name × W) → Option (List (Name × W))
  | [] => .none
  | (y, w) :: env => if y = x then some ((y, v) :: env) else (set x v env).map ((y, w) :: ·)

/-! ## Declarations -/

/-- The type of a field of a structure; 0 if it is not known. -/
def fieldTy (ds : List Decl) (ty f : Name) : Name :=
  match ds with
  | [] => 0
  | .struct n fs :: ds =>
    if n == ty then match fs.find? (fun p => p.1 == f) with | some p => p.2 | none => 0
    else fieldTy ds ty f
  | _ :: ds => fieldTy ds ty f

/-- The names of the fields of a structure; none if it is not known. -/
def fieldNames (ds : List Decl) (ty : Name) : List Name :=
  match ds with
  | [] => []
  | .struct n fs :: ds => if n == ty then fs.map (·.1) else fieldNames ds ty
  | _ :: ds => fieldNames ds ty

/-- The values under the names, in the order of the names. -/
def pick (fs : List (Name × W)) : List Name → List (Name × W)
  | [] => []
  | n :: ns =>
    match get n fs with
    | some v => (n, v) :: pick fs ns
    | none => pick fs ns

/-- The fields of a structure in the order of the declaration. -/
def arrange (ns : List Name) (fs : List (Name × W)) : List (Name × W) := if ns = [] then fs else pick fs ns

/-- Variants of enumerations that are in other files: `ublox/src/error.rs:4-7` and `75-80`. -/
def otherVariants : List (Name × Name) :=
  [(i!"MemWriterError", i!"NotEnoughMem"), (i!"DateTimeError", i!"InvalidDate"),
    (i!"DateTimeError", i!"InvalidTime"), (i!"DateTimeError", i!"InvalidNanoseconds")]

/-- Is it a variant of an enumeration? -/
def isVariant (p : Prog) (ty x : Name) : Bool :=
  (p.decls.any fun d =>
    match d with
    | .enum n vs => n == ty && vs.any fun v => v.1 == x
    | _ => false) ||
  (p.enums.any fun e => e.name == nameStr ty && e.variants.any fun v => v.1 == nameStr x) ||
  otherVariants.contains (ty, x)

/-- The number that is written for a variant; 1000000 if there is none. -/
def discriminant (ds : List Decl) (ty x : Name) : Nat :=
  match ds with
  | [] => 1000000
  | .enum n vs :: ds =>
    if n == ty then match vs.find? (fun p => p.1 == x) with | some (_, some n) => n | _ => 1000000
    else discriminant ds ty x
  | _ :: ds => discriminant ds ty x

/-- The number of a variant of an enumeration that a macro has extended; 1000000 if there is none. -/
def macroDiscriminant (es : List EnumDesc) (ty x : Name) : Nat :=
  match es.find? fun e => e.name == nameStr ty && e.intoRaw with
  | some e => match e.variants.find? fun v => v.1 == nameStr x with | some v => v.2.toNat | none => 1000000
  | none => 1000000

/-- The bits of a constant of a set of flags, if it is one -/
def flagConst (fs : List FlagsDesc) (ty x : Name) : Option Nat :=
  match fs.find? fun d => d.name == nameStr ty with
  | some d => (d.items.find? fun c => c.1 == nameStr x).map (·.2)
  | none => none

/-- The number of bits of a set of flags; 0 if there is no such set -/
def flagBits (fs : List FlagsDesc) (ty : Name) : Nat :=
  match fs.find? fun d => d.name == nameStr ty with
  | some d => d.nbits
  | none => 0

/-- Is it the name of a type or variant, which begin with a capital letter? -/
def isCtor (n : Name) : Bool :=
  match chars 64 n [] with
  | c :: _ => c.isUpper
  | [] => false

/-! ## Numbers -/

/-- A number without type becomes one of the type; other values have to be of the type if it is a primitive
one. -/
def typed (ty : Name) (v : W) : Option W :=
  match v with
  | .lit n hi =>
    if ty = i!"u8" then if hi < 256 then some (.u8 (UInt8.ofNat n)) else none
    else if ty = i!"u16" then if hi < 65536 then some (.u16 (UInt16.ofNat n)) else none
    else if ty = i!"u32" then if hi < 4294967296 then some (.u32 (UInt32.ofNat n)) else none
    else if ty = i!"usize" then if hi < 65536 then some (.usize n) else none
    else if ty = i!"i8" then if hi < 128 then some (.i8 (Int8.ofNat n)) else none
    else if ty = i!"i16" then if hi < 32768 then some (.i16 (Int16.ofNat n)) else none
    else if ty = i!"i32" then if hi < 2147483648 then some (.i32 (Int32.ofNat n)) else none
    else none
  | .flit q => if ty = i!"f64" then some (.fl fmt64 (Fl.lit fmt64 q)) else none
  | .bool b => if ty = i!"bool" then some (.bool b) else none
  | .u8 x => if ty = i!"u8" then some (.u8 x) else none
  | .u16 x => if ty = i!"u16" then some (.u16 x) else none
  | .u32 x => if ty = i!"u32" then some (.u32 x) else none
  | .u64 x => if ty = i!"u64" then some (.u64 x) else none
  | .usize x => if ty = i!"usize" then some (.usize x) else none
  | .i8 x => if ty = i!"i8" then some (.i8 x) else none
  | .i16 x => if ty = i!"i16" then some (.i16 x) else none
  | .i32 x => if ty = i!"i32" then some (.i32 x) else none
  | .fl f x => if ty = i!"f64" ∧ f = fmt64 then some (.fl f x) else none
  | v => some v

/-- A value is used where the type is known; 0: nothing is known. -/
def coerce (c : Ctx) (ty : Name) (v : W) : O W :=
  if ty = 0 ∨ ty = i!"Self" then .ok v
  else
    match v with
    | .pend how v =>
      match v with
      | .u32 x =>
        if how = i!"unwrap" then
          if ty = i!"u8" then lift (u8TryFrom x) fun b => .ok (.u8 b) else stuck
        else if how = i!"into" then andThen (c.user [i!"From", i!"u32"] ty i!"from" [.u32 x]) fun r => .ok r.1
        else stuck
      | _ => stuck
    | v => need (typed ty v) .ok

/-- Two operands, of which one may be a number without type. -/
def unify : W → W → W × W
  | .lit n hi, .u8 b => if hi < 256 then (.u8 (UInt8.ofNat n), .u8 b) else (.lit n hi, .u8 b)
  | .lit n hi, .u16 b => if hi < 65536 then (.u16 (UInt16.ofNat n), .u16 b) else (.lit n hi, .u16 b)
  | .lit n hi, .u32 b => if hi < 4294967296 then (.u32 (UInt32.ofNat n), .u32 b) else (.lit n hi, .u32 b)
  | .lit n hi, .usize b => if hi < 65536 then (.usize n, .usize b) else (.lit n hi, .usize b)
  | .u8 a, .lit n hi => if hi < 256 then (.u8 a, .u8 (UInt8.ofNat n)) else (.u8 a, .lit n hi)
  | .u16 a, .lit n hi => if hi < 65536 then (.u16 a, .u16 (UInt16.ofNat n)) else (.u16 a, .lit n hi)
  | .u32 a, .lit n hi => if hi < 4294967296 then (.u32 a, .u32 (UInt32.ofNat n)) else (.u32 a, .lit n hi)
  | .usize a, .lit n hi => if hi < 65536 then (.usize a, .usize n) else (.usize a, .lit n hi)
  | .flit q, .fl f x => (.fl f (Fl.lit f q), .fl f x)
  | .fl f x, .flit q => (.fl f x, .fl f (Fl.lit f q))
  | a, b => (a, b)

/-- `<` and the like of one type -/
def compare (op : BinOp) (lt gt eq : Bool) : O W :=
  match op with
  | .eq => .ok (.bool eq)
  | .ne => .ok (.bool !eq)
  | .lt => .ok (.bool lt)
  | .gt => .ok (.bool gt)
  | .le => .ok (.bool !gt)
  | .ge => .ok (.bool !lt)
  | _ => stuck

/-- The operators of `usize`, `M` being `usize::MAX` -/
def usizeOp (M : Nat) (op : BinOp) (a b : Nat) : O W :=
  match op with
  | .add => lift (uadd M a b) fun n => .ok (.usize n)
  | .sub => lift (usub a b) fun n => .ok (.usize n)
  | .mul => lift (AidIniBuilder.umul M a b) fun n => .ok (.usize n)
  | .rem => if b = 0 then .error (.panic .explicit) else .ok (.usize (a % b))
  | op => compare op (decide (a < b)) (decide (b < a)) (decide (a = b))

/-- The operators of `u32` -/
def u32Op (op : BinOp) (a b : UInt32) : O W :=
  match op with
  | .add => lift (uadd 4294967295 a.toNat b.toNat) fun n => .ok (.u32 (UInt32.ofNat n))
  | .sub => lift (usub a.toNat b.toNat) fun n => .ok (.u32 (UInt32.ofNat n))
  | .mul => lift (AidIniBuilder.umul 4294967295 a.toNat b.toNat) fun n => .ok (.u32 (UInt32.ofNat n))
  | .bitAnd => .ok (.u32 (a &&& b))
  | .bitOr => .ok (.u32 (a ||| b))
  | op => compare op (decide (a < b)) (decide (b < a)) (decide (a = b))

/-- The operators of `u16` -/
def u16Op (op : BinOp) (a b : UInt16) : O W :=
  match op with
  | .bitAnd => .ok (.u16 (a &&& b))
  | .bitOr => .ok (.u16 (a ||| b))
  | op => compare op (decide (a < b)) (decide (b < a)) (decide (a = b))

/-- The operators of `u8` -/
def u8Op (op : BinOp) (a b : UInt8) : O W :=
  match op with
  | .bitAnd => .ok (.u8 (a &&& b))
  | .bitOr => .ok (.u8 (a ||| b))
  | op => compare op (decide (a < b)) (decide (b < a)) (decide (a = b))

/-- The operators of numbers without type -/
def litOp (op : BinOp) (a ha b hb : Nat) : O W :=
  match op with
  | .add => .ok (.lit (a + b) (max (a + b) (max ha hb)))
  | .sub => if b ≤ a then .ok (.lit (a - b) (max ha hb)) else stuck
  | .mul => .ok (.lit (a * b) (max (a * b) (max ha hb)))
  | .bitOr => .ok (.lit (a ||| b) (max (a ||| b) (max ha hb)))
  | _ => stuck

/-- The operators of floats -/
def flOp (f : FloatFmt) (op : BinOp) (a b : Fl) : O W :=
  match op with
  | .add => .ok (.fl f (Fl.add f a b))
  | .mul => .ok (.fl f (Fl.mul f a b))
  | .lt => .ok (.bool (a.lt b))
  | .gt => .ok (.bool (b.lt a))
  | .le => .ok (.bool (a.le b))
  | .ge => .ok (.bool (b.le a))
  | _ => stuck

/-- The operators other than shifts and `&&`, on operands of the same type -/
def sameOp (M : Nat) (op : BinOp) (a b : W) : O W :=
  match a, b with
  | .usize a, .usize b => usizeOp M op a b
  | .u32 a, .u32 b => u32Op op a b
  | .u16 a, .u16 b => u16Op op a b
  | .u8 a, .u8 b => u8Op op a b
  | .lit a ha, .lit b hb => litOp op a ha b hb
  | .fl f a, .fl g b => if f = g then flOp f op a b else stuck
  | .flags t a, .flags u b =>
    match op with
    | .bitOr => if t = u then .ok (.flags t (a ||| b)) else stuck
    | _ => stuck
  | .dateTime t, .duration n =>
    match op with
    | .add => lift (t.addNanoseconds n) fun t => .ok (.dateTime t)
    | _ => stuck
  | _, _ => stuck

/-- How far a shift goes -/
def amount : W → Option Nat
  | .lit n _ => some n
  | .u8 x => some x.toNat
  | .u32 x => some x.toNat
  | .usize n => some n
  | _ => none

/-- `a << k` -/
def shl (a : W) (k : Nat) : O W :=
  match a with
  | .lit n hi => .ok (.lit (n * 2 ^ k) (max hi (max (n * 2 ^ k) (2 ^ k))))
  | .u8 x => if k < 8 then .ok (.u8 (x <<< UInt8.ofNat k)) else .error (.panic .overflow)
  | .u16 x => if k < 16 then .ok (.u16 (x <<< UInt16.ofNat k)) else .error (.panic .overflow)
  | .u32 x => if k < 32 then .ok (.u32 (x <<< UInt32.ofNat k)) else .error (.panic .overflow)
  | _ => stuck

/-- `a >> k` -/
def shr (a : W) (k : Nat) : O W :=
  match a with
  | .u8 x => if k < 8 then .ok (.u8 (x >>> UInt8.ofNat k)) else .error (.panic .overflow)
  | .u16 x => if k < 16 then .ok (.u16 (x >>> UInt16.ofNat k)) else .error (.panic .overflow)
  | .u32 x => if k < 32 then .ok (.u32 (x >>> UInt32.ofNat k)) else .error (.panic .overflow)
  | _ => stuck

/-- The binary operators except `&&` -/
def binary (M : Nat) (op : BinOp) (a b : W) : O W :=
  match op with
  | .shl => need (amount b) fun k => shl a k
  | .shr => need (amount b) fun k => shr a k
  | op => sameOp M op (unify a b).1 (unify a b).2

/-- `v as ty` -/
def castTo (ds : List Decl) (v : W) (ty : Name) : O W :=
  match v with
  | .lit n hi => need (typed ty (.lit n hi)) .ok
  | .bool b =>
    if ty = i!"u32" then .ok (.u32 (boolU32 b)) else if ty = i!"u8" then .ok (.u8 (if b then 1 else 0)) else stuck
  | .u8 x =>
    if ty = i!"u32" then .ok (.u32 x.toUInt32) else if ty = i!"usize" then .ok (.usize x.toNat) else stuck
  | .u16 x => if ty = i!"usize" then .ok (.usize x.toNat) else stuck
  | .u32 x =>
    if ty = i!"u8" then .ok (.u8 x.toUInt8) else if ty = i!"u16" then .ok (.u16 x.toUInt16)
    else if ty = i!"i32" then .ok (.i32 x.toInt32) else stuck
  | .i32 x => if ty = i!"u32" then .ok (.u32 x.toUInt32) else stuck
  | .fl _ x => if ty = i!"i32" then .ok (.i32 (AidIniBuilder.asI32 x)) else stuck
  | .adt [t, x] [] => need (typed ty (.lit (discriminant ds t x) (discriminant ds t x))) .ok
  | _ => stuck

/-- A number used as an index or length -/
def asUsize : W → Option Nat
  | .usize n => some n
  | .lit n hi => if hi < 65536 then some n else none
  | _ => none

/-! ## Structures, slices -/

/-- `v.name` -/
def getField (v : W) (name : Name) : O W :=
  match v with
  | .struct _ fs => need (get name fs) .ok
  | .adt [_] [a] => if name = i!"0" then .ok a else stuck
  | .pair a b => if name = i!"0" then .ok a else if name = i!"1" then .ok b else stuck
  | _ => stuck

/-- `v.name = w` -/
def setField (v : W) (name : Name) (w : W) : O W :=
  match v with
  | .struct s fs => need (set name w fs) fun fs => .ok (.struct s fs)
  | .adt [t] [_] => if name = i!"0" then .ok (.adt [t] [w]) else stuck
  | _ => stuck

/-- `x[i]` and `x[lo..hi]` on slices -/
def indexV (v i : W) : O W :=
  match v with
  | .bytes bs =>
    match i with
    | .range lo hi => lift (sliceRange bs lo hi) fun b => .ok (.bytes b)
    | .rangeFrom lo => lift (sliceFrom bs lo) fun b => .ok (.bytes b)
    | .rangeTo hi => lift (sliceRange bs 0 hi) fun b => .ok (.bytes b)
    | i => need (asUsize i) fun i => lift (getByte bs i) fun b => .ok (.u8 b)
  | _ => stuck

/-- `x[i] = v` and the writing to `x[lo..]` and `x[..hi]` -/
def setIndex (v i new : W) : O W :=
  match v, new with
  | .bytes bs, .u8 b => need (asUsize i) fun i => lift (setByte bs i b) fun bs => .ok (.bytes bs)
  | .bytes bs, .bytes new =>
    match i with
    | .rangeFrom lo => .ok (.bytes (bs.take lo ++ new))
    | .rangeTo hi => .ok (.bytes (new ++ bs.drop hi))
    | _ => stuck
  | _, _ => stuck

/-- The elements of an array of bytes. -/
def byteList : List W → Option Bytes
  | [] => some []
  | v :: vs =>
    match typed i!"u8" v with
    | some (.u8 b) => (byteList vs).map (b :: ·)
    | _ => none

/-- `Some(x)`, `None` -/
def someV (v : W) : W := .adt [i!"Some"] [v]
@[inherit_doc someV] def noneV : W := .adt [i!"None"] []
/-- `Ok(x)`, `Err(x)` -/
def okV (v : W) : W := .adt [i!"Ok"] [v]
@[inherit_doc okV] def errV (v : W) : W := .adt [i!"Err"] [v]

/-- `Option` -/
def optV : Option W → W
  | some v => someV v
  | none => noneV

/-- `e?` -/
def tryV (v : W) (env : Env) : Res :=
  match v with
  | .adt [t] [a] =>
    if t = i!"Some" then .ok (.val a, env) else if t = i!"Ok" then .ok (.val a, env)
    else if t = i!"Err" then .ok (.ret (errV a), env) else stuck
  | .adt [t] [] => if t = i!"None" then .ok (.ret noneV, env) else stuck
  | _ => stuck

/-! ## Functions of libraries and of macros -/

/-- The text that the derived `Debug` writes for a value. -/
def debugText : W → Option String
  | .bool b => some (debugBool b)
  | .adt [_, v] [] => some (nameStr v)
  | .adt [_, v] [.u8 x] => some (nameStr v ++ "(" ++ numeral 10 x.toNat ++ ")")
  | _ => none

/-- The texts of the fields -/
def debugFields : List (Name × W) → Option (List (String × String))
  | [] => some []
  | (k, v) :: fs =>
    match debugText v, debugFields fs with
    | some t, some r => some ((nameStr k, t) :: r)
    | _, _ => none

/-- A value of an accessor -/
def ofVal : Val → Option W
  | .raw (.u8 x) => some (.u8 x)
  | .raw (.u16 x) => some (.u16 x)
  | .raw (.i32 x) => some (.i32 x)
  | .f64 x => some (.fl fmt64 x)
  | _ => none

/-- An accessor of a packet -/
def accessor (d : PackDesc) (payload : Bytes) (name : Name) : O W :=
  lift (d.get (nameStr name) payload) fun v => need (ofVal v) .ok

/-- `Option` and `Result`, by the name of the constructor -/
def sumMethod (t : Name) (as : List W) (name : Name) (args : List W) : O W :=
  match as, args with
  | [a], [] =>
    if name = i!"unwrap" then
      if t = i!"Some" ∨ t = i!"Ok" then .ok a else if t = i!"Err" then .error (.panic .unwrap) else stuck
    else if name = i!"is_ok" then
      if t = i!"Ok" then .ok (.bool true) else if t = i!"Err" then .ok (.bool false) else stuck
    else stuck
  | [], [] => if name = i!"unwrap" ∧ t = i!"None" then .error (.panic .unwrap) else stuck
  | [a], [x] =>
    if name = i!"expect" then
      if t = i!"Some" ∨ t = i!"Ok" then .ok a else if t = i!"Err" then .error (.panic .unwrap) else stuck
    else if name = i!"ok_or" then if t = i!"Some" then .ok (okV a) else stuck
    else match x with | _ => stuck
  | [], [x] =>
    if name = i!"expect" then if t = i!"None" then .error (.panic .unwrap) else stuck
    else if name = i!"ok_or" then if t = i!"None" then .ok (errV x) else stuck
    else stuck
  | _, _ => stuck

/-- Methods of slices and `Vec<u8>` -/
def bytesMethod (bs : Bytes) (name : Name) (args : List W) : O W :=
  match args with
  | [] =>
    if name = i!"len" then .ok (.usize bs.length)
    else if name = i!"iter" then .ok (.bytes bs)
    else if name = i!"try_into" then .ok (.pend i!"try_into" (.bytes bs))
    else stuck
  | [v] =>
    need (asUsize v) fun n =>
      if name = i!"chunks_exact" then
        if n = 0 then .error (.panic .explicit) else .ok (.chunks n (bs.take (bs.length - bs.length % n)))
      else if name = i!"chunks" then if n = 0 then .error (.panic .explicit) else .ok (.pieces (Ublox.chunks n bs))
      else if name = i!"reserve" then .ok .unit
      else stuck
  | _ => stuck

/-- Methods of floats: `num_traits` -/
def floatMethod (f : FloatFmt) (x : Fl) (name : Name) : O W :=
  if name = i!"round" then .ok (.fl f x.roundInt)
  else if name = i!"is_sign_negative" then .ok (.bool x.signNeg)
  else if name = i!"to_i8" then .ok (optV ((x.toInt? (-128) 127).map fun n => .i8 (Int8.ofInt n)))
  else if name = i!"to_i16" then .ok (optV ((x.toInt? (-32768) 32767).map fun n => .i16 (Int16.ofInt n)))
  else if name = i!"to_i32" then .ok (optV ((x.toInt? (-2147483648) 2147483647).map fun n => .i32 (Int32.ofInt n)))
  else if name = i!"to_u8" then .ok (optV ((x.toInt? 0 255).map fun n => .u8 (UInt8.ofNat n.toNat)))
  else if name = i!"to_u16" then .ok (optV ((x.toInt? 0 65535).map fun n => .u16 (UInt16.ofNat n.toNat)))
  else if name = i!"to_u32" then .ok (optV ((x.toInt? 0 4294967295).map fun n => .u32 (UInt32.ofNat n.toNat)))
  else stuck

/-- Methods of times: `chrono` -/
def timeMethod (t : DateTime) (name : Name) : O W :=
  if name = i!"year_ce" then .ok (.pair (.bool t.yearCe.1) (.u32 (UInt32.ofNat t.yearCe.2)))
  else if name = i!"month0" then .ok (.u32 (UInt32.ofNat t.month0))
  else if name = i!"hour" then .ok (.u32 (UInt32.ofNat t.hour))
  else if name = i!"minute" then .ok (.u32 (UInt32.ofNat t.minute))
  else if name = i!"second" then .ok (.u32 (UInt32.ofNat t.second))
  else if name = i!"nanosecond" then .ok (.u32 (UInt32.ofNat t.nanosecond))
  else stuck

/-- Methods of slices and `Vec<u8>` that change them -/
def bytesMutMethod (bs : Bytes) (name : Name) (new : Bytes) : O W :=
  if name = i!"extend" then .ok (.bytes (bs ++ new))
  else if name = i!"copy_from_slice" then
    if bs.length = new.length then .ok (.bytes new) else .error (.panic .slice)
  else stuck

/-- A method: result and, if it may change, the new value of the receiver. -/
def method (c : Ctx) (v : W) (name : Name) (args : List W) : O (W × Option W) :=
  match v with
  | .adt [t] as =>
    if t = i!"Some" ∨ t = i!"None" ∨ t = i!"Ok" ∨ t = i!"Err" then
      andThen (sumMethod t as name args) fun r => .ok (r, none)
    else andThen (c.user [] t name (.adt [t] as :: args)) fun r => .ok (r.1, some r.2)
  | .adt [t, x] as =>
    if name = i!"into_raw" ∧ macroDiscriminant c.prog.enums t x < 256 then
      .ok (.u8 (UInt8.ofNat (macroDiscriminant c.prog.enums t x)), none)
    else andThen (c.user [] t name (.adt [t, x] as :: args)) fun r => .ok (r.1, some r.2)
  | .struct t fs => andThen (c.user [] t name (.struct t fs :: args)) fun r => .ok (r.1, some r.2)
  | .bytes bs =>
    match args with
    | [.bytes new] => andThen (bytesMutMethod bs name new) fun r => .ok (.unit, some r)
    | args => andThen (bytesMethod bs name args) fun r => .ok (r, none)
  | .fl f x =>
    match args with
    | [] => andThen (floatMethod f x name) fun r => .ok (r, none)
    | _ => stuck
  | .dateTime t =>
    match args with
    | [] => andThen (timeMethod t name) fun r => .ok (r, none)
    | _ => stuck
  | .packet d payload =>
    match args with
    | [] => andThen (accessor d payload name) fun r => .ok (r, none)
    | _ => stuck
  | .u8 x =>
    match args with
    | [.u8 k] =>
      if name = i!"overflowing_add" then
        .ok (.pair (.u8 (x + k)) (.bool (decide (256 ≤ x.toNat + k.toNat))), none)
      else stuck
    | _ => stuck
  | .u32 x =>
    match args with
    | [] =>
      if name = i!"into" ∨ name = i!"try_into" then .ok (.pend name (.u32 x), none)
      else if name = i!"to_le_bytes" then .ok (.bytes (u32ToLe x), none)
      else stuck
    | _ => stuck
  | .u16 x =>
    match args with
    | [] => if name = i!"to_le_bytes" then .ok (.bytes (u16ToLe x), none) else stuck
    | _ => stuck
  | .i16 x =>
    match args with
    | [] => if name = i!"to_le_bytes" then .ok (.bytes (u16ToLe x.toUInt16), none) else stuck
    | _ => stuck
  | .u64 x =>
    match args with
    | [] => if name = i!"to_le_bytes" then .ok (.bytes (u64ToLe x), none) else stuck
    | _ => stuck
  | .flags t n =>
    match args with
    | [] =>
      if name = i!"bits" ∧ flagBits c.prog.flags t = 8 then .ok (.u8 (UInt8.ofNat n), none) else stuck
    | _ => stuck
  | .i32 x =>
    match args with
    | [] => if name = i!"wrapping_abs" then .ok (.i32 (wrappingAbs x), none) else stuck
    | _ => stuck
  | .pend how v =>
    match args with
    | [] =>
      if how = i!"try_into" ∧ (name = i!"ok" ∨ name = i!"unwrap") then .ok (.pend name v, none) else stuck
    | _ => stuck
  | .chunks n rest =>
    match args with
    | [] =>
      if name = i!"next" then
        .ok (optV ((chunksNext n rest).1.map .bytes), some (.chunks n (chunksNext n rest).2))
      else stuck
    | _ => stuck
  | .cfg v =>
    match args with
    | [] => if name = i!"len" then .ok (.usize v.len, none) else stuck
    | _ => stuck
  | .formatter =>
    match args with
    | [.text n] => if name = i!"debug_struct" then .ok (.debug n [], none) else stuck
    | _ => stuck
  | .debug n fs =>
    match args with
    | [] =>
      if name = i!"finish" then
        need (debugFields fs) fun l => .ok (.string (debugStruct (nameStr n) l), none)
      else stuck
    | [.text k, v] => if name = i!"field" then .ok (.debug n (fs ++ [(k, v)]), none) else stuck
    | _ => stuck
  | _ => stuck

/-- Functions of libraries and of macros without arguments -/
def builtin0 (p : List Name) : Option W :=
  if p = [i!"i8", i!"min_value"] then some (.i8 (-128))
  else if p = [i!"i8", i!"max_value"] then some (.i8 127)
  else if p = [i!"i16", i!"min_value"] then some (.i16 (-32768))
  else if p = [i!"i16", i!"max_value"] then some (.i16 32767)
  else none

/-- `u16::from_le_bytes` and the like, for an array -/
def leInt (p : List Name) (bs : Bytes) : Option (O W) :=
  if p = [i!"u16", i!"from_le_bytes"] then
    match bs with | [a, b] => some (.ok (.u16 (u16FromLe a b))) | _ => none
  else if p = [i!"i16", i!"from_le_bytes"] then
    match bs with | [a, b] => some (.ok (.i16 (u16FromLe a b).toInt16)) | _ => none
  else if p = [i!"u32", i!"from_le_bytes"] then
    match bs with | [a, b, c, d] => some (.ok (.u32 (u32FromLe a b c d))) | _ => none
  else if p = [i!"u64", i!"from_le_bytes"] then
    match bs with | [a, b, c, d, e, f, g, h] => some (.ok (.u64 (u64FromLe a b c d e f g h))) | _ => none
  else none

/-- `from_bits_truncate` of a set of flags of so many bits -/
def truncate (c : Ctx) (p : List Name) (nbits x : Nat) : Option (O W) :=
  match p with
  | [ty, f] =>
    if f = i!"from_bits_truncate" then
      match c.prog.flags.find? fun d => d.name == nameStr (if ty = i!"Self" then c.me else ty) with
      | some d =>
        if d.nbits = nbits then some (.ok (.flags (if ty = i!"Self" then c.me else ty) (d.fromBitsTruncate x)))
        else none
      | none => none
    else none
  | _ => none

/-- Functions of libraries and of macros with one argument; `none` if there is no such function -/
def builtin1 (c : Ctx) (p : List Name) (v : W) : Option (O W) :=
  if p = [i!"Some"] then some (.ok (someV v))
  else if p = [i!"Ok"] then some (.ok (okV v))
  else if p = [i!"Err"] then some (.ok (errV v))
  else
    match v with
    | .bytes bs =>
      if p = [i!"core", i!"str", i!"from_utf8"] then
        some (.ok (if utf8Valid bs then okV (.str bs) else errV .unit))
      else if p = [i!"CfgVal", i!"parse"] ∧ c.prog.items.isEmpty = false then
        some (lift (CfgVal.parse c.prog.items bs) fun v => .ok (.cfg v))
      else leInt p bs
    | .pend how (.bytes bs) =>
      if p = [i!"u32", i!"from_le_bytes"] ∧ how = i!"unwrap" then
        some (lift (u32FromSlice bs) fun x => .ok (.u32 x))
      else none
    | .u8 x =>
      if p = [i!"u32", i!"from"] then some (.ok (.u32 x.toUInt32))
      else if p = [i!"T", i!"from_u8"] then
        some (.ok (someV (.fl c.mach.fmt (Fl.ofRat c.mach.fmt false (x.toNat : Int)))))
      else if p = [i!"core", i!"iter", i!"once"] then some (.ok (.bytes [x]))
      else truncate c p 8 x.toNat
    | .u16 x =>
      if p = [i!"i32", i!"from"] then some (.ok (.i32 (Int32.ofNat x.toNat)))
      else if p = [i!"T", i!"from_u16"] then
        some (.ok (someV (.fl c.mach.fmt (Fl.ofRat c.mach.fmt false (x.toNat : Int)))))
      else truncate c p 16 x.toNat
    | .u32 x =>
      if p = [i!"T", i!"from_u32"] then
        some (.ok (someV (.fl c.mach.fmt (Fl.ofRat c.mach.fmt false (x.toNat : Int)))))
      else none
    | .i8 x =>
      if p = [i!"T", i!"from_i8"] then
        some (.ok (someV (.fl c.mach.fmt (Fl.ofRat c.mach.fmt false x.toInt))))
      else none
    | .i16 x =>
      if p = [i!"T", i!"from_i16"] then
        some (.ok (someV (.fl c.mach.fmt (Fl.ofRat c.mach.fmt false x.toInt))))
      else none
    | .i32 x =>
      if p = [i!"T", i!"from_i32"] then
        some (.ok (someV (.fl c.mach.fmt (Fl.ofRat c.mach.fmt false x.toInt))))
      else if p = [i!"i64", i!"from"] then some (.ok (.i64 x.toInt))
      else none
    | .i64 n => if p = [i!"chrono", i!"Duration", i!"nanoseconds"] then some (.ok (.duration n)) else none
    | _ => none

/-- Functions of `chrono` with more arguments -/
def builtinN (p : List Name) (args : List W) : Option W :=
  match args with
  | [.i32 y, .u32 m, .u32 d] =>
    if p = [i!"NaiveDate", i!"from_ymd_opt"] then
      some (optV ((NaiveDate.fromYmdOpt y.toInt m.toNat d.toNat).map .date))
    else none
  | [.u32 h, .u32 m, .u32 s] =>
    if p = [i!"NaiveTime", i!"from_hms_opt"] then
      some (optV ((NaiveTime.fromHmsOpt h.toNat m.toNat s.toNat).map .time))
    else none
  | [.date d, .time t] => if p = [i!"NaiveDateTime", i!"new"] then some (.dateTime ⟨d, t⟩) else none
  | [.dateTime t, .adt [u] []] =>
    if p = [i!"DateTime", i!"from_naive_utc_and_offset"] ∧ u = i!"Utc" then some (.dateTime t) else none
  | _ => none

/-- A function of the program, a variant or a structure, called by its path. -/
def ownFn (c : Ctx) (p : List Name) (args : List W) : O W :=
  match p with
  | [f] =>
    if f = i!"Self" ∨ isCtor f = true then
      match args with
      | [v] =>
        andThen (coerce c (fieldTy c.prog.decls (if f = i!"Self" then c.me else f) i!"0") v) fun w =>
          .ok (.adt [if f = i!"Self" then c.me else f] [w])
      | _ => stuck
    else andThen (c.user [modName] 0 f args) fun r => .ok r.1
  | [ty, f] =>
    if isVariant c.prog (if ty = i!"Self" then c.me else ty) f = true then
      .ok (.adt [if ty = i!"Self" then c.me else ty, f] args)
    else andThen (c.user [] (if ty = i!"Self" then c.me else ty) f args) fun r => .ok r.1
  | _ => stuck

/-- A function called by its path. -/
def callFn (c : Ctx) (p : List Name) (args : List W) : O W :=
  match args with
  | [] => match builtin0 p with | some v => .ok v | none => ownFn c p []
  | [v] => match builtin1 c p v with | some r => r | none => ownFn c p [v]
  | vs => match builtinN p vs with | some v => .ok v | none => ownFn c p vs

/-- A constant with a path of two parts. -/
def constV (c : Ctx) (ty x : Name) : O W :=
  if ty = i!"i32" then
    if x = i!"MIN" then .ok (.i32 (-2147483648)) else if x = i!"MAX" then .ok (.i32 2147483647) else stuck
  else if ty = i!"u32" ∧ x = i!"MAX" then .ok (.u32 4294967295)
  else if ty = i!"u16" ∧ x = i!"MAX" then .ok (.u16 65535)
  else if ty = i!"u8" ∧ x = i!"MAX" then .ok (.u8 255)
  else if ty = i!"T" then
    if x = i!"CLASS" then .ok (.u8 c.mach.cls) else if x = i!"ID" then .ok (.u8 c.mach.id) else stuck
  else if isVariant c.prog (if ty = i!"Self" then c.me else ty) x = true then
    .ok (.adt [if ty = i!"Self" then c.me else ty, x] [])
  else
    match flagConst c.prog.flags (if ty = i!"Self" then c.me else ty) x with
    | some n => .ok (.flags (if ty = i!"Self" then c.me else ty) n)
    | none => andThen (c.user [] (if ty = i!"Self" then c.me else ty) x []) fun r => .ok r.1

/-- A variable or a constant. -/
def pathV (c : Ctx) (p : List Name) (env : Env) : O W :=
  match p with
  | [x] =>
    match get x env with
    | some v => .ok v
    | none =>
      if x = i!"None" then .ok noneV
      else if x = i!"true" then .ok (.bool true)
      else if x = i!"false" then .ok (.bool false)
      else if x = i!"Utc" then .ok (.adt [i!"Utc"] [])
      else andThen (c.user [modName] 0 x []) fun r => .ok r.1
  | [ty, x] => constV c ty x
  | _ => stuck

/-! ## Patterns -/

/-- A name in a pattern: `_`, `true`, `false`, or a variable -/
def bindName (x : Name) (v : W) : Option Env :=
  if x = i!"_" then some []
  else if x = i!"true" then match v with | .bool b => if b = true then some [] else none | _ => none
  else if x = i!"false" then match v with | .bool b => if b = false then some [] else none | _ => none
  else some [(x, v)]

/-- What a pattern binds, if it fits. -/
def bindPat (me : Name) : Pat → W → Option Env
  | .name x, v => bindName x v
  | .pair x y, .pair a b =>
    fits (bindName x a) (fun bs => fits (bindName y b) (fun cs => some (cs ++ bs)) none) none
  | .ctor c [x], .adt p [v] => if p = [c] then bindName x v else none
  | .ctor c [], .adt p [] => if p = [c] then some [] else none
  | .int n, .u8 x => if x = UInt8.ofNat n then some [] else none
  | .int n, .u16 x => if x = UInt16.ofNat n then some [] else none
  | .int n, .u32 x => if x = UInt32.ofNat n then some [] else none
  | .range lo hi, .u8 x => if UInt8.ofNat lo ≤ x ∧ x ≤ UInt8.ofNat hi then some [] else none
  | .range lo hi, .u32 x => if UInt32.ofNat lo ≤ x ∧ x ≤ UInt32.ofNat hi then some [] else none
  | .variant t x y, .adt p [v] => if p = [if t = i!"Self" then me else t, x] then bindName y v else none
  | .path [t, x], .adt p [] => if p = [if t = i!"Self" then me else t, x] then some [] else none
  | .or a b, v => fits (bindPat me a v) some (bindPat me b v)
  | _, _ => none

/-! ## Loops -/

/-- `bytes.iter().position(f)`: how many elements come before the first that `f` accepts -/
def position (f : W → O W) : Nat → Bytes → O (Option Nat)
  | _, [] => .ok none
  | i, b :: bs =>
    andThen (f (.u8 b)) fun r =>
      match r with
      | .bool true => .ok (some i)
      | .bool false => position f (i + 1) bs
      | _ => stuck

/-- `all(f)` -/
def allV (f : W → O W) : List Bytes → O W
  | [] => .ok (.bool true)
  | b :: bs =>
    andThen (f (.bytes b)) fun r =>
      match r with
      | .bool true => allV f bs
      | .bool false => .ok (.bool false)
      | _ => stuck

/-- A method that calls a function. -/
def methodFn (v : W) (name : Name) (f : W → O W) : O W :=
  match v with
  | .bytes bs =>
    if name = i!"position" then andThen (position f 0 bs) fun r => .ok (optV (r.map .usize)) else stuck
  | .pieces l => if name = i!"all" then allV f l else stuck
  | .adt [t] [a] =>
    if name = i!"map" then
      if t = i!"Some" ∨ t = i!"Ok" then andThen (f a) fun r => .ok (.adt [t] [r])
      else if t = i!"Err" then .ok (.adt [t] [a]) else stuck
    else if name = i!"map_err" then
      if t = i!"Ok" then .ok (.adt [t] [a])
      else if t = i!"Err" then andThen (f a) fun r => .ok (.adt [t] [r]) else stuck
    else stuck
  | .adt [t] [] => if name = i!"map" ∧ t = i!"None" then .ok noneV else stuck
  | _ => stuck

/-- A method that calls a function given by its path.  For a pending conversion the function says what type
it leads to. -/
def methodPath (c : Ctx) (v : W) (name : Name) (p : List Name) : O W :=
  match v with
  | .pend how (.bytes bs) =>
    if name = i!"map" ∧ p = [i!"u32", i!"from_le_bytes"] then
      match u32FromSlice bs with
      | .ok x =>
        if how = i!"try_into" then .ok (okV (.u32 x)) else if how = i!"ok" then .ok (someV (.u32 x)) else stuck
      | .error _ =>
        if how = i!"try_into" then .ok (errV .unit) else if how = i!"ok" then .ok noneV else stuck
    else stuck
  | v => methodFn v name fun w => callFn c p [w]

/-- The values that `for` goes through. -/
def elems : W → Option (List W)
  | .bytes bs => some (bs.map .u8)
  | .list vs => some vs
  | _ => none

/-- `for` goes through the values. -/
def forLoop (body : W → Env → Res) : List W → Env → Res
  | [], env => .ok (.val .unit, env)
  | v :: vs, env =>
    match body v env with
    | .ok (.val _, env) => forLoop body vs env
    | .ok (.ret v, env) => .ok (.ret v, env)
    | .error e => .error e

/-- `<dyn std::io::Write>::write(self, buf)` for a `Vec<u8>`: everything is appended. -/
def ioWrite (args : List W) (env : Env) : Res :=
  match args with
  | [.bytes old, .bytes new] =>
    need (set i!"self" (.bytes (old ++ new)) env) fun env => .ok (.val (okV (.usize new.length)), env)
  | _ => stuck

/-- The name of a structure. -/
def structName (me : Name) (p : List Name) : Name :=
  match p with
  | [t] => if t = i!"Self" then me else t
  | _ => 0

/-! ## Expressions -/

/-- Is it a result or a constant?  What a method changes of it is lost. -/
def temporary : Expr → Bool
  | .call .. => true
  | .meth .. => true
  | .path [_, _] => true
  | _ => false

mutual
/-- The value of an expression.  Operands are evaluated from the left, the receiver of a method first. -/
def eval (c : Ctx) : Expr → Env → Res
  | .path p, env => andThen (pathV c p env) fun v => .ok (.val v, env)
  | .int n, env => .ok (.val (.lit n n), env)
  | .float a b, env => .ok (.val (.flit (mkRat a b)), env)
  | .str s, env => .ok (.val (.text s), env)
  | .cast e ty, env =>
    bindV (eval c e env) fun v env => andThen (castTo c.prog.decls v ty) fun w => .ok (.val w, env)
  | .try_ e, env => bindV (eval c e env) tryV
  | .field e f, env => bindV (eval c e env) fun v env => andThen (getField v f) fun w => .ok (.val w, env)
  | .index e i, env =>
    bindV (eval c e env) fun v env => bindV (eval c i env) fun i env =>
      andThen (indexV v i) fun w => .ok (.val w, env)
  | .range lo hi, env =>
    bindV (eval c lo env) fun a env => bindV (eval c hi env) fun b env =>
      need (asUsize a) fun a => need (asUsize b) fun b => .ok (.val (.range a b), env)
  | .rangeFrom lo, env =>
    bindV (eval c lo env) fun a env => need (asUsize a) fun a => .ok (.val (.rangeFrom a), env)
  | .rangeTo hi, env =>
    bindV (eval c hi env) fun a env => need (asUsize a) fun a => .ok (.val (.rangeTo a), env)
  | .array es, env => evals c es env fun vs env => need (byteList vs) fun bs => .ok (.val (.bytes bs), env)
  | .tuple es, env =>
    evals c es env fun vs env =>
      match vs with
      | [] => .ok (.val .unit, env)
      | [a, b] => .ok (.val (.pair a b), env)
      | _ => stuck
  | .un op e, env =>
    bindV (eval c e env) fun v env =>
      match op with
      | .not =>
        match v with
        | .bool b => .ok (.val (.bool (!b)), env)
        | _ => stuck
      | _ => .ok (.val v, env)
  | .bin op a b, env =>
    match op with
    | .and =>
      bindV (eval c a env) fun x env =>
        match x with
        | .bool x =>
          if x then
            bindV (eval c b env) fun y env =>
              match y with
              | .bool y => .ok (.val (.bool y), env)
              | _ => stuck
          else .ok (.val (.bool false), env)
        | _ => stuck
    | op =>
      bindV (eval c a env) fun x env => bindV (eval c b env) fun y env =>
        andThen (binary c.mach.M op x y) fun z => .ok (.val z, env)
  | .assign a b, env =>
    bindV (eval c b env) fun v env => andThen (store c a v env) fun env => .ok (.val .unit, env)
  | .addAssign a b, env =>
    bindV (eval c b env) fun y env => bindV (eval c a env) fun x env =>
      andThen (binary c.mach.M .add x y) fun z => andThen (store c a z env) fun env => .ok (.val .unit, env)
  | .orAssign a b, env =>
    bindV (eval c b env) fun y env => bindV (eval c a env) fun x env =>
      andThen (binary c.mach.M .bitOr x y) fun z => andThen (store c a z env) fun env => .ok (.val .unit, env)
  | .call f args, env =>
    evals c args env fun vs env =>
      if f = [i!"dyn", i!"std", i!"io", i!"Write", i!"write"] then ioWrite vs env
      else andThen (callFn c f vs) fun v => .ok (.val v, env)
  | .meth e name args, env =>
    bindV (eval c e env) fun v env =>
      if name = i!"map" ∨ name = i!"map_err" ∨ name = i!"all" then
        match args with
        | .cons (.path p) .nil => andThen (methodPath c v name p) fun w => .ok (.val w, env)
        | _ => stuck
      else if name = i!"write_to" then
        match args with
        | .cons (.un .refMut place) .nil =>
          bindV (eval c place env) fun rest env =>
            match v, rest with
            | .cfg v, .bytes rest =>
              lift (v.writeTo rest) fun r =>
                andThen (store c place (.bytes r.1) env) fun env => .ok (.val (.usize r.2), env)
            | .adt [t, x] as, rest =>
              andThen (c.change t name [.adt [t, x] as, rest]) fun r =>
                andThen (store c place r.2 env) fun env => .ok (.val r.1, env)
            | _, _ => stuck
        | _ => stuck
      else
        evals c args env fun vs env =>
          andThen (method c v name vs) fun r =>
            match r.2 with
            | none => .ok (.val r.1, env)
            | some new =>
              if temporary e then .ok (.val r.1, env)
              else andThen (store c e new env) fun env => .ok (.val r.1, env)
  | .methFn e name x body, env =>
    bindV (eval c e env) fun v env =>
      andThen (methodFn v name fun w =>
        andThen (eval c body ((x, w) :: env)) fun r =>
          match r.1 with
          | .val u => .ok u
          | _ => stuck) fun w => .ok (.val w, env)
  | .struct p fs, env =>
    evalF c (structName c.me p) fs env fun vs env =>
      .ok (.val (.struct (structName c.me p) (arrange (fieldNames c.prog.decls (structName c.me p)) vs)), env)
  | .ite b t e, env =>
    bindV (eval c b env) fun v env =>
      match v with
      | .bool b => if b then scope env.length (evalS c t env) else scope env.length (evalS c e env)
      | _ => stuck
  | .match_ e arms, env => bindV (eval c e env) fun v env => evalA c arms v env
  | .while_ .., _ => stuck
  | .for_ x e body, env =>
    bindV (eval c e env) fun v env =>
      need (elems v) fun vs => forLoop (fun v env => scope env.length (evalS c body ((x, v) :: env))) vs env
  | .block b, env => scope env.length (evalS c b env)
  | .return_ e, env => bindV (eval c e env) fun v env => .ok (.ret v, env)
  | .break_, _ => stuck
  | .continue_, _ => stuck
  | .panic, _ => .error (.panic .explicit)
/-- The values of expressions, and what is done with them. -/
def evals (c : Ctx) : Exprs → Env → (List W → Env → Res) → Res
  | .nil, env, k => k [] env
  | .cons e es, env, k =>
    bindV (eval c e env) fun v env => evals c es env fun vs env => k (v :: vs) env
/-- The fields of a structure; each becomes a value of its type. -/
def evalF (c : Ctx) (ty : Name) : Fields → Env → (List (Name × W) → Env → Res) → Res
  | .nil, env, k => k [] env
  | .cons name e fs, env, k =>
    bindV (eval c e env) fun v env =>
      andThen (coerce c (fieldTy c.prog.decls ty name) v) fun v =>
        evalF c ty fs env fun vs env => k ((name, v) :: vs) env
/-- The value of a block. -/
def evalS (c : Ctx) : Stmts → Env → Res
  | .nil, env => .ok (.val .unit, env)
  | .last e, env => eval c e env
  | .semi e rest, env => bindV (eval c e env) fun _ env => evalS c rest env
  | .let_ p e rest, env =>
    bindV (eval c e env) fun v env => fits (bindPat c.me p v) (fun bs => evalS c rest (bs ++ env)) stuck
/-- The first arm whose pattern fits. -/
def evalA (c : Ctx) : Arms → W → Env → Res
  | .nil, _, _ => stuck
  | .cons p e arms, v, env =>
    fits (bindPat c.me p v) (fun bs => scope env.length (eval c e (bs ++ env))) (evalA c arms v env)
/-- A value is written to a place. -/
def store (c : Ctx) : Expr → W → Env → O Env
  | .path p, v, env =>
    match p with
    | [x] => need (set x v env) .ok
    | _ => stuck
  | .field e f, v, env =>
    andThen (eval c e env) fun r =>
      match r.1 with
      | .val w => andThen (setField w f v) fun w => store c e w env
      | _ => stuck
  | .index e i, v, env =>
    andThen (eval c e env) fun r => andThen (eval c i env) fun s =>
      match r.1, s.1 with
      | .val old, .val i => andThen (setIndex old i v) fun w => store c e w env
      | _, _ => stuck
  | _, _, _ => stuck
end

/-- A function is called: result and the value of `self` at the end. -/
def runFn (c : Ctx) (f : Fn) (args : List W) : O (W × W) :=
  if f.params.length = args.length then
    andThen (evalS c f.body (f.params.zip args)) fun r =>
      match r.1 with
      | .val v => andThen (coerce c f.ret v) fun w => .ok (w, (get i!"self" r.2).getD .unit)
      | .ret v => andThen (coerce c f.ret v) fun w => .ok (w, (get i!"self" r.2).getD .unit)
  else stuck

/-- A function is called: result and the value of the last parameter at the end. -/
def runMut (c : Ctx) (f : Fn) (args : List W) : O (W × W) :=
  if f.params.length = args.length then
    andThen (evalS c f.body (f.params.zip args)) fun r =>
      match r.1 with
      | .val v => andThen (coerce c f.ret v) fun w => .ok (w, (get (f.params.getLastD 0) r.2).getD .unit)
      | .ret v => andThen (coerce c f.ret v) fun w => .ok (w, (get (f.params.getLastD 0) r.2).getD .unit)
  else stuck

/-! ## Programs -/

/-- The functions of the name in the `impl`s of the type whose trait is mentioned; type 0: of all modules.  -/
def candidates (impls : List Impl) (tags : List Name) (ty name : Name) : List Fn :=
  impls.flatMap fun i =>
    if (i.type == ty || (ty == 0 && i.trait == [modName])) && tags.all i.trait.contains then
      i.fns.filter (·.name == name)
    else []

/-- A function of the program, if there is only one. -/
def lookup (impls : List Impl) (tags : List Name) (ty name : Name) : Option Fn :=
  match candidates impls tags ty name with
  | [f] => some f
  | _ => none

/-- A function of the program is called; calls are nested at most `depth` times.  The second value is that of
`self` or, if it is asked for, of the last argument. -/
def runWith (p : Prog) (m : Mach) : Nat → Bool → List Name → Name → Name → List W → O (W × W)
  | 0, _, _, _, _, _ => .error .fuel
  | depth + 1, last, tags, ty, name, args =>
    match lookup p.impls tags ty name with
    | some f =>
      if last then runMut ⟨p, m, ty, runWith p m depth false, runWith p m depth true []⟩ f args
      else runFn ⟨p, m, ty, runWith p m depth false, runWith p m depth true []⟩ f args
    | none => stuck

/-- A function of the program is called: result and new value of `self`. -/
def run (p : Prog) (m : Mach) (depth : Nat) (tags : List Name) (ty name : Name) (args : List W) : O (W × W) :=
  runWith p m depth false tags ty name args

/-- A method of the program is called: result and new value of the last argument. -/
def change (p : Prog) (m : Mach) (depth : Nat) (ty name : Name) (args : List W) : O (W × W) :=
  runWith p m depth true [] ty name args

end Ublox.Exec
