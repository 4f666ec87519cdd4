import Verif.Model.Code
import Verif.Model.Parser

/-!
# What functions written in Rust do

The meaning of the part of Rust that `Verif.Model.Code` reads, as far as `ublox/src/parser.rs` needs it
(the rest is in `Verif.Model.Exec`).  No code of `/repo`.  Simplifications:

* All integers are natural numbers.  `+` and `-` are checked against `usize`, because the only numbers that
  the file adds or subtracts with these operators are of type `usize`; bytes are added with
  `overflowing_add`, which therefore is that of `u8`.
* A reference is the value it refers to.  A method called on a place may change its receiver and the new
  value is written back to the place (`&mut self`).  `&mut self.buf` that is stored in a structure hands the
  buffer over, and `drop` hands it back.
* Memory is not limited, except that a `Vec` holds at most `isize::MAX` bytes.
-/

namespace Ublox.Code

open UnderlyingBuffer

/-- Values.  `T`: underlying buffers, `P`: packets. -/
inductive V (T P : Type) where
  | unit
  | bool (b : Bool)
  | int (n : Nat)
  | str (s : String)
  /-- slices of bytes, arrays of bytes and `Vec<u8>` -/
  | bytes (bs : Bytes)
  /-- a value of the type parameter `T: UnderlyingBuffer` -/
  | buf (t : T)
  | packet (p : P)
  | pair (a b : V T P)
  /-- a structure, or a variant of an enumeration that has named fields; the name is a path -/
  | struct (name : List Name) (fields : List (Name × V T P))
  /-- `Some(x)`, `Ok(x)`, `Err(x)` -/
  | ctor (name : Name) (arg : V T P)
  | none
  | range (lo hi : Nat)
  | rangeFrom (lo : Nat)
  | rangeTo (hi : Nat)
  /-- a pointer into the bytes that are stored in a variable, or in a field of a field .. of it -/
  | ptr (x : Name) (fields : List Name) (off : Nat)

/-- Reasons for which there is no result -/
inductive Stop where
  | panic (p : Panic)
  /-- a `while` loop did not end within the number of rounds allowed, or calls are nested too deeply -/
  | fuel
  deriving DecidableEq, Repr

/-- Result, or the reason why there is none. -/
abbrev O (α : Type) := Except Stop α

/-- How an expression ends: with a value, `return`, `break`, `continue`. -/
inductive Out (T P : Type) where
  | val (v : V T P)
  | ret (v : V T P)
  | brk
  | cont

/-- Variables; the innermost comes first. -/
abbrev Env (T P : Type) := List (Name × V T P)

/-- Result of an expression. -/
abbrev Res (T P : Type) := O (Out T P × Env T P)

/-- The program and the machine that an expression is evaluated in. -/
structure Ctx (T P : Type) where
  /-- `usize::MAX` -/
  M : Nat
  /-- `match_packet` and `MAX_PAYLOAD_LEN` -/
  D : Dispatch P
  /-- the type that `Self` stands for -/
  me : Name
  /-- how many rounds of a `while` loop are allowed -/
  rounds : Nat
  /-- the functions of the file: is it `Index<Range<usize>>`, type, name, arguments; result and new value
  of `self` -/
  user : Bool → Name → Name → List (V T P) → O (V T P × V T P)

/-- The model was asked for something that the compiler refuses, or that is not supported. -/
def stuck {α : Type} : O α := .error (.panic .illTyped)

/-- A result that may be a panic, and what is done with it. -/
def lift {α β : Type} (x : R α) (k : α → O β) : O β :=
  match x with
  | .ok a => k a
  | .error p => .error (.panic p)

/-- One computation after another. -/
def andThen {α β : Type} (x : O α) (k : α → O β) : O β :=
  match x with
  | .ok a => k a
  | .error e => .error e

section

variable {T P : Type}

/-- Evaluation goes on with the value, unless it was `return`, `break` or `continue`. -/
def bindV (r : Res T P) (k : V T P → Env T P → Res T P) : Res T P :=
  match r with
  | .ok (.val v, env) => k v env
  | .ok (o, env) => .ok (o, env)
  | .error e => .error e

/-- At the end of a block only `n` variables remain. -/
def scope (n : Nat) (r : Res T P) : Res T P :=
  match r with
  | .ok (o, env) => .ok (o, env.drop (env.length - n))
  | .error e => .error e

/-- The value under a name. -/
def get (x : Name) : List (Name × V T P) → Option (V T P)
  | [] => .none
  | (y, v) :: env => if y = x then some v else get x env

/-- The first value under a name is replaced. -/
def set (x : Name) (v : V T P) : List (Name × V T P) → Option (List (Name × V T P))
  | [] => .none
  | (y, w) :: env => if y = x then some ((y, v) :: env) else (set x v env).map ((y, w) :: ·)

/-- `v.name` -/
def getField (v : V T P) (name : Name) : O (V T P) :=
  match v with
  | .struct _ fs => match get name fs with | some w => .ok w | _ => stuck
  | .pair a b => if name = i!"0" then .ok a else if name = i!"1" then .ok b else stuck
  | .range lo hi => if name = i!"start" then .ok (.int lo) else if name = i!"end" then .ok (.int hi) else stuck
  | _ => stuck

/-- `v.name = w` -/
def setField (v : V T P) (name : Name) (w : V T P) : O (V T P) :=
  match v with
  | .struct s fs => match set name w fs with | some fs => .ok (.struct s fs) | _ => stuck
  | _ => stuck

/-- The value of a field of a field .. -/
def getPath (v : V T P) : List Name → O (V T P)
  | [] => .ok v
  | f :: fs => andThen (getField v f) fun w => getPath w fs

/-- The same field is replaced. -/
def setPath (v : V T P) (new : V T P) : List Name → O (V T P)
  | [] => .ok new
  | f :: fs => andThen (getField v f) fun w => andThen (setPath w new fs) fun w => setField v f w

/-- `x[i]` and `x[lo..hi]` on slices -/
def indexBytes (bs : Bytes) (i : V T P) : O (V T P) :=
  match i with
  | .int i => lift (getByte bs i) fun b => .ok (.int b.toNat)
  | .range lo hi => lift (sliceRange bs lo hi) fun b => .ok (.bytes b)
  | .rangeFrom lo => lift (sliceFrom bs lo) fun b => .ok (.bytes b)
  | .rangeTo hi => lift (sliceRange bs 0 hi) fun b => .ok (.bytes b)
  | _ => stuck

/-- The elements of an array of bytes. -/
def byteList : List (V T P) → Option Bytes
  | [] => some []
  | .int n :: vs => if n < 256 then (byteList vs).map (UInt8.ofNat n :: ·) else .none
  | _ => .none

/-- `==` -/
def equal : V T P → V T P → Option Bool
  | .int a, .int b => some (decide (a = b))
  | .pair (.int a) (.int b), .pair (.int c) (.int d) => some (decide (a = c ∧ b = d))
  | _, _ => .none

/-- The binary operators, `M` being `usize::MAX`. -/
def binary (M : Nat) (op : BinOp) (a b : V T P) : O (V T P) :=
  match op with
  | .add => match a, b with | .int a, .int b => lift (uadd M a b) fun n => .ok (.int n) | _, _ => stuck
  | .sub => match a, b with | .int a, .int b => lift (usub a b) fun n => .ok (.int n) | _, _ => stuck
  | .eq => match equal a b with | some x => .ok (.bool x) | _ => stuck
  | .ne => match equal a b with | some x => .ok (.bool (!x)) | _ => stuck
  | .lt => match a, b with | .int a, .int b => .ok (.bool (decide (a < b))) | _, _ => stuck
  | .gt => match a, b with | .int a, .int b => .ok (.bool (decide (a > b))) | _, _ => stuck
  | .le => match a, b with | .int a, .int b => .ok (.bool (decide (a ≤ b))) | _, _ => stuck
  | .ge => match a, b with | .int a, .int b => .ok (.bool (decide (a ≥ b))) | _, _ => stuck
  | _ => stuck

/-- The errors of the file as values: `ublox/src/error.rs:23-41`. -/
def errV : ParserError → V T P
  | .invalidChecksum e g => .struct [i!"ParserError", i!"InvalidChecksum"] [(i!"expect", .int e.toNat), (i!"got", .int g.toNat)]
  | .invalidField p f => .struct [i!"ParserError", i!"InvalidField"] [(i!"packet", .str p), (i!"field", .str f)]
  | .invalidPacketLen p e g =>
    .struct [i!"ParserError", i!"InvalidPacketLen"] [(i!"packet", .str p), (i!"expect", .int e), (i!"got", .int g)]
  | .outOfMemory n => .struct [i!"ParserError", i!"OutOfMemory"] [(i!"required_size", .int n)]

/-- `Option<usize>` -/
def optV : Option Nat → V T P
  | some n => .ctor i!"Some" (.int n)
  | .none => .none

/-- `Result<PacketRef, ParserError>` -/
def resV : Except ParserError P → V T P
  | .ok p => .ctor i!"Ok" (.packet p)
  | .error e => .ctor i!"Err" (errV e)

/-- Methods of integers: `core` of Rust -/
def intMethod (n : Nat) (name : Name) (args : List (V T P)) : O (V T P) :=
  match args with
  | [] => if name = i!"into" then .ok (.int n) else stuck
  | [.int k] =>
    if name = i!"saturating_sub" then .ok (.int (n - k))
    else if name = i!"overflowing_add" then .ok (.pair (.int ((n + k) % 256)) (.bool (decide (256 ≤ n + k))))
    else stuck
  | _ => stuck

/-- Methods of slices and of `Vec<u8>`: `core` and `alloc` of Rust.  Result and, if it changes, the new value. -/
def bytesMethod (M : Nat) (bs : Bytes) (name : Name) (args : List (V T P)) : O (V T P × Option (V T P)) :=
  match args with
  | [] =>
    if name = i!"len" then .ok (.int bs.length, .none)
    else if name = i!"iter" then .ok (.bytes bs, .none)
    else if name = i!"clear" then .ok (.unit, some (.bytes []))
    else stuck
  | [.bytes cs] =>
    if name = i!"extend_from_slice" then
      if bs.length + cs.length ≤ M / 2 then .ok (.unit, some (.bytes (bs ++ cs))) else .error (.panic .capacity)
    else if name = i!"copy_from_slice" then
      if bs.length = cs.length then .ok (.unit, some (.bytes cs)) else .error (.panic .slice)
    else stuck
  | [.range lo hi] =>
    if name = i!"index" then andThen (indexBytes bs (.range lo hi)) fun v => .ok (v, .none)
    else if name = i!"drain" then
      if lo ≤ hi ∧ hi ≤ bs.length then .ok (.unit, some (.bytes (bs.take lo ++ bs.drop hi)))
      else .error (.panic .slice)
    else stuck
  | _ => stuck

variable [UnderlyingBuffer T]

/-- Methods of the trait `UnderlyingBuffer`; `is_empty` is the default one. -/
def bufMethod (c : Ctx T P) (t : T) (name : Name) (args : List (V T P)) : O (V T P × Option (V T P)) :=
  match args with
  | [] =>
    if name = i!"len" then .ok (.int (len t), .none)
    else if name = i!"max_capacity" then .ok (.int (maxCapacity t), .none)
    else if name = i!"clear" then .ok (.unit, some (.buf (clear t)))
    else if name = i!"is_empty" then
      andThen (c.user false i!"UnderlyingBuffer" i!"is_empty" [.buf t]) fun r => .ok (r.1, .none)
    else stuck
  | [.int n] =>
    if name = i!"drain" then lift (drain t n) fun t => .ok (.unit, some (.buf t))
    else if name = i!"find" then lift (find t (UInt8.ofNat n)) fun i => .ok (optV i, .none)
    else stuck
  | [.bytes bs] =>
    if name = i!"extend_from_slice" then lift (extendFromSlice t bs) fun r => .ok (.int r.2, some (.buf r.1))
    else stuck
  | _ => stuck

/-- A method: result and, if it may change, the new value of the receiver. -/
def method (c : Ctx T P) (v : V T P) (name : Name) (args : List (V T P)) : O (V T P × Option (V T P)) :=
  match v with
  | .struct [s] fs => andThen (c.user false s name (.struct [s] fs :: args)) fun r => .ok (r.1, some r.2)
  | .buf t => bufMethod c t name args
  | .bytes bs => bytesMethod c.M bs name args
  | .int n => andThen (intMethod n name args) fun v => .ok (v, .none)
  | .ptr x fs off =>
    match args with
    | [.int n] => if name = i!"add" then .ok (.ptr x fs (off + n), .none) else stuck
    | _ => stuck
  | _ => stuck

/-- `v[i]` -/
def indexV (c : Ctx T P) (v i : V T P) : O (V T P) :=
  match v with
  | .bytes bs => indexBytes bs i
  | .buf t =>
    match i with
    | .int i => lift (index t i) fun b => .ok (.int b.toNat)
    | .range lo hi => lift (range t lo hi) fun b => .ok (.bytes b)
    | _ => stuck
  | .struct [s] fs =>
    match i with
    | .int i => andThen (c.user false s i!"index" [.struct [s] fs, .int i]) fun r => .ok r.1
    | .range lo hi => andThen (c.user true s i!"index" [.struct [s] fs, .range lo hi]) fun r => .ok r.1
    | _ => stuck
  | _ => stuck

/-- `core::ptr::copy(src, dst, n)` inside one allocation; reading or writing outside of it is undefined. -/
def ptrCopy (mem : Bytes) (src dst n : Nat) : R Bytes :=
  if src + n ≤ mem.length ∧ dst + n ≤ mem.length then
    .ok (mem.take dst ++ (mem.drop src).take n ++ mem.drop (dst + n))
  else .error .undefinedBehaviour

omit [UnderlyingBuffer T] in
/-- `core::ptr::copy(src, dst, n)` on pointers into the same variable -/
def ptrCall (args : List (V T P)) (env : Env T P) : Res T P :=
  match args with
  | [.ptr x fs src, .ptr y gs dst, .int n] =>
    if x = y ∧ fs = gs then
      match get x env with
      | some v =>
        andThen (getPath v fs) fun w =>
          match w with
          | .bytes mem =>
            lift (ptrCopy mem src dst n) fun mem =>
              andThen (setPath v (.bytes mem) fs) fun v =>
                match set x v env with
                | some env => .ok (.val .unit, env)
                | _ => stuck
          | _ => stuck
      | _ => stuck
    else stuck
  | _ => stuck

omit [UnderlyingBuffer T] in
/-- A function of the language or of a library, called by its path. -/
def builtin (D : Dispatch P) (f : List Name) (args : List (V T P)) : Option (V T P) :=
  match args with
  | [] => if f = [i!"Vec", i!"new"] then some (.bytes []) else .none
  | [v] =>
    if f = [i!"Some"] then some (.ctor i!"Some" v)
    else if f = [i!"Ok"] then some (.ctor i!"Ok" v)
    else if f = [i!"Err"] then some (.ctor i!"Err" v)
    else
      match v with
      | .int n => if f = [i!"usize", i!"from"] then some (.int n) else .none
      | .bytes [lo, hi] => if f = [i!"u16", i!"from_le_bytes"] then some (.int (le16 lo hi)) else .none
      | _ => .none
  | [.int a, .int b] => if f = [i!"core", i!"cmp", i!"min"] then some (.int (min a b)) else .none
  | [.int a, .int b, .bytes bs] =>
    if f = [i!"match_packet"] then some (resV (D.matchPacket (UInt8.ofNat a) (UInt8.ofNat b) bs)) else .none
  | _ => .none

/-- A function called by its path. -/
def call (c : Ctx T P) (f : List Name) (args : List (V T P)) (env : Env T P) : Res T P :=
  if f = [i!"core", i!"ptr", i!"copy"] then ptrCall args env
  else
    match builtin c.D f args with
    | some v => .ok (.val v, env)
    | _ =>
      match f with
      | [ty, g] => andThen (c.user false (if ty = i!"Self" then c.me else ty) g args) fun r => .ok (.val r.1, env)
      | _ => stuck

omit [UnderlyingBuffer T] in
/-- A constant. -/
def constV (c : Ctx T P) (p : List Name) : O (V T P) :=
  if p = [i!"SYNC_CHAR_1"] then .ok (.int SYNC_CHAR_1.toNat)
  else if p = [i!"SYNC_CHAR_2"] then .ok (.int SYNC_CHAR_2.toNat)
  else if p = [i!"MAX_PAYLOAD_LEN"] then .ok (.int c.D.maxPayloadLen)
  else if p = [i!"core", i!"usize", i!"MAX"] then .ok (.int c.M)
  else if p = [i!"None"] then .ok .none
  else if p = [i!"true"] then .ok (.bool true)
  else if p = [i!"false"] then .ok (.bool false)
  else stuck

omit [UnderlyingBuffer T] in
/-- A variable or a constant. -/
def pathV (c : Ctx T P) (p : List Name) (env : Env T P) : O (V T P) :=
  match p with
  | [x] => match get x env with | some v => .ok v | _ => constV c [x]
  | _ => constV c p

omit [UnderlyingBuffer T] in
/-- What a pattern binds, if it fits. -/
def bindPat : Pat → V T P → Option (Env T P)
  | .name x, v => some [(x, v)]
  | .pair x y, .pair a b => some [(y, b), (x, a)]
  | .ctor c [x], .ctor c' v => if c = c' then some [(x, v)] else .none
  | .ctor c [], .none => if c = i!"None" then some [] else .none
  | _, _ => .none

omit [UnderlyingBuffer T] in
/-- `(lo..lo + n).find(f)`: the first number that `f` accepts -/
def findFrom (f : V T P → O (V T P)) : Nat → Nat → O (Option Nat)
  | _, 0 => .ok .none
  | lo, n + 1 =>
    andThen (f (.int lo)) fun r =>
      match r with
      | .bool true => .ok (some lo)
      | .bool false => findFrom f (lo + 1) n
      | _ => stuck

omit [UnderlyingBuffer T] in
/-- `bytes.iter().position(f)`: how many elements come before the first that `f` accepts -/
def position (f : V T P → O (V T P)) : Nat → Bytes → O (Option Nat)
  | _, [] => .ok .none
  | i, b :: bs =>
    andThen (f (.int b.toNat)) fun r =>
      match r with
      | .bool true => .ok (some i)
      | .bool false => position f (i + 1) bs
      | _ => stuck

omit [UnderlyingBuffer T] in
/-- A method that calls a function. -/
def methodFn (v : V T P) (name : Name) (f : V T P → O (V T P)) : O (V T P) :=
  match v with
  | .range lo hi => if name = i!"find" then andThen (findFrom f lo (hi - lo)) fun r => .ok (optV r) else stuck
  | .bytes bs => if name = i!"position" then andThen (position f 0 bs) fun r => .ok (optV r) else stuck
  | _ => stuck

omit [UnderlyingBuffer T] in
/-- The values that `for` goes through. -/
def elems : V T P → Option (List (V T P))
  | .range lo hi => some ((List.range' lo (hi - lo)).map .int)
  | .bytes bs => some (bs.map fun b => .int b.toNat)
  | _ => .none

omit [UnderlyingBuffer T] in
/-- `for` -/
def forLoop (body : V T P → Env T P → Res T P) : List (V T P) → Env T P → Res T P
  | [], env => .ok (.val .unit, env)
  | v :: vs, env =>
    match body v env with
    | .ok (.val _, env) => forLoop body vs env
    | .ok (.cont, env) => forLoop body vs env
    | .ok (.brk, env) => .ok (.val .unit, env)
    | .ok (.ret v, env) => .ok (.ret v, env)
    | .error e => .error e

omit [UnderlyingBuffer T] in
/-- `while`, at most so many rounds -/
def whileLoop (cond body : Env T P → Res T P) : Nat → Env T P → Res T P
  | 0, _ => .error .fuel
  | n + 1, env =>
    bindV (cond env) fun v env =>
      match v with
      | .bool true =>
        match body env with
        | .ok (.val _, env) => whileLoop cond body n env
        | .ok (.cont, env) => whileLoop cond body n env
        | .ok (.brk, env) => .ok (.val .unit, env)
        | .ok (.ret v, env) => .ok (.ret v, env)
        | .error e => .error e
      | .bool false => .ok (.val .unit, env)
      | _ => stuck

/-- The variable and the fields that an expression stands for. -/
def placeOf : Expr → Option (Name × List Name)
  | .path [x] => some (x, [])
  | .field e f => (placeOf e).map fun r => (r.1, r.2 ++ [f])
  | _ => .none

/-- The name of a structure or variant. -/
def structName (me : Name) (p : List Name) : List Name := if p = [i!"Self"] then [me] else p

mutual
/-- The value of an expression.  Operands are evaluated from the left, the receiver of a method first. -/
def eval (c : Ctx T P) : Expr → Env T P → Res T P
  | .path p, env => andThen (pathV c p env) fun v => .ok (.val v, env)
  | .int n, env => .ok (.val (.int n), env)
  | .field e f, env =>
    bindV (eval c e env) fun v env => andThen (getField v f) fun w => .ok (.val w, env)
  | .index e i, env =>
    bindV (eval c e env) fun v env => bindV (eval c i env) fun i env =>
      andThen (indexV c v i) fun w => .ok (.val w, env)
  | .range lo hi, env =>
    bindV (eval c lo env) fun a env => bindV (eval c hi env) fun b env =>
      match a, b with
      | .int a, .int b => .ok (.val (.range a b), env)
      | _, _ => stuck
  | .rangeFrom lo, env =>
    bindV (eval c lo env) fun a env =>
      match a with
      | .int a => .ok (.val (.rangeFrom a), env)
      | _ => stuck
  | .rangeTo hi, env =>
    bindV (eval c hi env) fun a env =>
      match a with
      | .int a => .ok (.val (.rangeTo a), env)
      | _ => stuck
  | .array es, env =>
    evals c es env fun vs env =>
      match byteList vs with
      | some bs => .ok (.val (.bytes bs), env)
      | _ => stuck
  | .tuple es, env =>
    evals c es env fun vs env =>
      match vs with
      | [] => .ok (.val .unit, env)
      | [a, b] => .ok (.val (.pair a b), env)
      | _ => stuck
  | .un op e, env =>
    bindV (eval c e env) fun v env =>
      match op with
      | .not =>
        match v with
        | .bool b => .ok (.val (.bool (!b)), env)
        | _ => stuck
      | _ => .ok (.val v, env)
  | .bin op a b, env =>
    bindV (eval c a env) fun x env => bindV (eval c b env) fun y env =>
      andThen (binary c.M op x y) fun z => .ok (.val z, env)
  | .assign a b, env =>
    bindV (eval c b env) fun v env => andThen (store c a v env) fun env => .ok (.val .unit, env)
  | .addAssign a b, env =>
    bindV (eval c b env) fun y env => bindV (eval c a env) fun x env =>
      andThen (binary c.M .add x y) fun z => andThen (store c a z env) fun env => .ok (.val .unit, env)
  | .call f args, env => evals c args env fun vs env => call c f vs env
  | .meth e name args, env =>
    if name = i!"as_mut_ptr" then
      match placeOf e with
      | some (x, fs) => .ok (.val (.ptr x fs 0), env)
      | _ => stuck
    else
      bindV (eval c e env) fun v env => evals c args env fun vs env =>
        andThen (method c v name vs) fun r =>
          match r.2 with
          | .none => .ok (.val r.1, env)
          | some new => andThen (store c e new env) fun env => .ok (.val r.1, env)
  | .methFn e name x body, env =>
    bindV (eval c e env) fun v env =>
      andThen (methodFn v name fun w =>
        andThen (eval c body ((x, w) :: env)) fun r =>
          match r.1 with
          | .val u => .ok u
          | _ => stuck) fun w => .ok (.val w, env)
  | .struct p fs, env => evalF c fs env fun vs env => .ok (.val (.struct (structName c.me p) vs), env)
  | .ite b t e, env =>
    bindV (eval c b env) fun v env =>
      match v with
      | .bool b => if b then scope env.length (evalS c t env) else scope env.length (evalS c e env)
      | _ => stuck
  | .match_ e arms, env => bindV (eval c e env) fun v env => evalA c arms v env
  | .while_ b body, env =>
    whileLoop (fun env => eval c b env) (fun env => scope env.length (evalS c body env)) c.rounds env
  | .for_ x e body, env =>
    bindV (eval c e env) fun v env =>
      match elems v with
      | some vs => forLoop (fun v env => scope env.length (evalS c body ((x, v) :: env))) vs env
      | _ => stuck
  | .block b, env => scope env.length (evalS c b env)
  | .return_ e, env => bindV (eval c e env) fun v env => .ok (.ret v, env)
  | .break_, env => .ok (.brk, env)
  | .continue_, env => .ok (.cont, env)
  | .panic, _ => .error (.panic .explicit)
  | .float .., _ => stuck
  | .str _, _ => stuck
  | .cast .., _ => stuck
  | .try_ _, _ => stuck
  | .orAssign .., _ => stuck
/-- The values of expressions, and what is done with them. -/
def evals (c : Ctx T P) : Exprs → Env T P → (List (V T P) → Env T P → Res T P) → Res T P
  | .nil, env, k => k [] env
  | .cons e es, env, k =>
    bindV (eval c e env) fun v env => evals c es env fun vs env => k (v :: vs) env
/-- The fields of a structure. -/
def evalF (c : Ctx T P) : Fields → Env T P → (List (Name × V T P) → Env T P → Res T P) → Res T P
  | .nil, env, k => k [] env
  | .cons name e fs, env, k =>
    bindV (eval c e env) fun v env => evalF c fs env fun vs env => k ((name, v) :: vs) env
/-- The value of a block. -/
def evalS (c : Ctx T P) : Stmts → Env T P → Res T P
  | .nil, env => .ok (.val .unit, env)
  | .last e, env => eval c e env
  | .semi e rest, env => bindV (eval c e env) fun _ env => evalS c rest env
  | .let_ p e rest, env =>
    bindV (eval c e env) fun v env =>
      match bindPat p v with
      | some bs => evalS c rest (bs ++ env)
      | _ => stuck
/-- The first arm whose pattern fits. -/
def evalA (c : Ctx T P) : Arms → V T P → Env T P → Res T P
  | .nil, _, _ => stuck
  | .cons p e arms, v, env =>
    match bindPat p v with
    | some bs => scope env.length (eval c e (bs ++ env))
    | _ => evalA c arms v env
/-- A value is written to a place. -/
def store (c : Ctx T P) : Expr → V T P → Env T P → O (Env T P)
  | .path p, v, env =>
    match p with
    | [x] => match set x v env with | some env => .ok env | _ => stuck
    | _ => stuck
  | .field e f, v, env =>
    andThen (eval c e env) fun r =>
      match r.1 with
      | .val w => andThen (setField w f v) fun w => store c e w env
      | _ => stuck
  | .index e i, v, env =>
    andThen (eval c e env) fun r => andThen (eval c i env) fun s =>
      match r.1, s.1, v with
      | .val (.bytes old), .val (.range lo hi), .bytes new =>
        store c e (.bytes (old.take lo ++ new ++ old.drop hi)) env
      | _, _, _ => stuck
  | _, _, _ => stuck
end

/-- A function is called: result and the value of `self` at the end. -/
def runFn (c : Ctx T P) (f : Fn) (args : List (V T P)) : O (V T P × V T P) :=
  if f.params.length = args.length then
    andThen (evalS c f.body (f.params.zip args)) fun r =>
      match r.1 with
      | .val v => .ok (v, (get i!"self" r.2).getD .unit)
      | .ret v => .ok (v, (get i!"self" r.2).getD .unit)
      | _ => stuck
  else stuck

end

/-! ## Programs -/

/-- Does the `impl` contain what is asked for: the type fits, and of the two `impl`s of `Index` it is the
right one? -/
def Impl.fits (i : Impl) (range : Bool) (ty : Name) : Bool :=
  i.type == ty && (!i.trait.contains i!"Index" || i.trait.contains i!"Range" == range)

/-- A function of the program. -/
def lookup (prog : List Impl) (range : Bool) (ty name : Name) : Option Fn :=
  prog.findSome? fun i => if i.fits range ty then i.fns.find? (·.name == name) else none

/-- A function of the program is called; calls are nested at most `depth` times, and loops have at most
`rounds` rounds. -/
def run {T P : Type} [UnderlyingBuffer T] (prog : List Impl) (M : Nat) (D : Dispatch P) (rounds : Nat) :
    Nat → Bool → Name → Name → List (V T P) → O (V T P × V T P)
  | 0, _, _, _, _ => .error .fuel
  | depth + 1, range, ty, name, args =>
    match lookup prog range ty name with
    | some f => runFn ⟨M, D, ty, rounds, run prog M D rounds depth⟩ f args
    | none => stuck

end Ublox.Code
