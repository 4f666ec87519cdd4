import Verif.Model.Quote

/-!
# The methods of the descriptions, from the text of `types.rs`

`ublox_derive/src/types.rs` has the methods of the descriptions that the generators of `output.rs` call, and
`PackFieldMapDesc::new`, which completes a description; `ublox_derive/src/lib.rs:185-191` has two functions that they
call.  Here are a grammar and an evaluator for the Rust that they are written in; structures, enumerations, `use`
and attributes are left out.

Simplified: references and values are not distinguished; there are no types, except that a structure knows
its name; integers are natural numbers, and `checked_add` knows the largest `usize`.
-/

namespace Ublox.Meth

open Code (Tk Name name pathRest skipType skipSig params skipGroup skipGenerics)
open Quote (Piece Part O Stop stuck tyToks scaleTok wordsToks fnToks)
open Syn (Ty Word)

/-! ## Syntax -/

/-- Patterns -/
inductive Pt where
  | name (x : Name)
  /-- `Some(x)`, `PayloadLen::Fixed(x)`, `syn::Type::Array(x)` -/
  | ctor (p : List Name) (x : Name)

mutual
/-- Expressions -/
inductive Ex where
  | path (p : List Name)
  | num (n : Nat)
  | str (cs : List Nat)
  | quote (ps : List Part)
  | parse (ts : List Tk)
  | formatIdent (pre suf : List Nat) (e : Ex)
  | matches (e : Ex) (p : Pt) (cond : Ex)
  | lit (p : List Name) (fs : Flds)
  | field (e : Ex) (n : Name)
  | call (f : List Name) (args : Exs)
  | meth (e : Ex) (n : Name) (args : Exs)
  /-- a method whose last argument is a closure -/
  | methFn (e : Ex) (n : Name) (args : Exs) (xs : List Name) (body : Ex)
  | try_ (e : Ex)
  | not (e : Ex)
  | eq (a b : Ex)
  | and (a b : Ex)
  | or (a b : Ex)
  | assign (x : Name) (e : Ex)
  | ite (c : Ex) (t e : Sts)
  | ifLet (p : Pt) (c : Ex) (t e : Sts)
  | for_ (x : Name) (e : Ex) (b : Sts)
  | block (b : Sts)
  | return_ (e : Ex)
/-- Lists of expressions -/
inductive Exs where
  | nil
  | cons (e : Ex) (es : Exs)
/-- The members of a structure -/
inductive Flds where
  | nil
  | cons (n : Name) (e : Ex) (fs : Flds)
/-- Statements of a block -/
inductive Sts where
  | nil
  | last (e : Ex)
  | semi (e : Ex) (rest : Sts)
  | let_ (x : Name) (e : Ex) (rest : Sts)
end

/-- A function; `owner` is the type of the `impl` around it, 0 if there is none. -/
structure Fn where
  owner : Name
  name : Name
  params : List Name
  body : Sts

/-! ## Grammar -/

/-- A name in a pattern -/
def patName : List Tk → Option (Name × List Tk)
  | .kw .mut_ :: .id cs :: ts => some (name cs, ts)
  | .id cs :: .id ds :: ts => if Macro.sameCodes cs Quote.refCodes then some (name ds, ts) else none
  | .id cs :: ts => some (name cs, ts)
  | _ => none

/-- A pattern -/
def pat : List Tk → Option (Pt × List Tk)
  | .id cs :: ts =>
    let r := pathRest 8 ts
    match r.2 with
    | .p 40 :: ts => do
      let (x, ts) ← patName ts
      match ts with
      | .p 41 :: ts => some (.ctor (name cs :: r.1) x, ts)
      | _ => none
    | ts => if r.1.isEmpty then some (.name (name cs), ts) else none
  | _ => none

/-- The parameters of a closure, from behind the first `|`. -/
def closureParams : List Tk → Option (List Name × List Tk)
  | .p 124 :: ts => some ([], ts)
  | .id cs :: .p 124 :: ts => some ([name cs], ts)
  | _ => none

/-- Does the last segment of a path begin with a capital letter?  A name is a number to the base 256. -/
def capitalName (fuel n : Nat) : Bool :=
  match fuel with
  | 0 => false
  | fuel + 1 => if Nat.ble 256 n then capitalName fuel (n / 256) else Nat.ble 65 n && Nat.ble n 90

/-- The last segment -/
def lastName : Name → List Name → Name
  | x, [] => x
  | _, y :: ys => lastName y ys

mutual
/-- An expression.  `fuel` bounds the depth. -/
def expr : Nat → List Tk → Option (Ex × List Tk)
  | 0, _ => none
  | fuel + 1, ts => do
    let (a, ts) ← orExpr fuel ts
    match a, ts with
    | .path [x], .p 61 :: ts =>
      let (b, ts) ← expr fuel ts
      return (.assign x b, ts)
    | a, ts => some (a, ts)
/-- `a || b` -/
def orExpr : Nat → List Tk → Option (Ex × List Tk)
  | 0, _ => none
  | fuel + 1, ts => do
    let (a, ts) ← andExpr fuel ts
    match ts with
    | .p 124 :: .p 124 :: ts =>
      let (b, ts) ← orExpr fuel ts
      return (.or a b, ts)
    | _ => some (a, ts)
/-- `a && b` -/
def andExpr : Nat → List Tk → Option (Ex × List Tk)
  | 0, _ => none
  | fuel + 1, ts => do
    let (a, ts) ← cmpExpr fuel ts
    match ts with
    | .p 38 :: .p 38 :: ts =>
      let (b, ts) ← andExpr fuel ts
      return (.and a b, ts)
    | _ => some (a, ts)
/-- `a == b` -/
def cmpExpr : Nat → List Tk → Option (Ex × List Tk)
  | 0, _ => none
  | fuel + 1, ts => do
    let (a, ts) ← unary fuel ts
    match ts with
    | .p 61 :: .p 61 :: ts =>
      let (b, ts) ← unary fuel ts
      return (.eq a b, ts)
    | _ => some (a, ts)
/-- Prefix operators -/
def unary : Nat → List Tk → Option (Ex × List Tk)
  | 0, _ => none
  | fuel + 1, .p 33 :: ts => do
    let (a, ts) ← unary fuel ts
    return (.not a, ts)
  | fuel + 1, .p 42 :: ts => unary fuel ts
  | fuel + 1, .p 38 :: ts => unary fuel ts
  | fuel + 1, ts => do
    let (a, ts) ← primary fuel ts
    suffixes fuel a ts
/-- Members, methods and `?` behind an expression -/
def suffixes : Nat → Ex → List Tk → Option (Ex × List Tk)
  | 0, _, _ => none
  | fuel + 1, a, ts =>
    match ts with
    | .p 46 :: .id cs :: .p 40 :: ts => do
      let (as, f, ts) ← args fuel ts
      match f with
      | none => suffixes fuel (.meth a (name cs) as) ts
      | some (xs, b) => suffixes fuel (.methFn a (name cs) as xs b) ts
    | .p 46 :: .id cs :: ts => suffixes fuel (.field a (name cs)) ts
    | .p 63 :: ts => suffixes fuel (.try_ a) ts
    | _ => some (a, ts)
/-- Expressions separated by commas, and possibly a closure at the end, up to the closing bracket -/
def args : Nat → List Tk → Option (Exs × Option (List Name × Ex) × List Tk)
  | 0, _ => none
  | _ + 1, .p 41 :: ts => some (.nil, none, ts)
  | fuel + 1, .p 124 :: ts => do
    let (xs, ts) ← closureParams ts
    let (b, ts) ← expr fuel ts
    match ts with
    | .p 41 :: ts => some (.nil, some (xs, b), ts)
    | _ => none
  | fuel + 1, ts => do
    let (a, ts) ← expr fuel ts
    match ts with
    | .p 44 :: ts =>
      let (as, f, ts) ← args fuel ts
      return (.cons a as, f, ts)
    | .p 41 :: ts => some (.cons a .nil, none, ts)
    | _ => none
/-- The members of a structure, up to the closing brace -/
def members : Nat → List Tk → Option (Flds × List Tk)
  | 0, _ => none
  | _ + 1, .p 125 :: ts => some (.nil, ts)
  | fuel + 1, .id cs :: .p 58 :: ts => do
    let (e, ts) ← expr fuel ts
    let ts := match ts with
      | .p 44 :: ts => ts
      | ts => ts
    let (fs, ts) ← members fuel ts
    return (.cons (name cs) e fs, ts)
  | fuel + 1, .id cs :: .p 44 :: ts => do
    let (fs, ts) ← members fuel ts
    return (.cons (name cs) (.path [name cs]) fs, ts)
  | fuel + 1, .id cs :: ts => do
    let (fs, ts) ← members fuel ts
    return (.cons (name cs) (.path [name cs]) fs, ts)
  | _, _ => none
/-- The call of a macro, from behind the bracket on.  The argument of `format!` is left out. -/
def macroCall : Nat → Name → List Tk → Option (Ex × List Tk)
  | 0, _, _ => none
  | fuel + 1, m, ts =>
    if m = i!"quote" then do
      let (body, ts) ← Macro.group 0 ts
      let ps ← Quote.template (body.length + 1) [] body
      return (.quote ps, ts)
    else if m = i!"parse_quote" then do
      let (body, ts) ← Macro.group 0 ts
      return (.parse body, ts)
    else if m = i!"format_ident" then do
      let (as, _, ts) ← args fuel ts
      match as with
      | .cons (.str cs) (.cons e .nil) =>
        let (a, b) ← Quote.splitFormat cs
        return (.formatIdent a b e, ts)
      | _ => none
    else if m = i!"matches" then do
      let (e, ts) ← expr fuel ts
      match ts with
      | .p 44 :: ts =>
        let (p, ts) ← pat ts
        match ts with
        | .kw .if_ :: ts =>
          let (c, ts) ← expr fuel ts
          match ts with
          | .p 41 :: ts => some (.matches e p c, ts)
          | _ => none
        | _ => none
      | _ => none
    else if m = i!"parse_macro_input" then
      match ts with
      | .id cs :: .kw .as :: .id ds :: ts =>
        let r := pathRest 8 ts
        match r.2 with
        | .p 41 :: ts => some (.call [m, lastName (name ds) r.1] (.cons (.path [name cs]) .nil), ts)
        | _ => none
      | _ => none
    else if m = i!"format" then do
      let (_, ts) ← Macro.group 0 ts
      return (.str [], ts)
    else none
/-- An expression without operators around it -/
def primary : Nat → List Tk → Option (Ex × List Tk)
  | 0, _ => none
  | _ + 1, .num n :: ts => some (.num n, ts)
  | _ + 1, .str cs :: ts => some (.str cs, ts)
  | fuel + 1, .kw .if_ :: .kw .let_ :: ts => do
    let (p, ts) ← pat ts
    match ts with
    | .p 61 :: ts =>
      let (c, ts) ← expr fuel ts
      let (t, ts) ← block fuel ts
      let (e, ts) ← elseBlock fuel ts
      return (.ifLet p c t e, ts)
    | _ => none
  | fuel + 1, .kw .if_ :: ts => do
    let (c, ts) ← expr fuel ts
    let (t, ts) ← block fuel ts
    let (e, ts) ← elseBlock fuel ts
    return (.ite c t e, ts)
  | fuel + 1, .kw .for_ :: .id cs :: .kw .in_ :: ts => do
    let (e, ts) ← expr fuel ts
    let (b, ts) ← block fuel ts
    return (.for_ (name cs) e b, ts)
  | fuel + 1, .p 123 :: ts => do
    let (b, ts) ← stmts fuel ts
    return (.block b, ts)
  | fuel + 1, .kw .return_ :: ts => do
    let (e, ts) ← expr fuel ts
    return (.return_ e, ts)
  | fuel + 1, .id cs :: ts =>
    let r := pathRest fuel ts
    let l := lastName (name cs) r.1
    match r.2 with
    | .p 40 :: ts => do
      let (as, f, ts) ← args fuel ts
      match f with
      | none => return (.call (name cs :: r.1) as, ts)
      | some _ => none
    | .p 33 :: .p 40 :: ts => macroCall fuel l ts
    | .p 33 :: .p 123 :: ts => macroCall fuel l ts
    | .p 123 :: ts =>
      if capitalName 64 l then do
        let (fs, ts) ← members fuel ts
        return (.lit (name cs :: r.1) fs, ts)
      else some (.path (name cs :: r.1), .p 123 :: ts)
    | ts => some (.path (name cs :: r.1), ts)
  | _, _ => none
/-- What follows the block of an `if` -/
def elseBlock : Nat → List Tk → Option (Sts × List Tk)
  | 0, _ => none
  | fuel + 1, .kw .else_ :: ts => block fuel ts
  | _ + 1, ts => some (.nil, ts)
/-- A block in braces -/
def block : Nat → List Tk → Option (Sts × List Tk)
  | 0, _ => none
  | fuel + 1, .p 123 :: ts => stmts fuel ts
  | _, _ => none
/-- Statements, up to the closing brace -/
def stmts : Nat → List Tk → Option (Sts × List Tk)
  | 0, _ => none
  | _ + 1, .p 125 :: ts => some (.nil, ts)
  | fuel + 1, .kw .let_ :: ts => do
    let (x, ts) ← patName ts
    let ts ← match ts with
      | .p 58 :: ts => skipType 0 ts
      | ts => some ts
    match ts with
    | .p 61 :: ts =>
      let (e, ts) ← expr fuel ts
      match ts with
      | .p 59 :: ts =>
        let (r, ts) ← stmts fuel ts
        return (.let_ x e r, ts)
      | _ => none
    | _ => none
  | fuel + 1, ts => do
    let (e, ts') ← if Quote.blockLike ts then primary fuel ts else expr fuel ts
    match ts' with
    | .p 59 :: ts' =>
      let (r, ts') ← stmts fuel ts'
      return (.semi e r, ts')
    | .p 125 :: ts' => some (.last e, ts')
    | ts' =>
      if Quote.blockLike ts then
        let (r, ts') ← stmts fuel ts'
        return (.semi e r, ts')
      else none
end

/-- A function -/
def fnItem (owner : Name) : List Tk → Option (List Fn)
  | .kw .pub :: ts => fnItem owner ts
  | .kw .fn :: .id cs :: ts => do
    match ← skipGenerics ts with
    | .p 40 :: ts =>
      let (ps, ts') ← params (8 * ts.length) ts
      match ← skipSig 0 ts' with
      | .p 123 :: ts' =>
        match stmts (8 * ts.length) ts' with
        | some (b, []) => some [⟨owner, name cs, ps, b⟩]
        | _ => none
      | _ => none
    | _ => none
  | _ => none

/-- Functions -/
def fnItems (owner : Name) : List (List Tk) → Option (List Fn)
  | [] => some []
  | ts :: rest => do
    let a ← fnItem owner ts
    let b ← fnItems owner rest
    return a ++ b

/-- An item: a function, or the functions of an `impl`; nothing for the others; `extern crate proc_macro;` is three
identifiers. -/
def item : Nat → List Tk → Option (List Fn)
  | 0, _ => none
  | fuel + 1, .p 35 :: .p 91 :: ts => do item fuel (← skipGroup 0 ts)
  | fuel + 1, .kw .pub :: ts => item fuel ts
  | _ + 1, .kw .use :: _ => some []
  | _ + 1, .kw .mod :: .id _ :: .p 59 :: [] => some []
  | _ + 1, .id _ :: .id _ :: .id _ :: .p 59 :: [] => some []
  | _ + 1, .p 59 :: [] => some []
  | _ + 1, .kw .struct :: _ => some []
  | _ + 1, .kw .enum :: _ => some []
  | _ + 1, .kw .impl :: .id cs :: .p 123 :: ts => do
    match ← Macro.group 0 ts with
    | (body, []) => fnItems (name cs) (← Code.cut 0 [] body)
    | _ => none
  | _ + 1, .kw .fn :: ts => fnItem 0 (.kw .fn :: ts)
  | _, _ => none

/-- The functions of items -/
def itemsOf : List (List Tk) → Option (List Fn)
  | [] => some []
  | ts :: rest => do
    let a ← item 16 ts
    let b ← itemsOf rest
    return a ++ b

/-- The functions of a text -/
def fnsOf (cs : List Nat) : Option (List Fn) := do
  itemsOf (← Code.cut 0 [] (← Code.tokens (← Src.lex cs)))

/-! ## Values -/

/-- Values -/
inductive V where
  | unit
  | bool (b : Bool)
  | num (n : Nat)
  | str (cs : List Nat)
  | ident (cs : List Nat)
  /-- `syn::Type`, also as a `TokenStream` -/
  | ty (t : Ty)
  /-- `syn::PathSegment` -/
  | segment (w : Word)
  /-- `syn::LitFloat` -/
  | float (q : Rat)
  /-- `TokenStream` -/
  | toks (ts : List Tk)
  | payloadLen (l : PayloadLen)
  | flag (f : Syn.PacketFlag)
  | none
  | some (v : V)
  | list (vs : List V)
  /-- a structure, by its name, and its members -/
  | struct (n : Name) (fs : List (Name × V))

/-- The variables, the last one first -/
abbrev Env := List (Name × V)

/-- An expression has a value, or returns from the function or the closure. -/
inductive Out where
  | val (v : V)
  | ret (v : V)

/-- A result, and the variables behind it -/
abbrev Res := O (Out × Env)

/-- The value of a variable, or of a member -/
def lookup (x : Name) : Env → O V
  | [] => stuck
  | (y, v) :: env => if Nat.beq y x then .ok v else lookup x env

/-- The variables after an assignment -/
def assign (x : Name) (w : V) : Env → O Env
  | [] => stuck
  | (y, v) :: env => if Nat.beq y x then .ok ((y, w) :: env) else (assign x w env).map ((y, v) :: ·)

/-- The tokens of a value in `quote!` -/
def V.inQuote : V → O (List Tk)
  | .ident cs => .ok [.id cs]
  | .ty t => .ok (tyToks t)
  | .float q => .ok [scaleTok q]
  | .toks ts => .ok ts
  | _ => stuck

/-- The result of `quote!`; there are no repetitions here. -/
def quoted (env : Env) : List Part → O (List Tk)
  | [] => .ok []
  | .one (.toks ts) :: ps => do return ts ++ (← quoted env ps)
  | .one (.var x) :: ps => do
    let v ← lookup x env
    return (← v.inQuote) ++ (← quoted env ps)
  | .rep .. :: _ => stuck

/-- `parse_quote!` of a type that is one identifier -/
def parseTy (ts : List Tk) : O V :=
  match ts with
  | [.id cs] => .ok (.ty (.path [Src.word cs]))
  | _ => stuck

/-- `==` -/
def V.same : V → V → O Bool
  | .ty a, .ty b => .ok (decide (a = b))
  | .num a, .num b => .ok (Nat.beq a b)
  | .segment w, .str cs => .ok (decide (w = Src.word cs))
  | _, _ => stuck

/-- A member.  The segments of `syn::Path` have no members of their own. -/
def fieldOf (v : V) (n : Name) : O V :=
  match v with
  | .struct _ fs => lookup n fs
  | .segment w => if n = i!"ident" then .ok (.segment w) else stuck
  | _ => stuck

/-- The value that a pattern binds -/
def matched (p : List Name) : V → Option V
  | .some v => if p = [i!"Some"] then some v else none
  | .payloadLen (.fixed n) => if p = [i!"PayloadLen", i!"Fixed"] then some (.num n) else none
  | .ty (.array t _) =>
    if p = [i!"syn", i!"Type", i!"Array"] then some (.struct i!"TypeArray" [(i!"elem", .ty t)]) else none
  | .ty (.path ws) =>
    if p = [i!"Type", i!"Path"] then
      some (.struct i!"TypePath" [(i!"qself", .none), (i!"path", .struct i!"Path" [(i!"segments", .list (ws.map .segment))])])
    else none
  | .ty (.generic ws _) =>
    if p = [i!"Type", i!"Path"] then
      some (.struct i!"TypePath" [(i!"qself", .none), (i!"path", .struct i!"Path" [(i!"segments", .list (ws.map .segment))])])
    else none
  | _ => none

/-- The variables that a pattern binds -/
def bindPat : Pt → V → Option Env
  | .name x, v => some [(x, v)]
  | .ctor p x, v => (matched p v).map fun w => [(x, w)]

/-- The methods of `Option`, of iterators, of numbers and of types.  `M` is the largest `usize`. -/
def methodOf (M : Nat) (v : V) (n : Name) (args : List V) : O V :=
  match v, args with
  | .some v, [] =>
    if n = i!"as_ref" then .ok (.some v)
    else if n = i!"is_none" then .ok (.bool false)
    else if n = i!"is_some" then .ok (.bool true)
    else if n = i!"unwrap" then .ok v
    else stuck
  | .none, [] =>
    if n = i!"as_ref" then .ok .none
    else if n = i!"is_none" then .ok (.bool true)
    else if n = i!"is_some" then .ok (.bool false)
    else if n = i!"unwrap" then .error .panic
    else stuck
  | .some v, [_] => if n = i!"unwrap_or" || n = i!"expect" then .ok v else stuck
  | .none, [w] =>
    if n = i!"unwrap_or" then .ok w
    else if n = i!"expect" then .error .panic
    else stuck
  | .list vs, [] =>
    if n = i!"iter" then .ok (.list vs)
    else if n = i!"rev" then .ok (.list vs.reverse)
    else if n = i!"len" then .ok (.num vs.length)
    else if n = i!"next" then
      match vs with
      | [] => .ok .none
      | v :: _ => .ok (.some v)
    else stuck
  | .list vs, [.num k] => if n = i!"skip" then .ok (.list (vs.drop k)) else stuck
  | .num k, [] => if n = i!"get" then .ok (.num k) else stuck
  | .num a, [.num b] =>
    if n = i!"checked_add" then
      if a + b ≤ M then .ok (.some (.num (a + b))) else .ok .none
    else stuck
  | .ty t, [] =>
    if n = i!"into_token_stream" then .ok (.ty t)
    else if n = i!"to_string" then .ok (.str (Src.codes (Rust.tyText t)))
    else stuck
  | _, _ => stuck

/-- The elements for which a closure returns `true` -/
def filterValues (f : V → O V) : List V → O (List V)
  | [] => .ok []
  | v :: vs =>
    match f v with
    | .ok (.bool b) => (filterValues f vs).map fun ws => if b then v :: ws else ws
    | .ok _ => stuck
    | .error e => .error e

/-- The methods with a closure -/
def closureOf (v : V) (n : Name) (args : List V) (f : List V → O V) : O V :=
  match v, args with
  | .some v, [] =>
    if n = i!"map" then (f [v]).map .some
    else if n = i!"and_then" then f [v]
    else if n = i!"unwrap_or_else" then .ok v
    else stuck
  | .none, [] =>
    if n = i!"map" then .ok .none
    else if n = i!"and_then" then .ok .none
    else if n = i!"unwrap_or_else" then f []
    else stuck
  | .some v, [_] => if n = i!"map_or" then f [v] else stuck
  | .none, [w] => if n = i!"map_or" then .ok w else stuck
  | .list vs, [] => if n = i!"filter" then (filterValues (fun v => f [v]) vs).map .list else stuck
  | _, _ => stuck

/-- What is done with the value of an expression -/
def bindV (r : Res) (k : V → Env → Res) : Res :=
  match r with
  | .ok (.val v, env) => k v env
  | r => r

/-- What is done with a value -/
def andThen {α : Type} (x : O α) (k : α → Res) : Res :=
  match x with
  | .ok a => k a
  | .error e => .error e

/-- Only the variables of before -/
def scope (n : Nat) (r : Res) : Res :=
  match r with
  | .ok (o, env) => .ok (o, env.drop (env.length - n))
  | .error e => .error e

/-- `for` -/
def loop (body : V → Env → Res) : List V → Env → Res
  | [], env => .ok (.val .unit, env)
  | v :: vs, env => bindV (body v env) fun _ env => loop body vs env

/-- What is around an expression: the largest `usize`, the type of the `impl`, and the functions -/
structure Ctx where
  maxUsize : Nat
  owner : Name
  call : Name → Name → Option (List V → O V)

/-- The structure of a value -/
def V.typeName : V → Name
  | .struct n _ => n
  | .payloadLen _ => i!"PayloadLen"
  | _ => 0

/-- The variables for the parameters -/
def bindParams : List Name → List V → Env
  | x :: xs, v :: vs => bindParams xs vs ++ [(x, v)]
  | _, _ => []

/-- The result of a closure -/
def closed (r : Res) : O V :=
  match r with
  | .ok (.val v, _) => .ok v
  | .ok (.ret v, _) => .ok v
  | .error e => .error e

/-- A call by its path: a function, a method, or `Some` -/
def callPath (c : Ctx) (p : List Name) (vs : List V) : O V :=
  match p with
  | [f] =>
    if f = i!"Some" then
      match vs with
      | [v] => .ok (.some v)
      | _ => stuck
    else
      match c.call 0 f with
      | some g => g vs
      | none => stuck
  | [t, f] =>
    match c.call (if t = i!"crate" then 0 else t) f with
    | some g => g vs
    | none => stuck
  | _ => stuck

mutual
/-- The value of an expression -/
def eval (c : Ctx) : Ex → Env → Res
  | .path p, env =>
    match p with
    | [x] =>
      if x = i!"None" then .ok (.val .none, env)
      else if x = i!"true" then .ok (.val (.bool true), env)
      else if x = i!"false" then .ok (.val (.bool false), env)
      else andThen (lookup x env) fun v => .ok (.val v, env)
    | _ => stuck
  | .num n, env => .ok (.val (.num n), env)
  | .str cs, env => .ok (.val (.str cs), env)
  | .quote ps, env => andThen (quoted env ps) fun ts => .ok (.val (.toks ts), env)
  | .parse ts, env => andThen (parseTy ts) fun v => .ok (.val v, env)
  | .formatIdent pre suf e, env =>
    bindV (eval c e env) fun v env =>
      match v with
      | .str cs => .ok (.val (.ident (pre ++ cs ++ suf)), env)
      | _ => stuck
  | .matches e p g, env =>
    bindV (eval c e env) fun v env =>
      match bindPat p v with
      | some bs => scope env.length (eval c g (bs ++ env))
      | none => .ok (.val (.bool false), env)
  | .lit p fs, env =>
    evalF c fs env fun vs env =>
      .ok (.val (.struct (if p = [i!"Self"] then c.owner else lastName 0 p) vs), env)
  | .field e n, env => bindV (eval c e env) fun v env => andThen (fieldOf v n) fun w => .ok (.val w, env)
  | .call f as, env => evals c as env fun vs env => andThen (callPath c f vs) fun w => .ok (.val w, env)
  | .meth e n as, env =>
    bindV (eval c e env) fun v env => evals c as env fun vs env =>
      match c.call v.typeName n with
      | some g => andThen (g (v :: vs)) fun w => .ok (.val w, env)
      | none => andThen (methodOf c.maxUsize v n vs) fun w => .ok (.val w, env)
  | .methFn e n as xs b, env =>
    bindV (eval c e env) fun v env => evals c as env fun vs env =>
      andThen (closureOf v n vs fun ws => closed (eval c b (bindParams xs ws ++ env))) fun w => .ok (.val w, env)
  | .try_ e, env =>
    bindV (eval c e env) fun v env =>
      match v with
      | .some v => .ok (.val v, env)
      | .none => .ok (.ret .none, env)
      | _ => stuck
  | .not e, env =>
    bindV (eval c e env) fun v env =>
      match v with
      | .bool b => .ok (.val (.bool !b), env)
      | _ => stuck
  | .eq a b, env =>
    bindV (eval c a env) fun v env => bindV (eval c b env) fun w env =>
      andThen (v.same w) fun r => .ok (.val (.bool r), env)
  | .and a b, env =>
    bindV (eval c a env) fun v env =>
      match v with
      | .bool x => if x then eval c b env else .ok (.val (.bool false), env)
      | _ => stuck
  | .or a b, env =>
    bindV (eval c a env) fun v env =>
      match v with
      | .bool x => if x then .ok (.val (.bool true), env) else eval c b env
      | _ => stuck
  | .assign x e, env =>
    bindV (eval c e env) fun w env => andThen (assign x w env) fun env => .ok (.val .unit, env)
  | .ite a t e, env =>
    bindV (eval c a env) fun v env =>
      match v with
      | .bool b => if b then scope env.length (evalS c t env) else scope env.length (evalS c e env)
      | _ => stuck
  | .ifLet p a t e, env =>
    bindV (eval c a env) fun v env =>
      match bindPat p v with
      | some bs => scope env.length (evalS c t (bs ++ env))
      | none => scope env.length (evalS c e env)
  | .for_ x e b, env =>
    bindV (eval c e env) fun v env =>
      match v with
      | .list vs => loop (fun v env => scope env.length (evalS c b ((x, v) :: env))) vs env
      | _ => stuck
  | .block b, env => scope env.length (evalS c b env)
  | .return_ e, env => bindV (eval c e env) fun v env => .ok (.ret v, env)
/-- The values of expressions -/
def evals (c : Ctx) : Exs → Env → (List V → Env → Res) → Res
  | .nil, env, k => k [] env
  | .cons e es, env, k => bindV (eval c e env) fun v env => evals c es env fun vs env => k (v :: vs) env
/-- The values of the members of a structure -/
def evalF (c : Ctx) : Flds → Env → (List (Name × V) → Env → Res) → Res
  | .nil, env, k => k [] env
  | .cons n e fs, env, k => bindV (eval c e env) fun v env => evalF c fs env fun vs env => k ((n, v) :: vs) env
/-- The value of the statements of a block -/
def evalS (c : Ctx) : Sts → Env → Res
  | .nil, env => .ok (.val .unit, env)
  | .last e, env => eval c e env
  | .semi e r, env => bindV (eval c e env) fun _ env => evalS c r env
  | .let_ x e r, env => bindV (eval c e env) fun v env => evalS c r ((x, v) :: env)
end

/-- The function of a type and a name -/
def findFn (t n : Name) : List Fn → Option Fn
  | [] => none
  | f :: fs => if Nat.beq f.owner t && Nat.beq f.name n then some f else findFn t n fs

/-- The result of a function; calls may be nested `depth` deep. -/
def run (M : Nat) (fs : List Fn) : Nat → Name → Name → List V → O V
  | 0, _, _, _ => stuck
  | depth + 1, t, n, args =>
    match findFn t n fs with
    | none => stuck
    | some f => closed (evalS ⟨M, t, fun t n => (findFn t n fs).map fun _ => run M fs depth t n⟩ f.body (bindParams f.params args))

/-! ## Descriptions as values -/

/-- An option -/
def optV {α : Type} (g : α → V) : Option α → V
  | none => .none
  | some a => .some (g a)

/-- `ublox_derive/src/types.rs:93-100`, `MapTypeDesc` -/
def mapTypeDescV (m : Syn.MapTypeDesc) : V :=
  .struct i!"MapTypeDesc" [(i!"ty", .ty m.ty), (i!"from_fn", .toks (fnToks m.fromFn)), (i!"is_valid_fn", .toks (fnToks m.isValidFn)),
    (i!"into_fn", .toks (fnToks m.intoFn)), (i!"size_fn", optV (fun p => .toks (wordsToks p)) m.sizeFn)]

/-- `ublox_derive/src/types.rs:84-91`, `PackFieldMapDesc` -/
def mapDescV (m : Syn.PackFieldMapDesc) : V :=
  .struct i!"PackFieldMapDesc" [(i!"map_type", optV mapTypeDescV m.mapType), (i!"scale", optV .float m.scale),
    (i!"alias", optV (fun s => .ident (Src.codes s)) m.alias), (i!"convert_may_fail", .bool m.convertMayFail),
    (i!"get_as_ref", .bool m.getAsRef)]

/-- `ublox_derive/src/types.rs:62-69`, `PackField` -/
def fieldV (docs : Syn.PackField → List Nat) (f : Syn.PackField) : V :=
  .struct i!"PackField" [(i!"name", .ident (Src.codes f.name)), (i!"ty", .ty f.ty), (i!"map", mapDescV f.map),
    (i!"comment", .str (docs f)), (i!"size_bytes", optV .num f.sizeBytes)]

/-- `ublox_derive/src/types.rs:39-44`, `PackHeader` -/
def headerV (h : Syn.PackHeader) : V :=
  .struct i!"PackHeader" [(i!"class", .num h.cls), (i!"id", .num h.id), (i!"payload_len", .payloadLen h.payloadLen),
    (i!"flags", .list (h.flags.map .flag))]

/-- `ublox_derive/src/types.rs:6-11`, `PackDesc` -/
def packV (doc : List Nat) (docs : Syn.PackField → List Nat) (d : Syn.PackDesc) : V :=
  .struct i!"PackDesc" [(i!"name", .str (Src.codes d.name)), (i!"header", headerV d.header), (i!"comment", .str doc),
    (i!"fields", .list (d.fields.map (fieldV docs)))]

/-- `ublox_derive/src/input.rs:473-479`, `MapType` -/
def mapTypeV (m : Syn.MapType) : V :=
  .struct i!"MapType" [(i!"ty", .ty m.ty), (i!"from_fn", optV (fun p => .toks (wordsToks p)) m.fromFn),
    (i!"is_valid_fn", optV (fun p => .toks (wordsToks p)) m.isValidFn), (i!"into_fn", optV (fun p => .toks (wordsToks p)) m.intoFn),
    (i!"size_fn", optV (fun p => .toks (wordsToks p)) m.sizeFn)]

/-- `ublox_derive/src/input.rs:458-465`, `PackFieldMap` -/
def mapV (m : Syn.PackFieldMap) : V :=
  .struct i!"PackFieldMap" [(i!"map_type", optV mapTypeV m.mapType), (i!"scale", optV .float m.scale),
    (i!"alias", optV (fun s => .ident (Src.codes s)) m.alias), (i!"convert_may_fail", .bool m.convertMayFail),
    (i!"get_as_ref", .bool m.getAsRef)]

end Ublox.Meth
