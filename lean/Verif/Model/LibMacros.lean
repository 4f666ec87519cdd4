import Verif.Model.Meth

/-!
# The macros, from the text of `lib.rs`

An evaluator for the functions of `ublox_derive/src/lib.rs:17-183`, in the syntax of `Model/Meth.lean`.  The parsers of
`input.rs` are those of the model (`Model/Input.lean`); the generators of `output.rs` are executed from their text
(`Model/Quote.lean`).

Simplified: what is handed to a macro is a declaration as `syn` gives it, not its tokens; an error of `syn` is
a single value, without its place and its text; what the model leaves out of a declaration (documentation, attributes
that are copied, visibility) is given beside it (`Extras`).
-/

namespace Ublox.Lib

open Code (Tk Name)
open Quote (O Stop stuck)
open Meth (Ex Exs Sts Pt)

/-- What a macro is applied to: `ublox_derive/src/lib.rs:17-110`, the argument `input` of a macro -/
inductive Decl where
  | struct (s : Syn.StructDecl)
  | enum (e : Syn.EnumDecl)
  | union (name : String)
  /-- the invocation of a macro, and whether it is `bitflags` -/
  | macro (bitflags : Bool) (f : Syn.FlagsDecl)
  /-- the tokens between the braces of `define_recv_packets!` -/
  | list (ts : List Syn.Tok)

/-- What the model leaves out of a declaration: documentation, attributes that are copied, visibility
(`ublox_derive/src/input.rs`, where the comments and attributes are collected). -/
structure Extras where
  doc : List Nat
  docs : Syn.PackField → List Nat
  attrs : List (List Tk)
  vis : List Tk
  constAttrs : String → List (List Tk)

/-- Values of `ublox_derive/src/lib.rs:17-183` -/
inductive V where
  | unit
  | bool (b : Bool)
  | str (cs : List Nat)
  /-- the argument of a macro -/
  | input (d : Decl)
  /-- `syn::DeriveInput`, `syn::ItemMacro` -/
  | parsed (d : Decl)
  | ident (s : String)
  | attrs (as : List Syn.Attr)
  /-- `syn::Data` -/
  | data (d : Decl)
  | dataStruct (fs : Option (List Syn.Field))
  | dataEnum (vs : List Syn.VariantDecl)
  | fields (fs : Option (List Syn.Field))
  | variants (vs : List Syn.VariantDecl)
  /-- `syn::Macro` and its path: is it `bitflags`? -/
  | mac (bitflags : Bool)
  | path (bitflags : Bool)
  /-- what a parser returns -/
  | desc (v : Quote.V)
  | toks (ts : List Tk)
  /-- `compile_error!` -/
  | compileError
  /-- `syn::Error` -/
  | error
  | ok (v : V)
  | err (v : V)
  | none
  | some (v : V)

/-- The variables of a function of `ublox_derive/src/lib.rs`, the last one first -/
abbrev Env := List (Name × V)

/-- An expression has a value, or returns from the function or the closure. -/
inductive Out where
  | val (v : V)
  | ret (v : V)

/-- A result, and the variables behind it -/
abbrev Res := O (Out × Env)

/-- The value of a variable -/
def lookup (x : Name) : Env → O V
  | [] => stuck
  | (y, v) :: env => if Nat.beq y x then .ok v else lookup x env

/-- The variables after an assignment -/
def assign (x : Name) (w : V) : Env → O Env
  | [] => stuck
  | (y, v) :: env => if Nat.beq y x then .ok ((y, w) :: env) else (assign x w env).map ((y, v) :: ·)

/-- What is done with the value of an expression -/
def bindV (r : Res) (k : V → Env → Res) : Res :=
  match r with
  | .ok (.val v, env) => k v env
  | r => r

/-- What is done with a value -/
def andThen {α : Type} (x : O α) (k : α → Res) : Res :=
  match x with
  | .ok a => k a
  | .error e => .error e

/-- Only the variables of before -/
def scope (n : Nat) (r : Res) : Res :=
  match r with
  | .ok (o, env) => .ok (o, env.drop (env.length - n))
  | .error e => .error e

/-- The result of a function or a closure -/
def closed (r : Res) : O V :=
  match r with
  | .ok (.val v, _) => .ok v
  | .ok (.ret v, _) => .ok v
  | .error e => .error e

/-- A member: those in `ublox_derive/src/lib.rs:17-183` -/
def fieldOf (v : V) (n : Name) : O V :=
  match v with
  | .parsed (.struct s) =>
    if n = i!"ident" then .ok (.ident s.name)
    else if n = i!"attrs" then .ok (.attrs s.attrs)
    else if n = i!"data" then .ok (.data (.struct s))
    else stuck
  | .parsed (.enum e) =>
    if n = i!"ident" then .ok (.ident e.name)
    else if n = i!"attrs" then .ok (.attrs e.attrs)
    else if n = i!"data" then .ok (.data (.enum e))
    else stuck
  | .parsed (.union s) =>
    if n = i!"ident" then .ok (.ident s)
    else if n = i!"data" then .ok (.data (.union s))
    else stuck
  | .parsed (.macro b _) =>
    if n = i!"mac" then .ok (.mac b)
    else if n = i!"ident" then .ok .none
    else stuck
  | .mac b => if n = i!"path" then .ok (.path b) else stuck
  | .dataStruct fs => if n = i!"fields" then .ok (.fields fs) else stuck
  | .dataEnum vs => if n = i!"variants" then .ok (.variants vs) else stuck
  | _ => stuck

/-- The variables that a pattern binds: those in `ublox_derive/src/lib.rs:17-91` -/
def bindPat : Pt → V → Option Env
  | .name x, v => some [(x, v)]
  | .ctor p x, .data (.struct s) => if p = [i!"Data", i!"Struct"] then some [(x, .dataStruct s.fields)] else none
  | .ctor p x, .data (.enum e) => if p = [i!"Data", i!"Enum"] then some [(x, .dataEnum e.variants)] else none
  | .ctor _ _, _ => none

/-- Methods: those in `ublox_derive/src/lib.rs:17-183` -/
def methodOf (v : V) (n : Name) (args : List V) : O V :=
  match args with
  | [] =>
    if n = i!"into" then .ok v
    else if n = i!"span" then .ok .unit
    else
      match v with
      | .error => if n = i!"to_compile_error" then .ok .compileError else stuck
      | .none => if n = i!"as_ref" then .ok .none else stuck
      | .some v => if n = i!"as_ref" then .ok (.some v) else stuck
      | _ => stuck
  | [.str cs] =>
    match v with
    | .path b => if n = i!"is_ident" then
        if Macro.sameCodes cs c!"bitflags" then .ok (.bool b) else stuck
      else stuck
    | _ => stuck
  | _ => stuck

/-- The methods with a closure: those in `ublox_derive/src/lib.rs:17-183` -/
def closureOf (v : V) (n : Name) (f : List V → O V) : O V :=
  match v with
  | .ok v =>
    if n = i!"map" then (f [v]).map .ok
    else if n = i!"unwrap_or_else" then .ok v
    else stuck
  | .err e =>
    if n = i!"map" then .ok (.err e)
    else if n = i!"unwrap_or_else" then f [e]
    else stuck
  | .some v =>
    if n = i!"map" then (f [v]).map .some
    else if n = i!"unwrap_or_else" then .ok v
    else stuck
  | .none =>
    if n = i!"map" then .ok .none
    else if n = i!"unwrap_or_else" then f []
    else stuck
  | _ => stuck

/-- The result of a parser of the model -/
def parserResult {α : Type} (g : α → Quote.V) : Except String α → O V
  | .ok a => .ok (.ok (.desc (g a)))
  | .error _ => .ok (.err .error)

/-- The result of `parse_ubx_enum_type` of the model: `unimplemented!()` is a panic. -/
def enumResult {α : Type} (g : α → Quote.V) : Except String α → O V
  | .ok a => .ok (.ok (.desc (g a)))
  | .error e => if e = "not implemented" then .error .panic else .ok (.err .error)

/-- The parsers of `ublox_derive/src/input.rs`, from the model (`Model/Input.lean`) -/
def parser (x : Extras) (n : Name) (args : List V) : O V :=
  match args with
  | [.ident s, .attrs as, .fields fs] =>
    if n = i!"parse_packet_description" then
      parserResult (fun d => .pack (Quote.packV x.doc x.docs d)) (Syn.parsePacketDescription ⟨.recv, s, as, fs⟩)
    else stuck
  | [.ident s, .attrs as, .variants vs] =>
    if n = i!"parse_ubx_enum_type" then
      enumResult (fun e => .enum (Quote.enumV x.attrs e)) (Syn.parseUbxEnumType ⟨s, as, vs⟩)
    else stuck
  | [.parsed (.macro _ f)] =>
    if n = i!"parse_bitflags" then
      parserResult (fun d => .flags (Quote.flagsV x.attrs x.vis x.constAttrs d.1 d.2.1 d.2.2)) (Syn.parseBitflags f)
    else stuck
  | [.input (.list ts)] =>
    if n = i!"parse_idents_list" then
      parserResult (fun r => .recv (Quote.recvV r)) (Syn.parseIdentsList ts)
    else stuck
  | _ => stuck

/-- The generators of `ublox_derive/src/output.rs`, executed: tokens, or a result of `syn` -/
def generator (out : List Quote.Fn) (n : Name) (args : List V) : O V :=
  match args with
  | [.desc v] =>
    match Quote.run out 3 n [v] with
    | .ok (.toks ns) => .ok (.toks (Quote.flatAll ns))
    | .ok (.ok (.toks ns)) => .ok (.ok (.toks (Quote.flatAll ns)))
    | .ok .err => .ok (.err .error)
    | .ok _ => stuck
    | .error e => .error e
  | _ => stuck

/-- `parse_macro_input!(x as T)`: what `T` is not is an error that the macro returns at once. -/
def parseMacroInput (ty : Name) (v : V) : O Out :=
  match v with
  | .input (.struct s) => if ty = i!"DeriveInput" then .ok (.val (.parsed (.struct s))) else .ok (.ret .compileError)
  | .input (.enum e) => if ty = i!"DeriveInput" then .ok (.val (.parsed (.enum e))) else .ok (.ret .compileError)
  | .input (.union s) => if ty = i!"DeriveInput" then .ok (.val (.parsed (.union s))) else .ok (.ret .compileError)
  | .input (.macro b f) => if ty = i!"ItemMacro" then .ok (.val (.parsed (.macro b f))) else .ok (.ret .compileError)
  | _ => stuck

/-- What is around an expression of `ublox_derive/src/lib.rs`: the module `output` and the functions of the file -/
structure Ctx where
  extras : Extras
  out : List Quote.Fn
  call : Name → Option (List V → O V)

/-- A call by its path: those in `ublox_derive/src/lib.rs:17-183` -/
def callPath (c : Ctx) (p : List Name) (vs : List V) : O Out :=
  match p, vs with
  | [f], vs =>
    if f = i!"Ok" then
      match vs with
      | [v] => .ok (.val (.ok v))
      | _ => stuck
    else if f = i!"Err" then
      match vs with
      | [v] => .ok (.val (.err v))
      | _ => stuck
    else
      match c.call f with
      | some g => (g vs).map .val
      | none => stuck
  | [m, f], vs =>
    if m = i!"input" then (parser c.extras f vs).map .val
    else if m = i!"output" then (generator c.out f vs).map .val
    else if m = i!"parse_macro_input" then
      match vs with
      | [v] => parseMacroInput f v
      | _ => stuck
    else stuck
  | p, [_, _] => if p = [i!"syn", i!"Error", i!"new"] then .ok (.val .error) else stuck
  | _, _ => stuck

/-- The variables for the parameters -/
def bindParams : List Name → List V → Env
  | x :: xs, v :: vs => bindParams xs vs ++ [(x, v)]
  | _, _ => []

mutual
/-- The value of an expression of `ublox_derive/src/lib.rs` -/
def eval (c : Ctx) : Ex → Env → Res
  | .path p, env =>
    match p with
    | [x] => andThen (lookup x env) fun v => .ok (.val v, env)
    | _ => stuck
  | .str cs, env => .ok (.val (.str cs), env)
  | .field e n, env => bindV (eval c e env) fun v env => andThen (fieldOf v n) fun w => .ok (.val w, env)
  | .call f as, env => evals c as env fun vs env => andThen (callPath c f vs) fun o => .ok (o, env)
  | .meth e n as, env =>
    match e, n == i!"extend" with
    | .path [x], true =>
      bindV (andThen (lookup x env) fun v => .ok (.val v, env)) fun v env => evals c as env fun vs env =>
        match v, vs with
        | .toks a, [.toks b] => andThen (assign x (.toks (a ++ b)) env) fun env => .ok (.val .unit, env)
        | _, _ => stuck
    | e, _ =>
      bindV (eval c e env) fun v env => evals c as env fun vs env =>
        andThen (methodOf v n vs) fun w => .ok (.val w, env)
  | .methFn e n as xs b, env =>
    bindV (eval c e env) fun v env => evals c as env fun vs env =>
      match vs with
      | [] => andThen (closureOf v n fun ws => closed (eval c b (bindParams xs ws ++ env))) fun w => .ok (.val w, env)
      | _ => stuck
  | .try_ e, env =>
    bindV (eval c e env) fun v env =>
      match v with
      | .ok v => .ok (.val v, env)
      | .err e => .ok (.ret (.err e), env)
      | _ => stuck
  | .not e, env =>
    bindV (eval c e env) fun v env =>
      match v with
      | .bool b => .ok (.val (.bool !b), env)
      | _ => stuck
  | .ite a t e, env =>
    bindV (eval c a env) fun v env =>
      match v with
      | .bool b => if b then scope env.length (evalS c t env) else scope env.length (evalS c e env)
      | _ => stuck
  | .ifLet p a t e, env =>
    bindV (eval c a env) fun v env =>
      match bindPat p v with
      | some bs => scope env.length (evalS c t (bs ++ env))
      | none => scope env.length (evalS c e env)
  | .return_ e, env => bindV (eval c e env) fun v env => .ok (.ret v, env)
  | _, _ => stuck
/-- The values of expressions -/
def evals (c : Ctx) : Exs → Env → (List V → Env → Res) → Res
  | .nil, env, k => k [] env
  | .cons e es, env, k => bindV (eval c e env) fun v env => evals c es env fun vs env => k (v :: vs) env
/-- The value of the statements of a block -/
def evalS (c : Ctx) : Sts → Env → Res
  | .nil, env => .ok (.val .unit, env)
  | .last e, env => eval c e env
  | .semi e r, env => bindV (eval c e env) fun _ env => evalS c r env
  | .let_ x e r, env => bindV (eval c e env) fun v env => evalS c r ((x, v) :: env)
end

/-- The result of a function of `ublox_derive/src/lib.rs`; calls may be nested `depth` deep. -/
def run (x : Extras) (out : List Quote.Fn) (fs : List Meth.Fn) : Nat → Name → List V → O V
  | 0, _, _ => stuck
  | depth + 1, n, args =>
    match Meth.findFn 0 n fs with
    | none => stuck
    | some f =>
      closed (evalS ⟨x, out, fun n => (Meth.findFn 0 n fs).map fun _ => run x out fs depth n⟩ f.body
        (bindParams f.params args))

/-- What a macro of `ublox_derive/src/lib.rs:17-110` makes of a declaration: code, or `none` for `compile_error!`.  The argument of the attribute itself is
not used. -/
def expand (x : Extras) (out : List Quote.Fn) (fs : List Meth.Fn) (macroName : Name) (d : Decl) : O (Option (List Tk)) :=
  match Meth.findFn 0 macroName fs with
  | none => stuck
  | some f =>
    match run x out fs 3 macroName (match f.params with
        | [_] => [.input d]
        | _ => [.unit, .input d]) with
    | .ok (.toks ts) => .ok (some ts)
    | .ok .compileError => .ok none
    | .ok _ => stuck
    | .error e => .error e

end Ublox.Lib
