import Verif.Model.Lex

/-!
# From the text of a source file to functions

The part of the grammar of Rust in which the hand-written functions of the crate are written:
`ublox/src/parser.rs`, `ublox/src/ubx_packets.rs`, `ublox/src/ubx_packets/packets.rs`, `types.rs` and the
beginning of `cfg_val.rs`.  No code of `/repo`: this is what the Rust compiler does with the text, and
everything outside of this part is refused.  Types are skipped (the compiler has checked them) except for
the type of a result, a constant, a field or `as` if it is a single identifier; attributes and
documentation are skipped too; items under `#[cfg(..)]` are taken, that is, the features `std`, `alloc` and
`serde` are on; items under `#[test]`, and the arguments of macros, are not looked at.  Operators of two
characters are recognised whether or not there is space between the characters.
-/

namespace Ublox.Code

open Src (LTok)

/-- Identifiers are numbers: the codes of the characters are the digits in base 256. -/
abbrev Name := Nat

/-- The number of an identifier. -/
def name (cs : List Nat) : Name := cs.foldl (fun n c => 256 * n + c) 0

/-- `i!"abc"` is the number of the identifier `abc`. -/
macro:max "i!" s:str : term =>
  return Lean.Syntax.mkNumLit (toString (name (s.getString.toList.map Char.toNat)))

/-- Unary operators: `!`, `&`, `&mut`, `*` -/
inductive UnOp where
  | not | ref | refMut | deref
  deriving DecidableEq, Repr

/-- Binary operators -/
inductive BinOp where
  | add | sub | eq | ne | lt | gt | le | ge
  | mul | rem | shl | shr | bitAnd | bitOr | and
  deriving DecidableEq, Repr

/-- Patterns: `x`, `mut x` and `&x`; `(x, y)`; `Some(x)`, `None`; numbers; `Self::X`; `Self::X(y)`;
alternatives -/
inductive Pat where
  | name (x : Name)
  | pair (x y : Name)
  | ctor (c : Name) (xs : List Name)
  | int (n : Nat)
  /-- `lo..=hi` -/
  | range (lo hi : Nat)
  | path (p : List Name)
  | variant (t c x : Name)
  | or (a b : Pat)
  deriving DecidableEq, Repr

mutual
/-- Expressions -/
inductive Expr where
  /-- a variable or a constant -/
  | path (p : List Name)
  | int (n : Nat)
  /-- a decimal number with point or exponent, as a fraction -/
  | float (num den : Nat)
  /-- a text, as the number that an identifier with these characters has -/
  | str (s : Name)
  /-- `e as ty` -/
  | cast (e : Expr) (ty : Name)
  /-- `e?` -/
  | try_ (e : Expr)
  /-- `e.name`, also for the parts of a tuple -/
  | field (e : Expr) (name : Name)
  | index (e i : Expr)
  | range (lo hi : Expr)
  | rangeFrom (lo : Expr)
  | rangeTo (hi : Expr)
  | array (es : Exprs)
  | tuple (es : Exprs)
  | un (op : UnOp) (e : Expr)
  | bin (op : BinOp) (a b : Expr)
  | assign (a b : Expr)
  | addAssign (a b : Expr)
  /-- `a |= b` -/
  | orAssign (a b : Expr)
  | call (f : List Name) (args : Exprs)
  | meth (e : Expr) (name : Name) (args : Exprs)
  /-- a method whose argument is a closure with one parameter: `e.name(|x| body)` -/
  | methFn (e : Expr) (name : Name) (x : Name) (body : Expr)
  | struct (p : List Name) (fs : Fields)
  | ite (c : Expr) (t e : Stmts)
  | match_ (e : Expr) (arms : Arms)
  | while_ (c : Expr) (b : Stmts)
  | for_ (x : Name) (e : Expr) (b : Stmts)
  | block (b : Stmts)
  | return_ (e : Expr)
  | break_
  | continue_
  | panic
/-- Lists of expressions -/
inductive Exprs where
  | nil
  | cons (e : Expr) (es : Exprs)
/-- Fields of a structure -/
inductive Fields where
  | nil
  | cons (name : Name) (e : Expr) (fs : Fields)
/-- Statements of a block -/
inductive Stmts where
  /-- the end of a block without value -/
  | nil
  /-- the value of the block -/
  | last (e : Expr)
  /-- `e;` -/
  | semi (e : Expr) (rest : Stmts)
  | let_ (p : Pat) (e : Expr) (rest : Stmts)
/-- Arms of `match` -/
inductive Arms where
  | nil
  | cons (p : Pat) (e : Expr) (arms : Arms)
end

deriving instance Repr for Expr, Exprs, Fields, Stmts, Arms

/-- A function: name, names of the parameters, type of the result if it is one identifier (otherwise 0),
body.  A constant is a function without parameters. -/
structure Fn where
  name : Name
  params : List Name
  ret : Name
  body : Stmts
  deriving Repr

/-- The functions of an `impl`, or the default methods of a trait: the identifiers in the name of the
trait, the type (for a trait the name again), the functions.  The functions of a module have the trait
`mod` and the name of the module; a function outside of all this has the trait `mod` and the type 0. -/
structure Impl where
  trait : List Name
  type : Name
  fns : List Fn
  deriving Repr

/-- A structure with the names and types of its fields (0 for a type that is not one identifier; the names
are `0`, `1`, .. for a tuple), or an enumeration with its variants and the numbers that are written for
them. -/
inductive Decl where
  | struct (name : Name) (fields : List (Name × Name))
  | enum (name : Name) (variants : List (Name × Option Nat))
  deriving DecidableEq, Repr

/-! ## Tokens -/

/-- Keywords -/
inductive K where
  | fn | impl | for_ | if_ | else_ | match_ | while_ | let_ | mut_ | return_ | break_ | continue_ | in_
  | pub | struct | trait | type | uns | use | const | mod | enum | as
  deriving DecidableEq, Repr

/-- The keywords by their codes (`c91_keywords`) -/
def keywords : List (List Nat × K) := [
  ([102, 110], .fn), ([105, 109, 112, 108], .impl), ([102, 111, 114], .for_), ([105, 102], .if_),
  ([101, 108, 115, 101], .else_), ([109, 97, 116, 99, 104], .match_), ([119, 104, 105, 108, 101], .while_),
  ([108, 101, 116], .let_), ([109, 117, 116], .mut_), ([114, 101, 116, 117, 114, 110], .return_),
  ([98, 114, 101, 97, 107], .break_), ([99, 111, 110, 116, 105, 110, 117, 101], .continue_),
  ([105, 110], .in_), ([112, 117, 98], .pub), ([115, 116, 114, 117, 99, 116], .struct),
  ([116, 114, 97, 105, 116], .trait), ([116, 121, 112, 101], .type), ([117, 110, 115, 97, 102, 101], .uns),
  ([117, 115, 101], .use), ([99, 111, 110, 115, 116], .const), ([109, 111, 100], .mod),
  ([101, 110, 117, 109], .enum), ([97, 115], .as)]

/-- Tokens of the grammar -/
inductive Tk where
  | kw (k : K)
  | id (cs : List Nat)
  | num (n : Nat)
  /-- a number with the type behind it, as in `0_u8` -/
  | tnum (n : Nat) (ty : Name)
  | float (num den : Nat)
  | str (cs : List Nat)
  | life
  | p (c : Nat)
  deriving DecidableEq, Repr

/-- The digits before and the characters from the first letter on. -/
def splitSuffix : List Nat → List Nat × List Nat
  | [] => ([], [])
  | c :: cs =>
    if Src.isDigit c || Nat.beq c 95 then
      let r := splitSuffix cs
      (c :: r.1, r.2)
    else ([], c :: cs)

/-- A token of the lexer; documentation is left out. -/
def tk : LTok → Option Tk
  | .ident cs =>
    match Src.find keywords cs with
    | some k => some (.kw k)
    | none => some (.id cs)
  | .num cs =>
    match Src.number cs with
    | some (.int n) => some (.num n.toNat)
    | some (.float q) => some (.float q.num.toNat q.den)
    | _ =>
      match splitSuffix cs with
      | (ds, ty) => (Src.digitsVal 10 0 ds).map fun n => .tnum n (name ty)
  | .str cs => some (.str cs)
  | .lifetime => some .life
  | .doc => none
  | .punct c => some (.p c)

/-- The tokens of a text. -/
def tokens (ts : List LTok) : Option (List Tk) := (ts.filter (· != .doc)).mapM tk

/-- The tokens from behind the bracket that closes an open one, `depth` more being open. -/
def skipGroup : Nat → List Tk → Option (List Tk)
  | _, [] => none
  | depth, .p 40 :: ts => skipGroup (depth + 1) ts
  | depth, .p 91 :: ts => skipGroup (depth + 1) ts
  | depth, .p 123 :: ts => skipGroup (depth + 1) ts
  | 0, .p 41 :: ts => some ts
  | 0, .p 93 :: ts => some ts
  | 0, .p 125 :: ts => some ts
  | depth + 1, .p 41 :: ts => skipGroup depth ts
  | depth + 1, .p 93 :: ts => skipGroup depth ts
  | depth + 1, .p 125 :: ts => skipGroup depth ts
  | depth, _ :: ts => skipGroup depth ts

/-- The tokens from behind a type up to one of `,`, `=`, `;`, `)`, `{` outside of brackets. -/
def skipType : Nat → List Tk → Option (List Tk)
  | _, [] => none
  | 0, .p 44 :: ts => some (.p 44 :: ts)
  | 0, .p 61 :: ts => some (.p 61 :: ts)
  | 0, .p 59 :: ts => some (.p 59 :: ts)
  | 0, .p 41 :: ts => some (.p 41 :: ts)
  | depth, .p 123 :: ts => if depth == 0 then some (.p 123 :: ts) else none
  | depth, .p 45 :: .p 62 :: ts => skipType depth ts
  | depth, .p 60 :: ts => skipType (depth + 1) ts
  | depth, .p 40 :: ts => skipType (depth + 1) ts
  | depth, .p 91 :: ts => skipType (depth + 1) ts
  | depth + 1, .p 62 :: ts => skipType depth ts
  | depth + 1, .p 41 :: ts => skipType depth ts
  | depth + 1, .p 93 :: ts => skipType depth ts
  | depth, _ :: ts => skipType depth ts

/-- The tokens from behind the type of a result and the conditions on type parameters, up to `;` or `{`
outside of brackets. -/
def skipSig : Nat → List Tk → Option (List Tk)
  | _, [] => none
  | 0, .p 59 :: ts => some (.p 59 :: ts)
  | depth, .p 123 :: ts => if depth == 0 then some (.p 123 :: ts) else none
  | depth, .p 45 :: .p 62 :: ts => skipSig depth ts
  | depth, .p 60 :: ts => skipSig (depth + 1) ts
  | depth, .p 40 :: ts => skipSig (depth + 1) ts
  | depth, .p 91 :: ts => skipSig (depth + 1) ts
  | depth + 1, .p 62 :: ts => skipSig depth ts
  | depth + 1, .p 41 :: ts => skipSig depth ts
  | depth + 1, .p 93 :: ts => skipSig depth ts
  | depth, _ :: ts => skipSig depth ts

/-! ## Expressions -/

/-- Is this the beginning of something that ends a range without upper bound? -/
def endsRange : List Tk → Bool
  | .p 93 :: _ => true
  | .p 41 :: _ => true
  | .p 44 :: _ => true
  | .p 59 :: _ => true
  | .p 123 :: _ => true
  | _ => false

/-- The names in the pattern of a constructor, up to the closing bracket. -/
def patNames : List Tk → Option (List Name × List Tk)
  | .id cs :: .p 41 :: ts => some ([name cs], ts)
  | .id cs :: .p 44 :: ts => (patNames ts).map fun r => (name cs :: r.1, r.2)
  | _ => none

/-- `None`, by its codes -/
def noneCodes : List Nat := [78, 111, 110, 101]

/-- The rest of a path `a::b::c` behind its first part; `fuel` bounds the number of parts. -/
def pathRest : Nat → List Tk → List Name × List Tk
  | fuel + 1, .p 58 :: .p 58 :: .id cs :: ts =>
    let r := pathRest fuel ts
    (name cs :: r.1, r.2)
  | _, ts => ([], ts)

/-- A pattern without alternatives. -/
def pat : List Tk → Option (Pat × List Tk)
  | .num a :: .p 46 :: .p 46 :: .p 61 :: .num b :: ts => some (.range a b, ts)
  | .num n :: ts => some (.int n, ts)
  | .kw .mut_ :: .id cs :: ts => some (.name (name cs), ts)
  | .p 38 :: .id cs :: ts => some (.name (name cs), ts)
  | .p 40 :: .id a :: .p 44 :: .id b :: .p 41 :: ts => some (.pair (name a) (name b), ts)
  | .id cs :: .p 40 :: ts => (patNames ts).map fun r => (.ctor (name cs) r.1, r.2)
  | .id cs :: .p 58 :: .p 58 :: .id ds :: .p 40 :: .id es :: .p 41 :: ts =>
    some (.variant (name cs) (name ds) (name es), ts)
  | .id cs :: .p 58 :: .p 58 :: .id ds :: ts =>
    let r := pathRest 4 ts
    some (.path (name cs :: name ds :: r.1), r.2)
  | .id cs :: ts =>
    if cs == noneCodes then some (.ctor (name cs) [], ts) else some (.name (name cs), ts)
  | _ => none

/-- A pattern with alternatives; `fuel` bounds their number. -/
def pats : Nat → List Tk → Option (Pat × List Tk)
  | 0, _ => none
  | fuel + 1, ts => do
    let (a, ts) ← pat ts
    match ts with
    | .p 124 :: ts =>
      let (b, ts) ← pats fuel ts
      return (.or a b, ts)
    | ts => some (a, ts)

/-- Does a statement begin with an expression that needs no semicolon? -/
def blockLike : List Tk → Bool
  | .kw .if_ :: _ => true
  | .kw .match_ :: _ => true
  | .kw .while_ :: _ => true
  | .kw .for_ :: _ => true
  | .kw .uns :: _ => true
  | .p 123 :: _ => true
  | _ => false

/-- Identifiers separated by `::` or space, and what follows. -/
def ids : List Tk → List Name × List Tk
  | .id cs :: ts => let r := ids ts; (name cs :: r.1, r.2)
  | .p 58 :: ts => ids ts
  | ts => ([], ts)

/-- The macros that panic, by their codes: `panic`, `unreachable`, `unimplemented` (`c91_keywords`) -/
def panics : List (List Nat) := [
  [112, 97, 110, 105, 99], [117, 110, 114, 101, 97, 99, 104, 97, 98, 108, 101],
  [117, 110, 105, 109, 112, 108, 101, 109, 101, 110, 116, 101, 100]]

mutual
/-- An expression.  `ns`: no structure, as in the condition of `if`.  `fuel` bounds the depth. -/
def expr : Nat → Bool → List Tk → Option (Expr × List Tk)
  | 0, _, _ => none
  | fuel + 1, ns, ts => do
    let (a, ts) ← rangeExpr fuel ns ts
    match ts with
    | .p 61 :: .p 61 :: _ => some (a, ts)
    | .p 61 :: .p 62 :: _ => some (a, ts)
    | .p 61 :: ts =>
      let (b, ts) ← expr fuel ns ts
      return (.assign a b, ts)
    | .p 43 :: .p 61 :: ts =>
      let (b, ts) ← expr fuel ns ts
      return (.addAssign a b, ts)
    | .p 124 :: .p 61 :: ts =>
      let (b, ts) ← expr fuel ns ts
      return (.orAssign a b, ts)
    | _ => some (a, ts)
/-- A range or an expression with higher precedence; `..` is `0..`. -/
def rangeExpr : Nat → Bool → List Tk → Option (Expr × List Tk)
  | 0, _, _ => none
  | _ + 1, _, .p 46 :: .p 46 :: .p 93 :: ts => some (.rangeFrom (.int 0), .p 93 :: ts)
  | fuel + 1, ns, .p 46 :: .p 46 :: ts => do
    let (b, ts) ← andExpr fuel ns ts
    return (.rangeTo b, ts)
  | fuel + 1, ns, ts => do
    let (a, ts) ← andExpr fuel ns ts
    match ts with
    | .p 46 :: .p 46 :: ts =>
      if endsRange ts then return (.rangeFrom a, ts)
      else
        let (b, ts) ← andExpr fuel ns ts
        return (.range a b, ts)
    | _ => some (a, ts)
/-- `a && b`, grouped to the right, or an expression with higher precedence -/
def andExpr : Nat → Bool → List Tk → Option (Expr × List Tk)
  | 0, _, _ => none
  | fuel + 1, ns, ts => do
    let (a, ts) ← cmpExpr fuel ns ts
    match ts with
    | .p 38 :: .p 38 :: ts =>
      let (b, ts) ← andExpr fuel ns ts
      return (.bin .and a b, ts)
    | _ => some (a, ts)
/-- A comparison or an expression with higher precedence. -/
def cmpExpr : Nat → Bool → List Tk → Option (Expr × List Tk)
  | 0, _, _ => none
  | fuel + 1, ns, ts => do
    let (a, ts) ← orExpr fuel ns ts
    match ts with
    | .p 61 :: .p 61 :: ts => cmpWith fuel ns .eq a ts
    | .p 33 :: .p 61 :: ts => cmpWith fuel ns .ne a ts
    | .p 60 :: .p 61 :: ts => cmpWith fuel ns .le a ts
    | .p 62 :: .p 61 :: ts => cmpWith fuel ns .ge a ts
    | .p 60 :: ts => cmpWith fuel ns .lt a ts
    | .p 62 :: ts => cmpWith fuel ns .gt a ts
    | _ => some (a, ts)
/-- The right side of a comparison. -/
def cmpWith : Nat → Bool → BinOp → Expr → List Tk → Option (Expr × List Tk)
  | 0, _, _, _, _ => none
  | fuel + 1, ns, op, a, ts => do
    let (b, ts) ← orExpr fuel ns ts
    return (.bin op a b, ts)
/-- `a | b | ..` -/
def orExpr : Nat → Bool → List Tk → Option (Expr × List Tk)
  | 0, _, _ => none
  | fuel + 1, ns, ts => do
    let (a, ts) ← bitAndExpr fuel ns ts
    ors fuel ns a ts
/-- `| b | c ..`, from the left -/
def ors : Nat → Bool → Expr → List Tk → Option (Expr × List Tk)
  | 0, _, _, _ => none
  | fuel + 1, ns, a, ts =>
    match ts with
    | .p 124 :: .p 61 :: _ => some (a, ts)
    | .p 124 :: .p 124 :: _ => none
    | .p 124 :: ts => do
      let (b, ts) ← bitAndExpr fuel ns ts
      ors fuel ns (.bin .bitOr a b) ts
    | _ => some (a, ts)
/-- `a & b & ..` -/
def bitAndExpr : Nat → Bool → List Tk → Option (Expr × List Tk)
  | 0, _, _ => none
  | fuel + 1, ns, ts => do
    let (a, ts) ← shiftExpr fuel ns ts
    bitAnds fuel ns a ts
/-- `& b & c ..`, from the left -/
def bitAnds : Nat → Bool → Expr → List Tk → Option (Expr × List Tk)
  | 0, _, _, _ => none
  | fuel + 1, ns, a, ts =>
    match ts with
    | .p 38 :: .p 61 :: _ => none
    | .p 38 :: .p 38 :: _ => some (a, ts)
    | .p 38 :: ts => do
      let (b, ts) ← shiftExpr fuel ns ts
      bitAnds fuel ns (.bin .bitAnd a b) ts
    | _ => some (a, ts)
/-- `a << b >> ..` -/
def shiftExpr : Nat → Bool → List Tk → Option (Expr × List Tk)
  | 0, _, _ => none
  | fuel + 1, ns, ts => do
    let (a, ts) ← sumExpr fuel ns ts
    shifts fuel ns a ts
/-- `<< b >> c ..`, from the left -/
def shifts : Nat → Bool → Expr → List Tk → Option (Expr × List Tk)
  | 0, _, _, _ => none
  | fuel + 1, ns, a, ts =>
    match ts with
    | .p 60 :: .p 60 :: ts => do
      let (b, ts) ← sumExpr fuel ns ts
      shifts fuel ns (.bin .shl a b) ts
    | .p 62 :: .p 62 :: ts => do
      let (b, ts) ← sumExpr fuel ns ts
      shifts fuel ns (.bin .shr a b) ts
    | _ => some (a, ts)
/-- `a + b - ..` -/
def sumExpr : Nat → Bool → List Tk → Option (Expr × List Tk)
  | 0, _, _ => none
  | fuel + 1, ns, ts => do
    let (a, ts) ← prodExpr fuel ns ts
    sums fuel ns a ts
/-- `+ b - c ..`, from the left -/
def sums : Nat → Bool → Expr → List Tk → Option (Expr × List Tk)
  | 0, _, _, _ => none
  | fuel + 1, ns, a, ts =>
    match ts with
    | .p 43 :: .p 61 :: _ => some (a, ts)
    | .p 45 :: .p 61 :: _ => none
    | .p 43 :: ts => do
      let (b, ts) ← prodExpr fuel ns ts
      sums fuel ns (.bin .add a b) ts
    | .p 45 :: ts => do
      let (b, ts) ← prodExpr fuel ns ts
      sums fuel ns (.bin .sub a b) ts
    | _ => some (a, ts)
/-- `a * b % ..` -/
def prodExpr : Nat → Bool → List Tk → Option (Expr × List Tk)
  | 0, _, _ => none
  | fuel + 1, ns, ts => do
    let (a, ts) ← castExpr fuel ns ts
    prods fuel ns a ts
/-- `* b % c ..`, from the left -/
def prods : Nat → Bool → Expr → List Tk → Option (Expr × List Tk)
  | 0, _, _, _ => none
  | fuel + 1, ns, a, ts =>
    match ts with
    | .p 42 :: .p 61 :: _ => none
    | .p 42 :: ts => do
      let (b, ts) ← castExpr fuel ns ts
      prods fuel ns (.bin .mul a b) ts
    | .p 37 :: .p 61 :: _ => none
    | .p 37 :: ts => do
      let (b, ts) ← castExpr fuel ns ts
      prods fuel ns (.bin .rem a b) ts
    | .p 47 :: _ => none
    | _ => some (a, ts)
/-- `a as ty` -/
def castExpr : Nat → Bool → List Tk → Option (Expr × List Tk)
  | 0, _, _ => none
  | fuel + 1, ns, ts => do
    let (a, ts) ← unary fuel ns ts
    match ts with
    | .kw .as :: .id cs :: ts =>
      match ts with
      | .kw .as :: _ => none
      | .p 58 :: _ => none
      | ts => some (.cast a (name cs), ts)
    | _ => some (a, ts)
/-- Prefix operators -/
def unary : Nat → Bool → List Tk → Option (Expr × List Tk)
  | 0, _, _ => none
  | fuel + 1, ns, .p 33 :: ts => do
    let (a, ts) ← unary fuel ns ts
    return (.un .not a, ts)
  | fuel + 1, ns, .p 42 :: ts => do
    let (a, ts) ← unary fuel ns ts
    return (.un .deref a, ts)
  | fuel + 1, ns, .p 38 :: .kw .mut_ :: ts => do
    let (a, ts) ← unary fuel ns ts
    return (.un .refMut a, ts)
  | fuel + 1, ns, .p 38 :: ts => do
    let (a, ts) ← unary fuel ns ts
    return (.un .ref a, ts)
  | fuel + 1, ns, ts => do
    let (a, ts) ← primary fuel ns ts
    suffixes fuel a ts
/-- Fields, methods and indices behind an expression -/
def suffixes : Nat → Expr → List Tk → Option (Expr × List Tk)
  | 0, _, _ => none
  | fuel + 1, a, ts =>
    match ts with
    | .p 46 :: .id cs :: .p 40 :: .p 124 :: ts => do
      let (p, ts) ← pat ts
      match p, ts with
      | .name x, .p 124 :: ts =>
        let (b, ts) ← expr fuel false ts
        match ts with
        | .p 41 :: ts => suffixes fuel (.methFn a (name cs) x b) ts
        | _ => none
      | _, _ => none
    | .p 46 :: .id cs :: .p 40 :: ts => do
      let (as, ts) ← args fuel ts
      suffixes fuel (.meth a (name cs) as) ts
    | .p 46 :: .id cs :: ts => suffixes fuel (.field a (name cs)) ts
    | .p 46 :: .num n :: ts => suffixes fuel (.field a (48 + n)) ts
    | .p 63 :: ts => suffixes fuel (.try_ a) ts
    | .p 91 :: ts => do
      let (i, ts) ← expr fuel false ts
      match ts with
      | .p 93 :: ts => suffixes fuel (.index a i) ts
      | _ => none
    | _ => some (a, ts)
/-- Expressions separated by commas, up to a closing bracket -/
def args : Nat → List Tk → Option (Exprs × List Tk)
  | 0, _ => none
  | _ + 1, .p 41 :: ts => some (.nil, ts)
  | _ + 1, .p 93 :: ts => some (.nil, ts)
  | fuel + 1, ts => do
    let (a, ts) ← expr fuel false ts
    match ts with
    | .p 44 :: ts =>
      let (as, ts) ← args fuel ts
      return (.cons a as, ts)
    | .p 41 :: ts => some (.cons a .nil, ts)
    | .p 93 :: ts => some (.cons a .nil, ts)
    | _ => none
/-- The fields of a structure, up to the closing brace -/
def fieldList : Nat → List Tk → Option (Fields × List Tk)
  | 0, _ => none
  | _ + 1, .p 125 :: ts => some (.nil, ts)
  | fuel + 1, .id cs :: .p 58 :: ts => do
    let (a, ts) ← expr fuel false ts
    match ts with
    | .p 44 :: ts =>
      let (fs, ts) ← fieldList fuel ts
      return (.cons (name cs) a fs, ts)
    | .p 125 :: ts => some (.cons (name cs) a .nil, ts)
    | _ => none
  | fuel + 1, .id cs :: .p 44 :: ts => do
    let (fs, ts) ← fieldList fuel ts
    return (.cons (name cs) (.path [name cs]) fs, ts)
  | _ + 1, .id cs :: .p 125 :: ts => some (.cons (name cs) (.path [name cs]) .nil, ts)
  | _, _ => none
/-- An expression without operators around it -/
def primary : Nat → Bool → List Tk → Option (Expr × List Tk)
  | 0, _, _ => none
  | _ + 1, _, .num n :: ts => some (.int n, ts)
  | _ + 1, _, .tnum n ty :: ts => some (.cast (.int n) ty, ts)
  | _ + 1, _, .float a b :: ts => some (.float a b, ts)
  | _ + 1, _, .str cs :: ts => some (.str (name cs), ts)
  | fuel + 1, _, .p 60 :: ts =>
    -- `<dyn a::b>::f(..)`
    match ids ts with
    | (p, .p 62 :: ts) =>
      let r := pathRest fuel ts
      match r.2 with
      | .p 40 :: ts => do
        let (as, ts) ← args fuel ts
        return (.call (p ++ r.1) as, ts)
      | _ => none
    | _ => none
  | fuel + 1, _, .p 40 :: ts => do
    let (as, ts') ← args fuel ts
    match as with
    | .cons a .nil => some (a, ts')
    | as => some (.tuple as, ts')
  | fuel + 1, _, .p 91 :: ts => do
    let (as, ts) ← args fuel ts
    return (.array as, ts)
  | fuel + 1, _, .kw .if_ :: ts => do
    let (c, ts) ← expr fuel true ts
    let (t, ts) ← block fuel ts
    match ts with
    | .kw .else_ :: .kw .if_ :: ts =>
      let (e, ts) ← primary fuel false (.kw .if_ :: ts)
      return (.ite c t (.last e), ts)
    | .kw .else_ :: ts =>
      let (e, ts) ← block fuel ts
      return (.ite c t e, ts)
    | _ => return (.ite c t .nil, ts)
  | fuel + 1, _, .kw .match_ :: ts => do
    let (e, ts) ← expr fuel true ts
    match ts with
    | .p 123 :: ts =>
      let (as, ts) ← arms fuel ts
      return (.match_ e as, ts)
    | _ => none
  | fuel + 1, _, .kw .while_ :: ts => do
    let (c, ts) ← expr fuel true ts
    let (b, ts) ← block fuel ts
    return (.while_ c b, ts)
  | fuel + 1, _, .kw .for_ :: .id cs :: .kw .in_ :: ts => do
    let (e, ts) ← expr fuel true ts
    let (b, ts) ← block fuel ts
    return (.for_ (name cs) e b, ts)
  | fuel + 1, _, .kw .uns :: ts => do
    let (b, ts) ← block fuel ts
    return (.block b, ts)
  | fuel + 1, _, .p 123 :: ts => do
    let (b, ts) ← block fuel (.p 123 :: ts)
    return (.block b, ts)
  | _ + 1, _, .kw .return_ :: .p 59 :: ts => some (.return_ (.tuple .nil), .p 59 :: ts)
  | fuel + 1, ns, .kw .return_ :: ts => do
    let (e, ts) ← expr fuel ns ts
    return (.return_ e, ts)
  | _ + 1, _, .kw .break_ :: ts => some (.break_, ts)
  | _ + 1, _, .kw .continue_ :: ts => some (.continue_, ts)
  | fuel + 1, ns, .id cs :: ts =>
    let r := pathRest fuel ts
    let p := name cs :: r.1
    match r.2 with
    | .p 40 :: ts => do
      let (as, ts) ← args fuel ts
      return (.call p as, ts)
    | .p 33 :: .p 40 :: ts =>
      if panics.contains cs then do
        let ts ← skipGroup 0 ts
        return (.panic, ts)
      else none
    | .p 123 :: ts' =>
      if ns then some (.path p, .p 123 :: ts')
      else do
        let (fs, ts) ← fieldList fuel ts'
        return (.struct p fs, ts)
    | ts => some (.path p, ts)
  | _, _, _ => none
/-- The arms of `match`, up to the closing brace -/
def arms : Nat → List Tk → Option (Arms × List Tk)
  | 0, _ => none
  | _ + 1, .p 125 :: ts => some (.nil, ts)
  | fuel + 1, ts => do
    let (p, ts) ← pats fuel ts
    match ts with
    | .p 61 :: .p 62 :: ts =>
      let (e, ts) ← expr fuel false ts
      let ts := match ts with
        | .p 44 :: ts => ts
        | ts => ts
      let (as, ts) ← arms fuel ts
      return (.cons p e as, ts)
    | _ => none
/-- A block in braces -/
def block : Nat → List Tk → Option (Stmts × List Tk)
  | 0, _ => none
  | fuel + 1, .p 123 :: ts => stmts fuel ts
  | _, _ => none
/-- Statements, up to the closing brace -/
def stmts : Nat → List Tk → Option (Stmts × List Tk)
  | 0, _ => none
  | _ + 1, .p 125 :: ts => some (.nil, ts)
  | fuel + 1, .kw .let_ :: ts => do
    let (p, ts) ← pat ts
    let ts ← match ts with
      | .p 58 :: ts => skipType 0 ts
      | ts => some ts
    match ts with
    | .p 61 :: ts =>
      let (e, ts) ← expr fuel false ts
      match ts with
      | .p 59 :: ts =>
        let (r, ts) ← stmts fuel ts
        return (.let_ p e r, ts)
      | _ => none
    | _ => none
  | fuel + 1, .kw .const :: .id cs :: .p 58 :: .id ty :: .p 61 :: ts => do
    let (e, ts) ← expr fuel false ts
    match ts with
    | .p 59 :: ts =>
      let (r, ts) ← stmts fuel ts
      return (.let_ (.name (name cs)) (.cast e (name ty)) r, ts)
    | _ => none
  | fuel + 1, ts => do
    let (e, ts') ← if blockLike ts then primary fuel false ts else expr fuel false ts
    match ts' with
    | .p 59 :: ts' =>
      let (r, ts') ← stmts fuel ts'
      return (.semi e r, ts')
    | .p 125 :: ts' => some (.last e, ts')
    | ts' =>
      if blockLike ts then
        let (r, ts') ← stmts fuel ts'
        return (.semi e r, ts')
      else none
end

/-! ## Items -/

/-- `self`, by its codes -/
def selfCodes : List Nat := [115, 101, 108, 102]

/-- The names of the parameters, up to the closing bracket; `fuel` bounds their number. -/
def params : Nat → List Tk → Option (List Name × List Tk)
  | 0, _ => none
  | _ + 1, .p 41 :: ts => some ([], ts)
  | fuel + 1, .p 38 :: ts => params fuel ts
  | fuel + 1, .life :: ts => params fuel ts
  | fuel + 1, .kw .mut_ :: ts => params fuel ts
  | fuel + 1, .p 44 :: ts => params fuel ts
  | fuel + 1, .id cs :: .p 58 :: ts => do
    let ts ← skipType 0 ts
    let (ps, ts) ← params fuel ts
    return (name cs :: ps, ts)
  | fuel + 1, .id cs :: ts =>
    if cs == selfCodes then do
      let (ps, ts) ← params fuel ts
      return (name cs :: ps, ts)
    else none
  | _, _ => none

/-- A list of generic parameters, if there is one. -/
def skipGenerics : List Tk → Option (List Tk)
  | .p 60 :: ts => go 0 ts
  | ts => some ts
where
  /-- Up to the closing `>` -/
  go : Nat → List Tk → Option (List Tk)
    | _, [] => none
    | 0, .p 62 :: ts => some ts
    | depth + 1, .p 62 :: ts => go depth ts
    | depth, .p 60 :: ts => go (depth + 1) ts
    | depth, _ :: ts => go depth ts

/-- The type of a result, if it is a single identifier. -/
def retType : List Tk → Name
  | .p 45 :: .p 62 :: .id cs :: .p 123 :: _ => name cs
  | _ => 0

/-- The type of a constant, if it is a single identifier. -/
def constType : List Tk → Name
  | .id cs :: .p 61 :: _ => name cs
  | _ => 0

/-- The functions of an `impl` or trait, up to the closing brace; a function without body has no entry. -/
def fns : Nat → List Tk → Option (List Fn × List Tk)
  | 0, _ => none
  | _ + 1, .p 125 :: ts => some ([], ts)
  | fuel + 1, .p 35 :: .p 91 :: ts => do fns fuel (← skipGroup 0 ts)
  | fuel + 1, .kw .pub :: .p 40 :: ts => do fns fuel (← skipGroup 0 ts)
  | fuel + 1, .kw .pub :: ts => fns fuel ts
  | fuel + 1, .kw .const :: .kw .fn :: ts => fns fuel (.kw .fn :: ts)
  | fuel + 1, .kw .const :: .id cs :: .p 58 :: ts => do
    match ← skipType 0 ts with
    | .p 59 :: ts => fns fuel ts
    | .p 61 :: ts' =>
      let (e, ts') ← expr fuel false ts'
      match ts' with
      | .p 59 :: ts' =>
        let (r, ts') ← fns fuel ts'
        return (⟨name cs, [], constType ts, .last e⟩ :: r, ts')
      | _ => none
    | _ => none
  | fuel + 1, .kw .type :: .id _ :: .p 59 :: ts => fns fuel ts
  | fuel + 1, .kw .type :: ts => do
    match ← skipType 0 ts with
    | .p 61 :: ts =>
      match ← skipType 0 ts with
      | .p 59 :: ts => fns fuel ts
      | _ => none
    | _ => none
  | fuel + 1, .kw .fn :: .id cs :: ts => do
    match ← skipGenerics ts with
    | .p 40 :: ts =>
      let (ps, ts) ← params fuel ts
      match ← skipSig 0 ts with
      | .p 59 :: ts => fns fuel ts
      | .p 123 :: ts' =>
        let (b, ts') ← stmts fuel ts'
        let (r, ts') ← fns fuel ts'
        return (⟨name cs, ps, retType ts, b⟩ :: r, ts')
      | _ => none
    | _ => none
  | _, _ => none

/-- The identifiers of a type or trait up to `for` or an opening brace, and what follows. -/
def headIds : List Tk → List Name × List Tk
  | .kw .for_ :: ts => ([], .kw .for_ :: ts)
  | .p 123 :: ts => ([], .p 123 :: ts)
  | .id cs :: ts => let r := headIds ts; (name cs :: r.1, r.2)
  | _ :: ts => headIds ts
  | [] => ([], [])

/-- The items of a file: each ends with a semicolon or a brace closed outside of brackets.  `depth`
brackets are open, `rev` are the tokens of the item so far, in reverse. -/
def cut : Nat → List Tk → List Tk → Option (List (List Tk))
  | 0, [], [] => some []
  | _, _, [] => none
  | depth, rev, .p 40 :: ts => cut (depth + 1) (.p 40 :: rev) ts
  | depth, rev, .p 91 :: ts => cut (depth + 1) (.p 91 :: rev) ts
  | depth, rev, .p 123 :: ts => cut (depth + 1) (.p 123 :: rev) ts
  | depth + 1, rev, .p 41 :: ts => cut depth (.p 41 :: rev) ts
  | depth + 1, rev, .p 93 :: ts => cut depth (.p 93 :: rev) ts
  | 1, rev, .p 125 :: ts => (cut 0 [] ts).map ((.p 125 :: rev).reverse :: ·)
  | depth + 2, rev, .p 125 :: ts => cut (depth + 1) (.p 125 :: rev) ts
  | 0, rev, .p 59 :: ts => (cut 0 [] ts).map ((.p 59 :: rev).reverse :: ·)
  | depth, rev, t :: ts => cut depth (t :: rev) ts

/-- `test`, by its codes -/
def testCodes : List Nat := [116, 101, 115, 116]

/-- `mod` -/
def modName : Name := i!"mod"

/-- An item: the functions of an `impl`, a trait or a module, or one function; nothing for `use`,
structures, enumerations, calls of macros and tests.  The second `;` in
`use a::{b};` is an item of its own.  `fuel` bounds the number of attributes and the nesting. -/
def item : Nat → List Tk → Option (List Impl)
  | 0, _ => none
  | fuel + 1, .p 35 :: .p 91 :: .id cs :: ts => do
    if cs == testCodes then return [] else item fuel (← skipGroup 0 ts)
  | fuel + 1, .kw .pub :: .p 40 :: ts => do item fuel (← skipGroup 0 ts)
  | fuel + 1, .kw .pub :: ts => item fuel ts
  | fuel + 1, .kw .fn :: ts =>
    match fns fuel (.kw .fn :: ts ++ [.p 125]) with
    | some (f, []) => some [⟨[modName], 0, f⟩]
    | _ => none
  | fuel + 1, .kw .const :: ts =>
    match fns fuel (.kw .const :: ts ++ [.p 125]) with
    | some (f, []) => some [⟨[modName], 0, f⟩]
    | _ => none
  | _ + 1, .kw .mod :: .id _ :: .p 59 :: [] => some []
  | fuel + 1, .kw .mod :: .id cs :: .p 123 :: ts =>
    match fns fuel ts with
    | some (f, []) => some [⟨[modName], name cs, f⟩]
    | _ => none
  | _ + 1, .id _ :: .p 33 :: _ => some []
  | _ + 1, .kw .enum :: _ => some []
  | _ + 1, .p 59 :: [] => some []
  | _ + 1, .kw .use :: _ => some []
  | _ + 1, .kw .struct :: _ => some []
  | fuel + 1, .kw .trait :: .id cs :: ts =>
    match (headIds ts).2 with
    | .p 123 :: ts =>
      match fns fuel ts with
      | some (f, []) => some [⟨[name cs], name cs, f⟩]
      | _ => none
    | _ => none
  | fuel + 1, .kw .impl :: ts => do
    match headIds (← skipGenerics ts) with
    | (trait, .kw .for_ :: ts) =>
      match headIds ts with
      | (ty :: _, .p 123 :: ts) =>
        match fns fuel ts with
        | some (f, []) => some [⟨trait, ty, f⟩]
        | _ => none
      | _ => none
    | (ty :: _, .p 123 :: ts) =>
      match fns fuel ts with
      | some (f, []) => some [⟨[], ty, f⟩]
      | _ => none
    | _ => none
  | _, _ => none

/-- The items in a list. -/
def itemsOf : List (List Tk) → Option (List Impl)
  | [] => some []
  | ts :: rest => do
    let a ← item (8 * ts.length) ts
    let b ← itemsOf rest
    return a ++ b

/-- The functions in a text. -/
def implsOf (cs : List Nat) : Option (List Impl) := do
  itemsOf (← cut 0 [] (← tokens (← Src.lex cs)))

/-! ## Structures and enumerations -/

/-- The type of a field, if it is a single identifier. -/
def fieldType : List Tk → Name
  | .id cs :: .p 44 :: _ => name cs
  | .id cs :: .p 125 :: _ => name cs
  | .id cs :: .p 41 :: _ => name cs
  | _ => 0

/-- The fields of a structure, up to the closing brace; `fuel` bounds their number. -/
def declFields : Nat → List Tk → Option (List (Name × Name))
  | 0, _ => none
  | _ + 1, .p 125 :: [] => some []
  | fuel + 1, .p 35 :: .p 91 :: ts => do declFields fuel (← skipGroup 0 ts)
  | fuel + 1, .kw .pub :: .p 40 :: ts => do declFields fuel (← skipGroup 0 ts)
  | fuel + 1, .kw .pub :: ts => declFields fuel ts
  | fuel + 1, .id cs :: .p 58 :: ts => do
    match ← skipField 0 ts with
    | .p 44 :: ts' => return (name cs, fieldType ts) :: (← declFields fuel ts')
    | ts' => return (name cs, fieldType ts) :: (← declFields fuel ts')
  | _, _ => none
where
  /-- The tokens from behind the type of a field on. -/
  skipField : Nat → List Tk → Option (List Tk)
    | _, [] => none
    | 0, .p 44 :: ts => some (.p 44 :: ts)
    | 0, .p 125 :: ts => some (.p 125 :: ts)
    | depth, .p 60 :: ts => skipField (depth + 1) ts
    | depth, .p 40 :: ts => skipField (depth + 1) ts
    | depth, .p 91 :: ts => skipField (depth + 1) ts
    | depth + 1, .p 62 :: ts => skipField depth ts
    | depth + 1, .p 41 :: ts => skipField depth ts
    | depth + 1, .p 93 :: ts => skipField depth ts
    | depth, _ :: ts => skipField depth ts

/-- The variants of an enumeration, up to the closing brace; `fuel` bounds their number. -/
def declVariants : Nat → List Tk → Option (List (Name × Option Nat))
  | 0, _ => none
  | _ + 1, .p 125 :: [] => some []
  | fuel + 1, .p 35 :: .p 91 :: ts => do declVariants fuel (← skipGroup 0 ts)
  | fuel + 1, .p 44 :: ts => declVariants fuel ts
  | fuel + 1, .id cs :: .p 61 :: .num n :: ts => do return (name cs, some n) :: (← declVariants fuel ts)
  | fuel + 1, .id cs :: .p 40 :: ts => do return (name cs, none) :: (← declVariants fuel (← skipGroup 0 ts))
  | fuel + 1, .id cs :: ts => do return (name cs, none) :: (← declVariants fuel ts)
  | _, _ => none

/-- `ubx`, by its codes: the attributes that call a macro, and their arguments, begin with it. -/
def ubxCodes : List Nat := [117, 98, 120]

/-- A structure or enumeration that no macro is called for; nothing for other items. -/
def decl : Nat → List Tk → Option (List Decl)
  | 0, _ => none
  | fuel + 1, .p 35 :: .p 91 :: .id cs :: ts => do
    if cs.take 3 == ubxCodes then return [] else decl fuel (← skipGroup 0 ts)
  | fuel + 1, .kw .pub :: .p 40 :: ts => do decl fuel (← skipGroup 0 ts)
  | fuel + 1, .kw .pub :: ts => decl fuel ts
  | fuel + 1, .kw .struct :: .id cs :: ts => do
    match ← skipGenerics ts with
    | .p 123 :: ts => return [.struct (name cs) (← declFields fuel ts)]
    | .p 40 :: .kw .pub :: ts => return [.struct (name cs) [(i!"0", fieldType ts)]]
    | .p 40 :: ts => return [.struct (name cs) [(i!"0", fieldType ts)]]
    | ts =>
      match ← skipSig 0 ts with
      | .p 123 :: ts => return [.struct (name cs) (← declFields fuel ts)]
      | _ => none
  | fuel + 1, .kw .enum :: .id cs :: .p 123 :: ts => do return [.enum (name cs) (← declVariants fuel ts)]
  | _ + 1, _ => some []

/-- The structures and enumerations in a list of items. -/
def declList : List (List Tk) → Option (List Decl)
  | [] => some []
  | ts :: rest => do
    let a ← decl (8 * ts.length) ts
    let b ← declList rest
    return a ++ b

/-- The functions, and the structures and enumerations, in a text. -/
def programOf (cs : List Nat) : Option (List Impl × List Decl) := do
  let its ← cut 0 [] (← tokens (← Src.lex cs))
  return (← itemsOf its, ← declList its)

end Ublox.Code
