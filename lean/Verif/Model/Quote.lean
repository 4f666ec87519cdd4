import Verif.Model.Macro
import Verif.Model.Codegen

/-!
# What the code generators do

The part of Rust in which `ublox_derive/src/output.rs` is written: its grammar and its meaning.  No code of
`/repo`.  Everything outside of this part is refused.  Simplifications:

* A reference is the value that it refers to.  Iterators, vectors and sets are lists.
* Types are skipped; a number takes the type of the other operand or bound.
* The descriptions of packets, enumerations and flags, and the methods that `ublox_derive/src/types.rs` defines
  for them, are those of the model (`Model/Input.lean`, `Model/Codegen.lean`).
* `quote!` puts the tokens of its variables into the tokens of its argument; in a repetition at most one of the
  variables is a list.  A number becomes a literal with its type, a text a string literal.  Lifetimes have no
  names.
* Source locations (`Span`) and the texts of errors are not represented.
-/

namespace Ublox.Quote

open Code (Tk Name name K pathRest skipType skipSig params)
open Syn (Ty Word PackField)

/-! ## Syntax -/

/-- What stands in the argument of `quote!` between repetitions: tokens, or `#x` -/
inductive Piece where
  | toks (ts : List Tk)
  | var (x : Name)
  deriving DecidableEq, Repr

/-- The argument of `quote!`: pieces and repetitions `#( .. ) sep *` -/
inductive Part where
  | one (p : Piece)
  | rep (body : List Piece) (sep : List Tk)
  deriving DecidableEq, Repr

/-- Patterns -/
inductive Pt where
  | name (x : Name)
  | wild
  | pair (a b : Pt)
  /-- `A::B`, `A::B(p)`, `Some(p)`, `None` -/
  | ctor0 (path : List Name)
  | ctor1 (path : List Name) (p : Pt)
  | or (a b : Pt)
  deriving DecidableEq, Repr

/-- Binary operators -/
inductive Op where
  | add | sub | eq | ne | or | and
  deriving DecidableEq, Repr

mutual
/-- Expressions -/
inductive Ex where
  | path (p : List Name)
  | num (n : Nat) (ty : Name)
  | str (cs : List Nat)
  | quote (ps : List Part)
  /-- `parse_quote!`, also `syn::parse_str` -/
  | parse (ts : List Tk)
  /-- `format_ident!` with the text before and behind `{}` -/
  | formatIdent (pre suf : List Nat) (e : Ex)
  /-- `format!`; the result is not looked at -/
  | format
  | assert (e : Ex)
  | assertEq (a b : Ex)
  | assertNe (a b : Ex)
  | unimplemented
  | field (e : Ex) (name : Name)
  | index (e : Ex) (i : Nat)
  | vec (es : Exs)
  | call (f : List Name) (args : Exs)
  | meth (e : Ex) (name : Name) (args : Exs)
  /-- a method whose last argument is a closure -/
  | methFn (e : Ex) (name : Name) (args : Exs) (xs : List Name) (body : Ex)
  | not (e : Ex)
  | bin (op : Op) (a b : Ex)
  | range (lo hi : Ex)
  | rangeIncl (lo hi : Ex)
  | set (x : Name) (i : Nat) (e : Ex)
  | assign (x : Name) (e : Ex)
  | addAssign (x : Name) (e : Ex)
  | ite (c : Ex) (t e : Sts)
  | ifLet (p : Pt) (c : Ex) (t e : Sts)
  | match_ (e : Ex) (arms : Ams)
  | for_ (p : Pt) (e : Ex) (b : Sts)
  | block (b : Sts)
  | return_ (e : Ex)
  | break_
/-- Lists of expressions -/
inductive Exs where
  | nil
  | cons (e : Ex) (es : Exs)
/-- Statements of a block -/
inductive Sts where
  | nil
  | last (e : Ex)
  | semi (e : Ex) (rest : Sts)
  | let_ (p : Pt) (e : Ex) (rest : Sts)
/-- Arms of `match` -/
inductive Ams where
  | nil
  | cons (p : Pt) (e : Ex) (arms : Ams)
end

deriving instance Repr for Ex, Exs, Sts, Ams

/-- A function -/
structure Fn where
  name : Name
  params : List Name
  body : Sts
  deriving Repr

/-! ## Grammar -/

/-- The argument of `quote!` as pieces; `acc` are the tokens so far, in reverse. -/
def pieces : List Tk → List Tk → List Piece
  | acc, [] => if acc.isEmpty then [] else [.toks acc.reverse]
  | acc, .p 35 :: .id x :: ts =>
    if acc.isEmpty then .var (name x) :: pieces [] ts else .toks acc.reverse :: .var (name x) :: pieces [] ts
  | acc, t :: ts => pieces (t :: acc) ts

/-- The argument of `quote!`; `acc` are the tokens since the last repetition, in reverse. -/
def template : Nat → List Tk → List Tk → Option (List Part)
  | 0, _, _ => none
  | _ + 1, acc, [] => some ((pieces [] acc.reverse).map .one)
  | fuel + 1, acc, .p 35 :: .p 40 :: ts => do
    let (body, ts) ← Macro.group 0 ts
    let (sep, _, ts) ← Macro.repeated ts
    let rest ← template fuel [] ts
    return (pieces [] acc.reverse).map .one ++ .rep (pieces [] body) sep.toList :: rest
  | fuel + 1, acc, t :: ts => template fuel (t :: acc) ts

/-- `ref`, `_` by their codes -/
def refCodes : List Nat := [114, 101, 102]
def wildCodes : List Nat := [95]

/-- Does a path begin with a capital letter? -/
def capital : List Nat → Bool
  | c :: _ => Nat.ble 65 c && Nat.ble c 90
  | [] => false

/-- A pattern; `fuel` bounds its depth. -/
def pat : Nat → List Tk → Option (Pt × List Tk)
  | 0, _ => none
  | fuel + 1, .kw .mut_ :: ts => pat fuel ts
  | fuel + 1, .p 40 :: ts => do
    let (a, ts) ← pat fuel ts
    match ts with
    | .p 44 :: ts =>
      let (b, ts) ← pat fuel ts
      match ts with
      | .p 41 :: ts => some (.pair a b, ts)
      | _ => none
    | _ => none
  | fuel + 1, .id cs :: ts =>
    if Macro.sameCodes cs refCodes then pat fuel ts
    else if Macro.sameCodes cs wildCodes then some (.wild, ts)
    else if capital cs then
      let r := pathRest fuel ts
      match r.2 with
      | .p 40 :: ts => do
        let (a, ts) ← pat fuel ts
        match ts with
        | .p 41 :: ts => some (.ctor1 (name cs :: r.1) a, ts)
        | _ => none
      | ts => some (.ctor0 (name cs :: r.1), ts)
    else some (.name (name cs), ts)
  | _, _ => none

/-- Alternatives -/
def pats : Nat → List Tk → Option (Pt × List Tk)
  | 0, _ => none
  | fuel + 1, ts => do
    let (a, ts) ← pat fuel ts
    match ts with
    | .p 124 :: ts =>
      let (b, ts) ← pats fuel ts
      return (.or a b, ts)
    | ts => some (a, ts)

/-- The text of a format before and behind its only `{}`. -/
def splitFormat : List Nat → Option (List Nat × List Nat)
  | [] => none
  | 123 :: 125 :: cs => some ([], cs)
  | c :: cs => (splitFormat cs).map fun r => (c :: r.1, r.2)

/-- The parameters of a closure, up to the closing `|`. -/
def closureParams : List Tk → Option (List Name × List Tk)
  | .id cs :: .p 124 :: ts => some ([name cs], ts)
  | .id cs :: .p 44 :: ts => (closureParams ts).map fun r => (name cs :: r.1, r.2)
  | _ => none

/-- Does a statement begin with an expression that needs no semicolon? -/
def blockLike : List Tk → Bool
  | .kw .if_ :: _ => true
  | .kw .match_ :: _ => true
  | .kw .for_ :: _ => true
  | .p 123 :: _ => true
  | _ => false

mutual
/-- An expression.  `fuel` bounds the depth. -/
def expr : Nat → List Tk → Option (Ex × List Tk)
  | 0, _ => none
  | fuel + 1, ts => do
    let (a, ts) ← orExpr fuel ts
    match a, ts with
    | .path [x], .p 43 :: .p 61 :: ts =>
      let (b, ts) ← expr fuel ts
      return (.addAssign x b, ts)
    | a, .p 61 :: .p 62 :: ts => some (a, .p 61 :: .p 62 :: ts)
    | .path [x], .p 61 :: ts =>
      let (b, ts) ← expr fuel ts
      return (.assign x b, ts)
    | .index (.path [x]) i, .p 61 :: ts =>
      let (b, ts) ← expr fuel ts
      return (.set x i b, ts)
    | a, .p 46 :: .p 46 :: .p 61 :: ts =>
      let (b, ts) ← orExpr fuel ts
      return (.rangeIncl a b, ts)
    | a, .p 46 :: .p 46 :: ts =>
      let (b, ts) ← orExpr fuel ts
      return (.range a b, ts)
    | _, _ => some (a, ts)
/-- `a || b` -/
def orExpr : Nat → List Tk → Option (Ex × List Tk)
  | 0, _ => none
  | fuel + 1, ts => do
    let (a, ts) ← andExpr fuel ts
    match ts with
    | .p 124 :: .p 124 :: ts =>
      let (b, ts) ← orExpr fuel ts
      return (.bin .or a b, ts)
    | _ => some (a, ts)
/-- `a && b` -/
def andExpr : Nat → List Tk → Option (Ex × List Tk)
  | 0, _ => none
  | fuel + 1, ts => do
    let (a, ts) ← cmpExpr fuel ts
    match ts with
    | .p 38 :: .p 38 :: ts =>
      let (b, ts) ← andExpr fuel ts
      return (.bin .and a b, ts)
    | _ => some (a, ts)
/-- A comparison -/
def cmpExpr : Nat → List Tk → Option (Ex × List Tk)
  | 0, _ => none
  | fuel + 1, ts => do
    let (a, ts) ← sumExpr fuel ts
    match ts with
    | .p 61 :: .p 61 :: ts =>
      let (b, ts) ← sumExpr fuel ts
      return (.bin .eq a b, ts)
    | .p 33 :: .p 61 :: ts =>
      let (b, ts) ← sumExpr fuel ts
      return (.bin .ne a b, ts)
    | _ => some (a, ts)
/-- A sum or difference of two -/
def sumExpr : Nat → List Tk → Option (Ex × List Tk)
  | 0, _ => none
  | fuel + 1, ts => do
    let (a, ts) ← unary fuel ts
    match ts with
    | .p 43 :: .p 61 :: _ => some (a, ts)
    | .p 43 :: ts =>
      let (b, ts) ← unary fuel ts
      return (.bin .add a b, ts)
    | .p 45 :: ts =>
      let (b, ts) ← unary fuel ts
      return (.bin .sub a b, ts)
    | _ => some (a, ts)
/-- Prefix operators -/
def unary : Nat → List Tk → Option (Ex × List Tk)
  | 0, _ => none
  | fuel + 1, .p 33 :: ts => do
    let (a, ts) ← unary fuel ts
    return (.not a, ts)
  | fuel + 1, .p 42 :: ts => unary fuel ts
  | fuel + 1, .p 38 :: .kw .mut_ :: ts => unary fuel ts
  | fuel + 1, .p 38 :: ts => unary fuel ts
  | fuel + 1, ts => do
    let (a, ts) ← primary fuel ts
    suffixes fuel a ts
/-- Fields, methods and indices behind an expression -/
def suffixes : Nat → Ex → List Tk → Option (Ex × List Tk)
  | 0, _, _ => none
  | fuel + 1, a, ts =>
    match ts with
    | .p 46 :: .id cs :: .p 40 :: ts => do
      let (as, f, ts) ← args fuel ts
      match f with
      | none => suffixes fuel (.meth a (name cs) as) ts
      | some (xs, b) => suffixes fuel (.methFn a (name cs) as xs b) ts
    | .p 46 :: .id cs :: ts => suffixes fuel (.field a (name cs)) ts
    | .p 46 :: .num n :: ts => suffixes fuel (.field a (48 + n)) ts
    | .p 91 :: .num n :: .p 93 :: ts => suffixes fuel (.index a n) ts
    | _ => some (a, ts)
/-- Expressions separated by commas, and possibly a closure at the end, up to the closing bracket -/
def args : Nat → List Tk → Option (Exs × Option (List Name × Ex) × List Tk)
  | 0, _ => none
  | _ + 1, .p 41 :: ts => some (.nil, none, ts)
  | _ + 1, .p 93 :: ts => some (.nil, none, ts)
  | fuel + 1, .p 124 :: ts => do
    let (xs, ts) ← closureParams ts
    let (b, ts) ← expr fuel ts
    match ts with
    | .p 41 :: ts => some (.nil, some (xs, b), ts)
    | _ => none
  | fuel + 1, ts => do
    let (a, ts) ← expr fuel ts
    match ts with
    | .p 44 :: ts =>
      let (as, f, ts) ← args fuel ts
      return (.cons a as, f, ts)
    | .p 41 :: ts => some (.cons a .nil, none, ts)
    | .p 93 :: ts => some (.cons a .nil, none, ts)
    | _ => none
/-- The call of a macro, from its name on -/
def macroCall : Nat → Name → List Tk → Option (Ex × List Tk)
  | 0, _, _ => none
  | fuel + 1, m, ts =>
    if m = i!"quote" then do
      let (body, ts) ← Macro.group 0 ts
      let ps ← template (body.length + 1) [] body
      return (.quote ps, ts)
    else if m = i!"parse_quote" then do
      let (body, ts) ← Macro.group 0 ts
      return (.parse body, ts)
    else if m = i!"unimplemented" then do
      let (_, ts) ← Macro.group 0 ts
      return (.unimplemented, ts)
    else if m = i!"format" then do
      let (_, ts) ← Macro.group 0 ts
      return (.format, ts)
    else do
      let (as, f, ts) ← args fuel ts
      match f with
      | some _ => none
      | none =>
        if m = i!"vec" then return (.vec as, ts)
        else if m = i!"format_ident" then
          match as with
          | .cons (.str cs) (.cons e .nil) => do
            let (a, b) ← splitFormat cs
            return (.formatIdent a b e, ts)
          | _ => none
        else if m = i!"assert" then
          match as with
          | .cons a .nil => some (.assert a, ts)
          | _ => none
        else if m = i!"assert_eq" then
          match as with
          | .cons a (.cons b _) => some (.assertEq a b, ts)
          | _ => none
        else if m = i!"assert_ne" then
          match as with
          | .cons a (.cons b _) => some (.assertNe a b, ts)
          | _ => none
        else none
/-- An expression without operators around it -/
def primary : Nat → List Tk → Option (Ex × List Tk)
  | 0, _ => none
  | _ + 1, .num n :: ts => some (.num n 0, ts)
  | _ + 1, .tnum n ty :: ts => some (.num n ty, ts)
  | _ + 1, .str cs :: ts => some (.str cs, ts)
  | _ + 1, .p 40 :: .p 41 :: ts => some (.block .nil, ts)
  | fuel + 1, .p 40 :: ts => do
    let (a, ts) ← expr fuel ts
    match ts with
    | .p 41 :: ts => some (a, ts)
    | .p 44 :: ts =>
      let (b, ts) ← expr fuel ts
      match ts with
      | .p 41 :: ts => some (.call [i!"pair"] (.cons a (.cons b .nil)), ts)
      | _ => none
    | _ => none
  | fuel + 1, .kw .if_ :: .kw .let_ :: ts => do
    let (p, ts) ← pats fuel ts
    match ts with
    | .p 61 :: ts =>
      let (c, ts) ← expr fuel ts
      let (t, ts) ← block fuel ts
      let (e, ts) ← elseBlock fuel ts
      return (.ifLet p c t e, ts)
    | _ => none
  | fuel + 1, .kw .if_ :: ts => do
    let (c, ts) ← expr fuel ts
    let (t, ts) ← block fuel ts
    let (e, ts) ← elseBlock fuel ts
    return (.ite c t e, ts)
  | fuel + 1, .kw .match_ :: ts => do
    let (e, ts) ← expr fuel ts
    match ts with
    | .p 123 :: ts =>
      let (as, ts) ← arms fuel ts
      return (.match_ e as, ts)
    | _ => none
  | fuel + 1, .kw .for_ :: ts => do
    let (p, ts) ← pat fuel ts
    match ts with
    | .kw .in_ :: ts =>
      let (e, ts) ← expr fuel ts
      let (b, ts) ← block fuel ts
      return (.for_ p e b, ts)
    | _ => none
  | fuel + 1, .p 123 :: ts => do
    let (b, ts) ← stmts fuel ts
    return (.block b, ts)
  | fuel + 1, .kw .return_ :: ts => do
    let (e, ts) ← expr fuel ts
    return (.return_ e, ts)
  | _ + 1, .kw .break_ :: ts => some (.break_, ts)
  | fuel + 1, .id cs :: ts =>
    let r := pathRest fuel ts
    match r.2 with
    | .p 40 :: ts => do
      let (as, f, ts) ← args fuel ts
      match f with
      | none => return (.call (name cs :: r.1) as, ts)
      | some _ => none
    | .p 33 :: .p 40 :: ts => macroCall fuel (name cs) ts
    | .p 33 :: .p 91 :: ts => macroCall fuel (name cs) ts
    | .p 33 :: .p 123 :: ts => macroCall fuel (name cs) ts
    | ts => some (.path (name cs :: r.1), ts)
  | _, _ => none
/-- What follows the block of an `if` -/
def elseBlock : Nat → List Tk → Option (Sts × List Tk)
  | 0, _ => none
  | fuel + 1, .kw .else_ :: .kw .if_ :: ts => do
    let (e, ts) ← primary fuel (.kw .if_ :: ts)
    return (.last e, ts)
  | fuel + 1, .kw .else_ :: ts => block fuel ts
  | _ + 1, ts => some (.nil, ts)
/-- The arms of `match`, up to the closing brace -/
def arms : Nat → List Tk → Option (Ams × List Tk)
  | 0, _ => none
  | _ + 1, .p 125 :: ts => some (.nil, ts)
  | fuel + 1, ts => do
    let (p, ts) ← pats fuel ts
    match ts with
    | .p 61 :: .p 62 :: ts =>
      let (e, ts) ← expr fuel ts
      let ts := match ts with
        | .p 44 :: ts => ts
        | ts => ts
      let (as, ts) ← arms fuel ts
      return (.cons p e as, ts)
    | _ => none
/-- A block in braces -/
def block : Nat → List Tk → Option (Sts × List Tk)
  | 0, _ => none
  | fuel + 1, .p 123 :: ts => stmts fuel ts
  | _, _ => none
/-- Statements, up to the closing brace -/
def stmts : Nat → List Tk → Option (Sts × List Tk)
  | 0, _ => none
  | _ + 1, .p 125 :: ts => some (.nil, ts)
  | fuel + 1, .kw .let_ :: ts => do
    let (p, ts) ← pat fuel ts
    let ts ← match ts with
      | .p 58 :: ts => skipType 0 ts
      | ts => some ts
    match ts with
    | .p 61 :: ts =>
      let (e, ts) ← expr fuel ts
      match ts with
      | .p 59 :: ts =>
        let (r, ts) ← stmts fuel ts
        return (.let_ p e r, ts)
      | _ => none
    | _ => none
  | fuel + 1, ts => do
    let (e, ts') ← if blockLike ts then primary fuel ts else expr fuel ts
    match ts' with
    | .p 59 :: ts' =>
      let (r, ts') ← stmts fuel ts'
      return (.semi e r, ts')
    | .p 125 :: ts' => some (.last e, ts')
    | ts' =>
      if blockLike ts then
        let (r, ts') ← stmts fuel ts'
        return (.semi e r, ts')
      else none
end

/-- An item: a function; nothing for `use` and the second `;` behind `use a::{b};`. -/
def item : List Tk → Option (List Fn)
  | .kw .pub :: ts => item ts
  | .kw .use :: _ => some []
  | .p 59 :: [] => some []
  | .kw .fn :: .id cs :: .p 40 :: ts => do
    let (ps, ts') ← params (8 * ts.length) ts
    match ← skipSig 0 ts' with
    | .p 123 :: ts' =>
      match stmts (8 * ts.length) ts' with
      | some (b, []) => some [⟨name cs, ps, b⟩]
      | _ => none
    | _ => none
  | _ => none

/-- The functions of a list of items -/
def itemsOf : List (List Tk) → Option (List Fn)
  | [] => some []
  | ts :: rest => do
    let a ← item ts
    let b ← itemsOf rest
    return a ++ b

/-- The functions of a text -/
def fnsOf (cs : List Nat) : Option (List Fn) := do
  itemsOf (← Code.cut 0 [] (← Code.tokens (← Src.lex cs)))

/-! ## Values -/

/-- What `quote!` returns: tokens, what the declarations contain, other results of `quote!`, and repetitions. -/
inductive Node where
  | tks (ts : List Tk)
  | ty (t : Ty)
  | fn (f : Syn.Fn)
  | path (p : List Word)
  | scale (q : Rat)
  | sub (ns : List Node)
  | rep (sep : List Tk) (rounds : List (List Node))
  /-- something that cannot be put into code -/
  | bad

/-- `ublox_derive/src/types.rs:84-91`, `PackFieldMapDesc` as the generators see it -/
structure MapV where
  mapType : Option Syn.MapTypeDesc
  scale : Option Rat
  convertMayFail : Bool
  getAsRef : Bool

/-- `ublox_derive/src/types.rs:62-82`, `158-173`, a field as the generators see it: its members and what its
methods return -/
structure FieldV where
  name : List Nat
  ty : Ty
  map : MapV
  comment : List Nat
  sizeBytes : Option Nat
  intermediateType : Ty
  intermediateFieldName : List Nat
  byteArray : Bool
  sizeFn : Option (List Word)
  optional : Bool

/-- `ublox_derive/src/types.rs:6-36`, a packet as the generators see it -/
structure PackV where
  name : List Nat
  header : Syn.PackHeader
  comment : List Nat
  fields : List FieldV
  size : Option Nat
  sizeExceptLast : Option Nat
  sizeExceptSizeFn : Option Nat

/-- `ublox_derive/src/types.rs:194-202`, an enumeration as the generators see it; `repr` is `u8` -/
structure EnumV where
  name : List Nat
  variants : List (List Nat × Nat)
  attrs : List (List Node)
  rest : Option Rest
  fromFn : Option FromFn
  intoRaw : Bool

/-- A constant of flags as the generators see it -/
structure ConstV where
  name : List Nat
  value : Nat
  attrs : List (List Node)

/-- Flags as the generators see them -/
structure FlagsV where
  name : List Nat
  nbits : Nat
  repr : List Nat
  consts : List ConstV
  attrs : List (List Node)
  vis : List Node
  rest : Option Rest
  fromFn : Option FromFn
  intoRaw : Bool

/-- The list of packets as the generators see it -/
structure RecvV where
  unionName : List Nat
  unknownTy : List Nat
  allPackets : List (List Nat)

/-- Values -/
inductive V where
  | unit
  | bool (b : Bool)
  /-- a number and its type, 0 if it is not known -/
  | num (n : Nat) (ty : Name)
  | str (cs : List Nat)
  /-- `Ident` -/
  | ident (cs : List Nat)
  /-- `TokenStream` -/
  | toks (ns : List Node)
  | ty (t : Ty)
  | none
  | some (v : V)
  | ok (v : V)
  | err
  | pair (a b : V)
  | list (vs : List V)
  /-- a variant without data -/
  | tag (path : List Name)
  /-- `PayloadLen::Fixed(x)`, `PayloadLen::Max(x)` -/
  | tagged (path : List Name) (v : V)
  | pack (d : PackV)
  | header (h : Syn.PackHeader)
  | packField (f : FieldV)
  | fieldMap (m : MapV)
  | mapType (m : Syn.MapTypeDesc)
  | enum (e : EnumV)
  | flags (d : FlagsV)
  | flagConst (c : ConstV)
  | recv (r : RecvV)

/-- An optional value -/
def optV : Option V → V
  | Option.none => .none
  | Option.some v => .some v

/-- A number of type `usize` -/
abbrev usizeV (n : Nat) : V := .num n i!"usize"

/-- `UbxTypeFromFn` -/
def fromFnV : FromFn → V
  | .from => .tag [i!"UbxTypeFromFn", i!"From"]
  | .fromUnchecked => .tag [i!"UbxTypeFromFn", i!"FromUnchecked"]

/-- `UbxEnumRestHandling` -/
def restV : Rest → V
  | .reserved => .tag [i!"UbxEnumRestHandling", i!"Reserved"]
  | .errorProne => .tag [i!"UbxEnumRestHandling", i!"ErrorProne"]

/-- `UbxTypeIntoFn` -/
def intoFnV : Bool → V
  | true => .some (.tag [i!"UbxTypeIntoFn", i!"Raw"])
  | false => .none

/-- `PayloadLen` -/
def payloadLenV : PayloadLen → V
  | .fixed n => .tagged [i!"PayloadLen", i!"Fixed"] (.num n i!"u16")
  | .max n => .tagged [i!"PayloadLen", i!"Max"] (.num n i!"u16")

/-! ## Meaning -/

/-- How evaluation ends without value: the macro panics, or there is no rule. -/
inductive Stop where
  | panic
  | stuck
  deriving DecidableEq, Repr

/-- Result of a computation -/
abbrev O (α : Type) := Except Stop α

/-- There is no rule. -/
abbrev stuck {α : Type} : O α := .error .stuck

/-- Variables; the innermost comes first. -/
abbrev Env := List (Name × V)

/-- How an expression ends -/
inductive Out where
  | val (v : V)
  | ret (v : V)
  | brk

/-- Result of an expression -/
abbrev Res := O (Out × Env)

/-- What `quote!` puts for a value -/
def V.node : V → Node
  | .num n t => .tks [.tnum n t]
  | .str cs => .tks [.str cs]
  | .ident cs => .tks [.id cs]
  | .toks ns => .sub ns
  | .ty t => .ty t
  | _ => .bad

/-- The value of a variable -/
def lookup (x : Name) : Env → O V
  | [] => stuck
  | (y, v) :: env => if Nat.beq y x then .ok v else lookup x env

/-- A variable gets another value. -/
def assign (x : Name) (w : V) : Env → O Env
  | [] => stuck
  | (y, v) :: env => if Nat.beq y x then .ok ((y, w) :: env) else (assign x w env).map ((y, v) :: ·)

/-- What `quote!` puts for a variable -/
def varNode (x : Name) (env : Env) : Node :=
  match lookup x env with
  | .ok v => v.node
  | .error _ => .bad

/-- The first list among the variables of a repetition -/
def listVar (env : Env) : List Piece → Option (Name × List V)
  | [] => none
  | .toks _ :: ps => listVar env ps
  | .var x :: ps =>
    match lookup x env with
    | .ok (.list vs) => some (x, vs)
    | _ => listVar env ps

/-- The argument of `quote!` between repetitions -/
def quotePieces (env : Env) : List Piece → List Node
  | [] => []
  | .toks ts :: ps => .tks ts :: quotePieces env ps
  | .var x :: ps => varNode x env :: quotePieces env ps

/-- The argument of `quote!` -/
def quoteParts (env : Env) : List Part → List Node
  | [] => []
  | .one (.toks ts) :: ps => .tks ts :: quoteParts env ps
  | .one (.var x) :: ps => varNode x env :: quoteParts env ps
  | .rep body sep :: ps =>
    (match listVar env body with
    | some (x, vs) => .rep sep (vs.map fun v => quotePieces ((x, v) :: env) body)
    | none => .bad) :: quoteParts env ps

/-- `parse_quote!` of a type: an identifier, or a reference to a slice of one -/
def parseTy : List Tk → O V
  | [.id cs] => if Macro.sameCodes cs (Src.codes "u8") then .ok (.ty (.path [.u8]))
    else if Macro.sameCodes cs (Src.codes "i8") then .ok (.ty (.path [.i8])) else stuck
  | [.p 38, .p 91, .id cs, .p 93] =>
    if Macro.sameCodes cs (Src.codes "u8") then .ok (.ty (.ref (.slice (.path [.u8])))) else stuck
  | _ => stuck

/-- The fields of the descriptions -/
def fieldOf (v : V) (n : Name) : O V :=
  match v with
  | .pack d =>
    if n = i!"name" then .ok (.str d.name)
    else if n = i!"header" then .ok (.header d.header)
    else if n = i!"comment" then .ok (.str d.comment)
    else if n = i!"fields" then .ok (.list (d.fields.map .packField)) else stuck
  | .header h =>
    if n = i!"class" then .ok (.num h.cls i!"u8")
    else if n = i!"id" then .ok (.num h.id i!"u8")
    else if n = i!"payload_len" then .ok (payloadLenV h.payloadLen)
    else if n = i!"flags" then
      .ok (.list (h.flags.map fun _ => .tag [i!"PacketFlag", i!"DefaultForBuilder"])) else stuck
  | .packField f =>
    if n = i!"name" then .ok (.ident f.name)
    else if n = i!"ty" then .ok (.ty f.ty)
    else if n = i!"map" then .ok (.fieldMap f.map)
    else if n = i!"comment" then .ok (.str f.comment)
    else if n = i!"size_bytes" then .ok (optV (f.sizeBytes.map usizeV)) else stuck
  | .fieldMap m =>
    if n = i!"map_type" then .ok (optV (m.mapType.map .mapType))
    else if n = i!"scale" then .ok (optV (m.scale.map fun q => .toks [.scale q]))
    else if n = i!"convert_may_fail" then .ok (.bool m.convertMayFail)
    else if n = i!"get_as_ref" then .ok (.bool m.getAsRef) else stuck
  | .mapType m =>
    if n = i!"from_fn" then .ok (.toks [.fn m.fromFn])
    else if n = i!"is_valid_fn" then .ok (.toks [.fn m.isValidFn])
    else if n = i!"into_fn" then .ok (.toks [.fn m.intoFn]) else stuck
  | .enum e =>
    if n = i!"name" then .ok (.ident e.name)
    else if n = i!"repr" then .ok (.ty (.path [.u8]))
    else if n = i!"variants" then .ok (.list (e.variants.map fun v => .pair (.ident v.1) (.num v.2 i!"u8")))
    else if n = i!"attrs" then .ok (.list (e.attrs.map .toks))
    else if n = i!"rest_handling" then .ok (optV (e.rest.map restV))
    else if n = i!"from_fn" then .ok (optV (e.fromFn.map fromFnV))
    else if n = i!"into_fn" then .ok (intoFnV e.intoRaw) else stuck
  | .flags d =>
    if n = i!"name" then .ok (.ident d.name)
    else if n = i!"nbits" then .ok (.num d.nbits i!"u32")
    else if n = i!"repr_ty" then .ok (.ident d.repr)
    else if n = i!"consts" then .ok (.list (d.consts.map .flagConst))
    else if n = i!"attrs" then .ok (.list (d.attrs.map .toks))
    else if n = i!"vis" then .ok (.toks d.vis)
    else if n = i!"rest_handling" then .ok (optV (d.rest.map restV))
    else if n = i!"from_fn" then .ok (optV (d.fromFn.map fromFnV))
    else if n = i!"into_fn" then .ok (intoFnV d.intoRaw) else stuck
  | .flagConst c =>
    if n = i!"name" then .ok (.ident c.name)
    else if n = i!"value" then .ok (.num c.value i!"u64")
    else if n = i!"attrs" then .ok (.list (c.attrs.map .toks)) else stuck
  | .recv r =>
    if n = i!"union_enum_name" then .ok (.ident r.unionName)
    else if n = i!"unknown_ty" then .ok (.ident r.unknownTy)
    else if n = i!"all_packets" then .ok (.list (r.allPackets.map .ident)) else stuck
  | .pair a b => if n = 48 then .ok a else if n = 49 then .ok b else stuck
  | _ => stuck

/-- Are two values equal? -/
def V.same : V → V → O Bool
  | .num a _, .num b _ => .ok (a == b)
  | .ty a, .ty b => .ok (a == b)
  | .tag a, .tag b => .ok (a == b)
  | .some a, .some b => V.same a b
  | .none, .none => .ok true
  | .none, .some _ => .ok false
  | .some _, .none => .ok false
  | _, _ => stuck

/-- The type of a number, if another one has none -/
def numTy (a b : Name) : Name := if a = 0 then b else a

/-- Numbers from `lo`, `n` of them -/
def numbers (ty : Name) (lo n : Nat) : List V := (List.range n).map fun i => .num (lo + i) ty

/-- Elements with their numbers -/
def enumerate : Nat → List V → List V
  | _, [] => []
  | i, v :: vs => .pair (usizeV i) v :: enumerate (i + 1) vs

/-- Is a value in a list? -/
def member (v : V) : List V → O Bool
  | [] => .ok false
  | w :: vs => do
    if ← V.same w v then return true else member v vs

/-- Methods without effect on their receiver -/
def methodOf (v : V) (n : Name) (args : List V) : O V :=
  match v, args with
  | .packField f, [] =>
    if n = i!"intermediate_type" then .ok (.ty f.intermediateType)
    else if n = i!"intermediate_field_name" then .ok (.ident f.intermediateFieldName)
    else if n = i!"is_field_raw_ty_byte_array" then .ok (.bool f.byteArray)
    else if n = i!"size_fn" then .ok (optV (f.sizeFn.map fun p => .toks [.path p]))
    else if n = i!"is_optional" then .ok (.bool f.optional)
    else if n = i!"has_intermediate_type" then .ok (.bool f.map.mapType.isSome)
    else stuck
  | .pack d, [] =>
    if n = i!"packet_payload_size" then .ok (optV (d.size.map usizeV))
    else if n = i!"packet_payload_size_except_last_field" then .ok (optV (d.sizeExceptLast.map usizeV))
    else if n = i!"packet_payload_size_except_size_fn" then .ok (optV (d.sizeExceptSizeFn.map usizeV))
    else stuck
  | .tagged p (.num k ty), [] =>
    if n = i!"fixed" then .ok (if p = [i!"PayloadLen", i!"Fixed"] then .some (.num k ty) else .none) else stuck
  | .num k ty, [] =>
    if n = i!"get" ∨ n = i!"into" ∨ n = i!"clone" then .ok (.num k ty) else stuck
  | .num k ty, [.num j _] =>
    if n = i!"checked_add" then .ok (.some (.num (k + j) ty))
    else if n = i!"checked_shl" then .ok (if j < 64 then .some (.num (k <<< j) ty) else .none)
    else stuck
  | .list vs, [] =>
    if n = i!"iter" ∨ n = i!"collect" ∨ n = i!"clone" then .ok (.list vs)
    else if n = i!"len" then .ok (usizeV vs.length)
    else if n = i!"is_empty" then .ok (.bool vs.isEmpty)
    else if n = i!"enumerate" then .ok (.list (enumerate 0 vs))
    else if n = i!"last" then .ok (optV vs.getLast?)
    else stuck
  | .list vs, [w] =>
    if n = i!"contains" then (member w vs).map .bool
    else if n = i!"difference" then .ok .unit
    else stuck
  | .some w, [] =>
    if n = i!"is_some" then .ok (.bool true)
    else if n = i!"unwrap" ∨ n = i!"unwrap_or_default" then .ok w
    else if n = i!"as_ref" then .ok (.some w) else stuck
  | .some w, [_] => if n = i!"expect" then .ok w else stuck
  | .none, [] =>
    if n = i!"is_some" then .ok (.bool false)
    else if n = i!"unwrap" then .error .panic
    -- only for `Option<usize>`
    else if n = i!"unwrap_or_default" then .ok (usizeV 0)
    else if n = i!"as_ref" then .ok .none else stuck
  | .none, [_] => if n = i!"expect" then .error .panic else stuck
  | .ok w, [] => if n = i!"unwrap" then .ok w else stuck
  | .err, [] => if n = i!"unwrap" then .error .panic else stuck
  | .toks ts, [] => if n = i!"clone" then .ok (.toks ts) else stuck
  | .ident cs, [] =>
    if n = i!"to_token_stream" then .ok (.ident cs)
    else if n = i!"span" then .ok .unit
    else if n = i!"to_string" then .ok (.str cs)
    else stuck
  | .ty t, [] => if n = i!"clone" then .ok (.ty t) else stuck
  | _, _ => stuck

/-- Methods that change a variable: the new value -/
def changeOf (v : V) (n : Name) (args : List V) : O V :=
  match v, args with
  | .list vs, [w] =>
    if n = i!"push" then .ok (.list (vs ++ [w]))
    -- `HashSet`
    else if n = i!"insert" then do
      if ← member w vs then return .list vs else return .list (vs ++ [w])
    else stuck
  | .toks ts, [.toks us] => if n = i!"extend" then .ok (.toks [.sub ts, .sub us]) else stuck
  | _, _ => stuck

/-- Is it one of the methods that change a variable? -/
def changes (n : Name) : Bool := n == i!"push" || n == i!"insert" || n == i!"extend"

/-- Functions of libraries -/
def libCall (p : List Name) (args : List V) : O V :=
  if p = [i!"Vec", i!"new"] ∨ p = [i!"Vec", i!"with_capacity"] ∨ p = [i!"HashSet", i!"new"] then .ok (.list [])
  else if p = [i!"Span", i!"call_site"] then .ok .unit
  else if p = [i!"u8", i!"max_value"] then .ok (.num 255 i!"u8")
  else if p = [i!"Err"] ∨ p = [i!"syn", i!"Error", i!"new"] then .ok .err
  else if p = [i!"Ok"] then
    match args with
    | [v] => .ok (.ok v)
    | _ => stuck
  else if p = [i!"Some"] then
    match args with
    | [v] => .ok (.some v)
    | _ => stuck
  -- a pair in parentheses
  else if p = [i!"pair"] then
    match args with
    | [a, b] => .ok (.pair a b)
    | _ => stuck
  else if p = [i!"Ident", i!"new"] then
    match args with
    | [.str cs, _] => .ok (.ident cs)
    | _ => stuck
  else if p = [i!"syn", i!"parse_str"] then
    match args with
    | [.str cs] =>
      if Macro.sameCodes cs (Src.codes "&[u8]") then .ok (.ok (.ty (.ref (.slice (.path [.u8]))))) else stuck
    | _ => stuck
  else if p = [i!"u16", i!"try_from"] then
    match args with
    | [.num n _] => .ok (if n < 65536 then .ok (.num n i!"u16") else .err)
    | _ => stuck
  else if p = [i!"usize", i!"try_from"] then
    match args with
    | [.num n _] => .ok (.ok (usizeV n))
    | _ => stuck
  else stuck

/-- Decimal digits of a number, or the characters of an identifier -/
def V.chars : V → O (List Nat)
  | .num n _ => .ok (Src.codes (toString n))
  | .str cs => .ok cs
  | .ident cs => .ok cs
  | _ => stuck

/-- The variables of a pattern, if the value fits. -/
def bindPat : Pt → V → Option Env
  | .name x, v => some [(x, v)]
  | .wild, _ => some []
  | .pair p q, .pair a b =>
    match bindPat p a, bindPat q b with
    | some e, some f => some (f ++ e)
    | _, _ => none
  | .ctor0 p, .none => if p = [i!"None"] then some [] else none
  | .ctor0 p, .tag q => if p = q then some [] else none
  | .ctor1 p a, .some v => if p = [i!"Some"] then bindPat a v else none
  | .ctor1 p a, .tagged q v => if p = q then bindPat a v else none
  | .or p q, v =>
    match bindPat p v with
    | some e => some e
    | none => bindPat q v
  | _, _ => none

/-- Evaluation goes on with a value. -/
def bindV (r : Res) (k : V → Env → Res) : Res :=
  match r with
  | .ok (.val v, env) => k v env
  | r => r

/-- A result outside of expressions -/
def andThen {α : Type} (x : O α) (k : α → Res) : Res :=
  match x with
  | .ok a => k a
  | .error e => .error e

/-- The variables of a block are forgotten behind it. -/
def scope (n : Nat) (r : Res) : Res :=
  match r with
  | .ok (o, env) => .ok (o, env.drop (env.length - n))
  | .error e => .error e

/-- A loop over values -/
def loop (body : V → Env → Res) : List V → Env → Res
  | [], env => .ok (.val .unit, env)
  | v :: vs, env =>
    match body v env with
    | .ok (.val _, env) => loop body vs env
    | .ok (.brk, env) => .ok (.val .unit, env)
    | r => r

/-- What a closure returns for each of some values; it changes no variables. -/
def mapValues (f : V → Res) : List V → O (List V)
  | [] => .ok []
  | v :: vs =>
    match f v with
    | .ok (.val w, _) => (mapValues f vs).map (w :: ·)
    | .ok _ => stuck
    | .error e => .error e

/-- The values inside of `Some` -/
def somes : List V → O (List V)
  | [] => .ok []
  | .some v :: vs => (somes vs).map (v :: ·)
  | .none :: vs => somes vs
  | _ => stuck

/-- The first of some values for which the closure returned `true` -/
def firstTrue : List V → List V → O V
  | v :: vs, .bool b :: bs => if b then .ok (.some v) else firstTrue vs bs
  | [], [] => .ok .none
  | _, _ => stuck

/-- Methods with a closure -/
def closureOf (v : V) (n : Name) (f : V → Res) : O V :=
  match v with
  | .list vs => do
    let ws ← mapValues f vs
    if n = i!"map" then return .list ws
    else if n = i!"filter_map" then return .list (← somes ws)
    else if n = i!"find" then firstTrue vs ws
    else if n = i!"any" then
      match ← firstTrue vs ws with
      | .some _ => return .bool true
      | _ => return .bool false
    else stuck
  | .some v =>
    if n = i!"map" then
      match f v with
      | .ok (.val w, _) => .ok (.some w)
      | .ok _ => stuck
      | .error e => .error e
    else stuck
  | .none => if n = i!"map" then .ok .none else stuck
  | _ => stuck

/-- `fold` -/
def foldOf (f : V → V → Res) : List V → V → O V
  | [], acc => .ok acc
  | v :: vs, acc =>
    match f acc v with
    | .ok (.val w, _) => foldOf f vs w
    | .ok _ => stuck
    | .error e => .error e

/-- A binary operator on values; `||` and `&&` are evaluated elsewhere. -/
def binOp (op : Op) (a b : V) : O V :=
  match op, a, b with
  | .add, .num m s, .num n t => .ok (.num (m + n) (numTy s t))
  | .sub, .num m s, .num n t => if n ≤ m then .ok (.num (m - n) (numTy s t)) else .error .panic
  | .eq, a, b => (V.same a b).map .bool
  | .ne, a, b => (V.same a b).map fun r => .bool !r
  | _, _, _ => stuck

/-- What evaluation needs: the functions of the file -/
structure Ctx where
  call : Name → Option (List V → O V)

/-- The variables of a closure -/
def bindParams : List Name → List V → Env
  | x :: xs, v :: vs => (x, v) :: bindParams xs vs
  | _, _ => []

/-- One round of a loop -/
def forBody (p : Pt) (body : Env → Res) (v : V) (env : Env) : Res :=
  match bindPat p v with
  | some bs => scope env.length (body (bs ++ env))
  | none => stuck

mutual
/-- The value of an expression -/
def eval (c : Ctx) : Ex → Env → Res
  | .path p, env =>
    match p with
    | [x] =>
      if x = i!"None" then .ok (.val .none, env)
      else if x = i!"true" then .ok (.val (.bool true), env)
      else if x = i!"false" then .ok (.val (.bool false), env)
      else andThen (lookup x env) fun v => .ok (.val v, env)
    | p => .ok (.val (.tag p), env)
  | .num n ty, env => .ok (.val (.num n ty), env)
  | .str cs, env => .ok (.val (.str cs), env)
  | .quote ps, env => .ok (.val (.toks (quoteParts env ps)), env)
  | .parse ts, env => andThen (parseTy ts) fun v => .ok (.val v, env)
  | .formatIdent pre suf e, env =>
    bindV (eval c e env) fun v env => andThen v.chars fun cs => .ok (.val (.ident (pre ++ cs ++ suf)), env)
  | .format, env => .ok (.val .unit, env)
  | .assert e, env =>
    bindV (eval c e env) fun v env =>
      match v with
      | .bool b => if b then .ok (.val .unit, env) else .error .panic
      | _ => stuck
  | .assertEq a b, env =>
    bindV (eval c a env) fun v env => bindV (eval c b env) fun w env =>
      andThen (V.same v w) fun r => if r then .ok (.val .unit, env) else .error .panic
  | .assertNe a b, env =>
    bindV (eval c a env) fun v env => bindV (eval c b env) fun w env =>
      andThen (V.same v w) fun r => if r then .error .panic else .ok (.val .unit, env)
  | .unimplemented, _ => .error .panic
  | .field e n, env => bindV (eval c e env) fun v env => andThen (fieldOf v n) fun w => .ok (.val w, env)
  | .index e i, env =>
    bindV (eval c e env) fun v env =>
      match v with
      | .list vs =>
        match vs[i]? with
        | some w => .ok (.val w, env)
        | none => .error .panic
      | _ => stuck
  | .vec es, env => evals c es env fun vs env => .ok (.val (.list vs), env)
  | .call f as, env =>
    evals c as env fun vs env =>
      match f with
      | [f] =>
        match c.call f with
        | some g => andThen (g vs) fun w => .ok (.val w, env)
        | none => andThen (libCall [f] vs) fun w => .ok (.val w, env)
      | p => andThen (libCall p vs) fun w => .ok (.val w, env)
  | .meth e n as, env =>
    if changes n then
      match e with
      | .path [x] =>
        evals c as env fun vs env =>
          andThen (lookup x env) fun v => andThen (changeOf v n vs) fun w =>
            andThen (assign x w env) fun env => .ok (.val .unit, env)
      | _ => stuck
    else
      bindV (eval c e env) fun v env => evals c as env fun vs env =>
        andThen (methodOf v n vs) fun w => .ok (.val w, env)
  | .methFn e n as xs b, env =>
    bindV (eval c e env) fun v env => evals c as env fun vs env =>
      match v, vs with
      | .list l, [a] =>
        if n = i!"fold" then
          andThen (foldOf (fun acc v => eval c b (bindParams xs [acc, v] ++ env)) l a) fun w => .ok (.val w, env)
        else stuck
      | v, [] => andThen (closureOf v n fun a => eval c b (bindParams xs [a] ++ env)) fun w => .ok (.val w, env)
      | _, _ => stuck
  | .not e, env =>
    bindV (eval c e env) fun v env =>
      match v with
      | .bool b => .ok (.val (.bool !b), env)
      | _ => stuck
  | .bin op a b, env =>
    bindV (eval c a env) fun v env =>
      match op, v with
      | .or, .bool x => if x then .ok (.val (.bool true), env) else eval c b env
      | .and, .bool x => if x then eval c b env else .ok (.val (.bool false), env)
      | op, v => bindV (eval c b env) fun w env => andThen (binOp op v w) fun r => .ok (.val r, env)
  | .range a b, env =>
    bindV (eval c a env) fun v env => bindV (eval c b env) fun w env =>
      match v, w with
      | .num lo s, .num hi t => .ok (.val (.list (numbers (numTy s t) lo (hi - lo))), env)
      | _, _ => stuck
  | .rangeIncl a b, env =>
    bindV (eval c a env) fun v env => bindV (eval c b env) fun w env =>
      match v, w with
      | .num lo s, .num hi t => .ok (.val (.list (numbers (numTy s t) lo (hi + 1 - lo))), env)
      | _, _ => stuck
  | .set x i e, env =>
    bindV (eval c e env) fun w env => andThen (lookup x env) fun v =>
      match v with
      | .list vs =>
        if i < vs.length then
          andThen (assign x (.list (vs.set i w)) env) fun env => .ok (.val .unit, env)
        else .error .panic
      | _ => stuck
  | .assign x e, env =>
    bindV (eval c e env) fun w env => andThen (assign x w env) fun env => .ok (.val .unit, env)
  | .addAssign x e, env =>
    bindV (eval c e env) fun w env => andThen (lookup x env) fun v => andThen (binOp .add v w) fun r =>
      andThen (assign x r env) fun env => .ok (.val .unit, env)
  | .ite a t e, env =>
    bindV (eval c a env) fun v env =>
      match v with
      | .bool b => if b then scope env.length (evalS c t env) else scope env.length (evalS c e env)
      | _ => stuck
  | .ifLet p a t e, env =>
    bindV (eval c a env) fun v env =>
      match bindPat p v with
      | some bs => scope env.length (evalS c t (bs ++ env))
      | none => scope env.length (evalS c e env)
  | .match_ e as, env => bindV (eval c e env) fun v env => evalA c as v env
  | .for_ p e b, env =>
    bindV (eval c e env) fun v env =>
      match v with
      | .list vs =>
        loop (forBody p fun env => evalS c b env) vs env
      | _ => stuck
  | .block b, env => scope env.length (evalS c b env)
  | .return_ e, env => bindV (eval c e env) fun v env => .ok (.ret v, env)
  | .break_, env => .ok (.brk, env)
/-- The values of expressions -/
def evals (c : Ctx) : Exs → Env → (List V → Env → Res) → Res
  | .nil, env, k => k [] env
  | .cons e es, env, k => bindV (eval c e env) fun v env => evals c es env fun vs env => k (v :: vs) env
/-- The value of the statements of a block -/
def evalS (c : Ctx) : Sts → Env → Res
  | .nil, env => .ok (.val .unit, env)
  | .last e, env => eval c e env
  | .semi e r, env => bindV (eval c e env) fun _ env => evalS c r env
  | .let_ p e r, env =>
    bindV (eval c e env) fun v env =>
      match bindPat p v with
      | some bs => evalS c r (bs ++ env)
      | none => stuck
/-- The first arm that fits -/
def evalA (c : Ctx) : Ams → V → Env → Res
  | .nil, _, _ => stuck
  | .cons p e as, v, env =>
    match bindPat p v with
    | some bs => scope env.length (eval c e (bs ++ env))
    | none => evalA c as v env
end

/-- The function of a name -/
def findFn (n : Name) : List Fn → Option Fn
  | [] => none
  | f :: fs => if Nat.beq f.name n then some f else findFn n fs

/-- The result of a function; calls may be nested `depth` deep. -/
def run (fs : List Fn) : Nat → Name → List V → O V
  | 0, _, _ => stuck
  | depth + 1, n, args =>
    match findFn n fs with
    | none => stuck
    | some f =>
      match evalS ⟨fun n => (findFn n fs).map fun _ => run fs depth n⟩ f.body (bindParams f.params args) with
      | .ok (.val v, _) => .ok v
      | .ok (.ret v, _) => .ok v
      | .ok (.brk, _) => stuck
      | .error e => .error e

/-! ## Descriptions -/

/-- A field with its documentation, as the generators see it -/
def fieldV (docs : PackField → List Nat) (f : PackField) : FieldV where
  name := Src.codes f.name
  ty := f.ty
  map := ⟨f.map.mapType, f.map.scale, f.map.convertMayFail, f.map.getAsRef⟩
  comment := docs f
  sizeBytes := f.sizeBytes
  intermediateType := f.intermediateType
  intermediateFieldName := Src.codes f.intermediateFieldName
  byteArray := f.isFieldRawTyByteArray
  sizeFn := f.sizeFn
  optional := f.isOptional

/-- A packet with its documentation, as the generators see it -/
def packV (doc : List Nat) (docs : PackField → List Nat) (d : Syn.PackDesc) : PackV where
  name := Src.codes d.name
  header := d.header
  comment := doc
  fields := d.fields.map (fieldV docs)
  size := d.packetPayloadSize
  sizeExceptLast := d.packetPayloadSizeExceptLastField
  sizeExceptSizeFn := d.packetPayloadSizeExceptSizeFn

/-- An enumeration with its attributes, as the generators see it -/
def enumV (attrs : List (List Tk)) (e : EnumDesc) : EnumV where
  name := Src.codes e.name
  variants := e.variants.map fun v => (Src.codes v.1, v.2.toNat)
  attrs := attrs.map fun a => [.tks a]
  rest := e.rest
  fromFn := e.fromFn
  intoRaw := e.intoRaw

/-- Flags with their attributes and their visibility, as the generators see them -/
def flagsV (attrs : List (List Tk)) (vis : List Tk) (constAttrs : String → List (List Tk)) (d : FlagsDesc)
    (fromFn : Option FromFn) (rest : Option Rest) : FlagsV where
  name := Src.codes d.name
  nbits := d.nbits
  repr := Src.codes (Rust.flagsRepr d.nbits).text
  consts := d.consts.map fun c => ⟨Src.codes c.1, c.2, (constAttrs c.1).map fun a => [.tks a]⟩
  attrs := attrs.map fun a => [.tks a]
  vis := [.tks vis]
  rest := rest
  fromFn := fromFn
  intoRaw := d.intoRaw

/-- The list of packets, as the generators see it -/
def recvV (r : Syn.RecvPackets) : RecvV where
  unionName := Src.codes r.unionEnumName
  unknownTy := Src.codes r.unknownTy
  allPackets := r.allPackets.map Src.codes

/-! ## Tokens -/

/-- Lists of tokens with something between them -/
def joinToks (sep : List Tk) : List (List Tk) → List Tk
  | [] => []
  | [a] => a
  | a :: b :: l => a ++ sep ++ joinToks sep (b :: l)

/-- A path -/
def wordsToks (p : List Word) : List Tk := joinToks [.p 58, .p 58] (p.map fun w => [.id (Src.codes w.text)])

/-- A scale.  (The literal of the declaration is used in the code; the model has its value.) -/
def scaleTok (q : Rat) : Tk := .float q.num.toNat q.den

/-- A type -/
def tyToks : Ty → List Tk
  | .path p => wordsToks p
  | .generic p t => wordsToks p ++ [.p 60] ++ tyToks t ++ [.p 62]
  | .ref t => .p 38 :: tyToks t
  | .slice t => [.p 91] ++ tyToks t ++ [.p 93]
  | .array t (.int n) => [.p 91] ++ tyToks t ++ [.p 59, .num n.toNat, .p 93]
  | .array t _ => [.p 91] ++ tyToks t ++ [.p 59, .id wildCodes, .p 93]
  | .other => [.id wildCodes]

/-- A function that the declaration names, `ublox_derive/src/types.rs:105-134` -/
def fnToks : Syn.Fn → List Tk
  | .custom p => wordsToks p
  | .method ty n => [.p 60] ++ tyToks ty ++ [.p 62, .p 58, .p 58, .id (Src.codes n.text)]
  | .scaleBack ty q raw =>
    [.id (Src.codes "ScaleBack"), .p 58, .p 58, .p 60] ++ tyToks ty ++ [.p 62, .p 40, .float 1 1, .p 47,
      scaleTok q, .p 41, .p 46, .id (Src.codes ("as_" ++ Rust.tyText raw))]

mutual
/-- The tokens of what `quote!` returns -/
def Node.flat : Node → List Tk
  | .tks ts => ts
  | .ty t => tyToks t
  | .fn f => fnToks f
  | .path p => wordsToks p
  | .scale q => [scaleTok q]
  | .sub ns => flatAll ns
  | .rep sep rounds => joinToks sep (flatRounds rounds)
  | .bad => [.p 0]
/-- The tokens of several of them -/
def flatAll : List Node → List Tk
  | [] => []
  | n :: ns => n.flat ++ flatAll ns
/-- The tokens of each round of a repetition -/
def flatRounds : List (List Node) → List (List Tk)
  | [] => []
  | ns :: rs => flatAll ns :: flatRounds rs
end

/-- The tokens that a function of the file returns -/
def emitted (fs : List Fn) (n : Name) (args : List V) : O (List Tk) :=
  match run fs 3 n args with
  | .ok (.toks ns) => .ok (flatAll ns)
  | .ok _ => stuck
  | .error e => .error e

end Ublox.Quote
