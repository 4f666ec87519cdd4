import Verif.Model.Code

/-!
# Macros that are defined by rules

What the Rust compiler does with `macro_rules!` and with the calls of such macros, as far as
`ublox/src/ubx_packets/cfg_val.rs` needs it.  No code of `/repo`.  Simplifications:

* An expression ends before the next comma, or at the end, outside of brackets.
* An expression that a variable of a rule stands for, and the result of a macro that is called in an
  expression, stay one expression wherever they are put: they are put in brackets, unless they are one token.
* Local variables have the names that are written for them: no two of the macros use the same name for
  different variables.
* Repetitions take as many rounds as they can.
* Documentation is skipped, as elsewhere.
-/

namespace Ublox.Macro

open Code (Tk Name name)

/-- `c!"abc"` are the codes of `abc`. -/
macro:max "c!" s:str : term => do
  let cs ← s.getString.toList.mapM fun c => return Lean.Syntax.mkNumLit (toString c.toNat)
  `([$(cs.toArray),*])

/-- A rule: what it takes and what it makes of it -/
structure Rule where
  takes : List Tk
  makes : List Tk
  deriving DecidableEq, Repr

/-- A macro: its name and its rules -/
structure Macro where
  name : List Nat
  rules : List Rule
  deriving DecidableEq, Repr

/-- The tokens up to the bracket that closes an open one, `depth` more being open, and those behind it. -/
def group : Nat → List Tk → Option (List Tk × List Tk)
  | _, [] => none
  | depth, .p 40 :: ts => (group (depth + 1) ts).map fun r => (.p 40 :: r.1, r.2)
  | depth, .p 91 :: ts => (group (depth + 1) ts).map fun r => (.p 91 :: r.1, r.2)
  | depth, .p 123 :: ts => (group (depth + 1) ts).map fun r => (.p 123 :: r.1, r.2)
  | 0, .p 41 :: ts => some ([], ts)
  | 0, .p 93 :: ts => some ([], ts)
  | 0, .p 125 :: ts => some ([], ts)
  | depth + 1, .p 41 :: ts => (group depth ts).map fun r => (.p 41 :: r.1, r.2)
  | depth + 1, .p 93 :: ts => (group depth ts).map fun r => (.p 93 :: r.1, r.2)
  | depth + 1, .p 125 :: ts => (group depth ts).map fun r => (.p 125 :: r.1, r.2)
  | depth, t :: ts => (group depth ts).map fun r => (t :: r.1, r.2)

/-- A repetition `$( body )*` -/
def repetition (body : List Tk) : List Tk := .p 36 :: .p 40 :: body ++ [.p 41, .p 42]

/-! ## Matching -/

/-- Equal codes? -/
def sameCodes : List Nat → List Nat → Bool
  | [], [] => true
  | a :: as, b :: bs => Nat.beq a b && sameCodes as bs
  | _, _ => false

/-- Is the token of a rule the token that was found?  Numbers and texts do not occur in what the rules take. -/
def same : Tk → Tk → Bool
  | .p a, .p b => Nat.beq a b
  | .id a, .id b => sameCodes a b
  | .kw a, .kw b => a == b
  | _, _ => false

/-- The tokens up to a comma or a closing bracket, `depth` brackets being open, and the rest. -/
def exprTokens : Nat → List Tk → List Tk × List Tk
  | _, [] => ([], [])
  | 0, .p 44 :: ts => ([], .p 44 :: ts)
  | 0, .p 41 :: ts => ([], .p 41 :: ts)
  | 0, .p 93 :: ts => ([], .p 93 :: ts)
  | 0, .p 125 :: ts => ([], .p 125 :: ts)
  | depth, .p 40 :: ts => let r := exprTokens (depth + 1) ts; (.p 40 :: r.1, r.2)
  | depth, .p 91 :: ts => let r := exprTokens (depth + 1) ts; (.p 91 :: r.1, r.2)
  | depth, .p 123 :: ts => let r := exprTokens (depth + 1) ts; (.p 123 :: r.1, r.2)
  | depth + 1, .p 41 :: ts => let r := exprTokens depth ts; (.p 41 :: r.1, r.2)
  | depth + 1, .p 93 :: ts => let r := exprTokens depth ts; (.p 93 :: r.1, r.2)
  | depth + 1, .p 125 :: ts => let r := exprTokens depth ts; (.p 125 :: r.1, r.2)
  | depth, t :: ts => let r := exprTokens depth ts; (t :: r.1, r.2)

/-- Something that stays together. -/
def together : List Tk → List Tk
  | [t] => [t]
  | ts => .p 40 :: ts ++ [.p 41]

/-- What a variable of a rule stands for: the kind of the variable, by its codes, and the tokens -/
def fragment (kind : List Nat) (ts : List Tk) : Option (List Tk × List Tk) :=
  if name kind = i!"ident" then
    match ts with
    | .id cs :: ts => some ([.id cs], ts)
    | _ => none
  else if name kind = i!"expr" then
    match exprTokens 0 ts with
    | ([], _) => none
    | (e, ts) => some (together e, ts)
  else none

/-- What the variables of a rule stand for: one variable, or the variables of a repetition in each round -/
inductive Bound where
  | one (x : Name) (ts : List Tk)
  | rounds (xs : List Name) (l : List (List Bound))

/-- The variables that occur in a part of a rule. -/
def vars : List Tk → List Name
  | .p 36 :: .id cs :: ts => name cs :: vars ts
  | _ :: ts => vars ts
  | [] => []

/-- What is behind the bracket that closes a repetition: the separator, if there is one, whether there has
to be at least one round, and the rest. -/
def repeated : List Tk → Option (Option Tk × Bool × List Tk)
  | .p 42 :: ts => some (none, false, ts)
  | .p 43 :: ts => some (none, true, ts)
  | s :: .p 42 :: ts => some (some s, false, ts)
  | s :: .p 43 :: ts => some (some s, true, ts)
  | _ => none

mutual
/-- The tokens begin with what a part of a rule takes: what the variables stand for, and the rest.  `fuel`
bounds the number of steps. -/
def take : Nat → List Tk → List Tk → Option (List Bound × List Tk)
  | 0, _, _ => none
  | _ + 1, [], ts => some ([], ts)
  | fuel + 1, .p 36 :: .id x :: .p 58 :: .id kind :: ps, ts =>
    match fragment kind ts with
    | some (f, ts) => (take fuel ps ts).map fun r => (.one (name x) f :: r.1, r.2)
    | none => none
  | fuel + 1, .p 36 :: .p 40 :: ps, ts =>
    match group 0 ps with
    | some (body, ps) =>
      match repeated ps with
      | some (sep, atLeastOne, ps) =>
        match takeMany fuel body sep [] ts with
        | some (l, ts) =>
          if atLeastOne && l.isEmpty then none
          else (take fuel ps ts).map fun r => (.rounds (vars body) l :: r.1, r.2)
        | none => none
      | none => none
    | none => none
  | fuel + 1, p :: ps, t :: ts => if same p t then take fuel ps ts else none
  | _, _, _ => none
/-- The rounds of a repetition; `acc` are those so far, in reverse. -/
def takeMany : Nat → List Tk → Option Tk → List (List Bound) → List Tk → Option (List (List Bound) × List Tk)
  | 0, _, _, _, _ => none
  | fuel + 1, body, sep, acc, ts =>
    match take fuel body ts with
    | none => if sep.isSome && !acc.isEmpty then none else some (acc.reverse, ts)
    | some (b, ts) =>
      match sep with
      | none => takeMany fuel body sep (b :: acc) ts
      | some s =>
        match ts with
        | t :: ts' =>
          if same s t then takeMany fuel body sep (b :: acc) ts' else some ((b :: acc).reverse, t :: ts')
        | [] => some ((b :: acc).reverse, [])
end

/-! ## Making -/

/-- What a variable stands for. -/
def find (x : Name) : List Bound → Option (List Tk)
  | [] => none
  | .one y ts :: bs => if y = x then some ts else find x bs
  | _ :: bs => find x bs

/-- The rounds of the repetition that one of the variables belongs to. -/
def findRounds (xs : List Name) : List Bound → Option (List (List Bound))
  | [] => none
  | .rounds ys l :: bs => if ys.any xs.contains then some l else findRounds xs bs
  | _ :: bs => findRounds xs bs

/-- The rounds one after the other, with a separator. -/
def join (sep : List Tk) : List (List Tk) → List Tk
  | [] => []
  | [a] => a
  | a :: l => a ++ sep ++ join sep l

/-- All results, if there is one for each. -/
def every {α β : Type} (f : α → Option β) : List α → Option (List β)
  | [] => some []
  | a :: l =>
    match f a with
    | some b => (every f l).map (b :: ·)
    | none => none

/-- What a part of a rule makes; `acc` is what it has made so far, in reverse. -/
def make : Nat → List Bound → List Tk → List Tk → Option (List Tk)
  | 0, _, _, _ => none
  | _ + 1, _, acc, [] => some acc.reverse
  | fuel + 1, bs, acc, .p 36 :: .id x :: ts =>
    match find (name x) bs with
    | some f => make fuel bs (f.reverse ++ acc) ts
    | none => none
  | fuel + 1, bs, acc, .p 36 :: .p 40 :: ts =>
    match group 0 ts with
    | some (body, ts) =>
      match repeated ts with
      | some (sep, _, ts) =>
        match findRounds (vars body) bs with
        | some l =>
          match every (fun b => make fuel (b ++ bs) [] body) l with
          | some parts => make fuel bs ((join sep.toList parts).reverse ++ acc) ts
          | none => none
        | none => none
      | none => none
    | none => none
  | fuel + 1, bs, acc, t :: ts => make fuel bs (t :: acc) ts

/-- The first rule that takes all of the tokens makes the result. -/
def apply (ts : List Tk) : List Rule → Option (List Tk)
  | [] => none
  | r :: rs =>
    match take (ts.length + r.takes.length + 1) r.takes ts with
    | some (bs, []) => make (r.makes.length + 1) bs [] r.makes
    | _ => apply ts rs

/-- The rules of the macro of a name -/
def rulesFor (ms : List Macro) (cs : List Nat) : Option (List Rule) :=
  match ms with
  | [] => none
  | m :: ms => if sameCodes m.name cs then some m.rules else rulesFor ms cs

/-- The macros that are called in the tokens of expressions are replaced by what they make, and so on; `acc`
are the tokens so far, in reverse. -/
def expand (ms : List Macro) : Nat → List Tk → List Tk → Option (List Tk)
  | 0, _, _ => none
  | _ + 1, acc, [] => some acc.reverse
  | fuel + 1, acc, .id m :: .p 33 :: .p 40 :: ts =>
    match rulesFor ms m with
    | some rs =>
      match group 0 ts with
      | some (arg, ts) =>
        match apply arg rs with
        | some r =>
          match expand ms fuel [] r with
          | some r => expand ms fuel ((together r).reverse ++ acc) ts
          | none => none
        | none => none
      | none => none
    | none => expand ms fuel (.id m :: acc) (.p 33 :: .p 40 :: ts)
  | fuel + 1, acc, t :: ts => expand ms fuel (t :: acc) ts

/-! ## Files -/

/-- The rules of a macro, without the braces around them -/
def rules : Nat → List Tk → Option (List Rule)
  | 0, _ => none
  | _ + 1, [] => some []
  | fuel + 1, .p 59 :: ts => rules fuel ts
  | fuel + 1, .p 40 :: ts =>
    match group 0 ts with
    | some (takes, .p 61 :: .p 62 :: .p 123 :: ts) =>
      match group 0 ts with
      | some (makes, ts) => (rules fuel ts).map (⟨takes, makes⟩ :: ·)
      | none => none
    | _ => none
  | _, _ => none

/-- `macro_rules`, by its codes -/
def macroRules : List Nat := [109, 97, 99, 114, 111, 95, 114, 117, 108, 101, 115]

/-- The macro that an item defines: nothing if it is another item, and `none` if it can not be read. -/
def definition : List Tk → Option (List Macro)
  | .id m :: .p 33 :: .id cs :: .p 123 :: ts =>
    if sameCodes m macroRules then
      match group 0 ts with
      | some (body, []) => (rules (body.length + 1) body).map fun rs => [⟨cs, rs⟩]
      | _ => none
    else some []
  | _ => some []

/-- An item after macros have been replaced: the definition of a macro is none, the call of one that was
defined before is the items that it makes. -/
def expandItem (ms : List Macro) (ts : List Tk) : Option (List (List Tk)) :=
  match ts with
  | .id m :: .p 33 :: .p 123 :: ts' =>
    match rulesFor ms m, group 0 ts' with
    | some rs, some (arg, []) =>
      match apply arg rs with
      | some r =>
        match expand ms (r.length + 1000) [] r with
        | some r => Code.cut 0 [] r
        | none => none
      | none => none
    | _, _ => none
  | .id m :: .p 33 :: .id _ :: .p 123 :: _ => if sameCodes m macroRules then some [] else none
  | ts => (expand ms (ts.length + 1000) [] ts).map ([·])

/-- The items of a file after macros have been replaced, and the macros that are known at the end; a macro
is known behind its definition. -/
def expandItems : List Macro → List (List Tk) → Option (List Macro × List (List Tk))
  | ms, [] => some (ms, [])
  | ms, i :: is =>
    match definition i with
    | some new =>
      match expandItem (new ++ ms) i with
      | some its => (expandItems (new ++ ms) is).map fun r => (r.1, its ++ r.2)
      | none => none
    | none => none

/-- The functions, structures and enumerations of a file that defines macros and calls them. -/
def programOf (cs : List Nat) : Option (List Code.Impl × List Code.Decl) := do
  let (_, its) ← expandItems [] (← Code.cut 0 [] (← Code.tokens (← Src.lex cs)))
  return (← Code.itemsOf its, ← Code.declList its)

end Ublox.Macro
