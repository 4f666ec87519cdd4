import Verif.Model.Lex

/-!
# How declarations are written

Specification for the reading of source text (`Model/Lex.lean`): tokens and their spelling, comments,
numbers.
-/

namespace Ublox.Spec.Source

open Src

/-- Letters, digits and `_`. -/
def idChar (c : Nat) : Prop :=
  (97 ≤ c ∧ c ≤ 122) ∨ (65 ≤ c ∧ c ≤ 90) ∨ c = 95 ∨ (48 ≤ c ∧ c ≤ 57)

/-- A digit. -/
def digit (c : Nat) : Prop := 48 ≤ c ∧ c ≤ 57

/-- The characters that are tokens by themselves: printable ASCII without letters, digits, `_`, the
quotes and the slash. -/
def sign (c : Nat) : Prop := 33 ≤ c ∧ c ≤ 126 ∧ ¬ idChar c ∧ c ≠ 34 ∧ c ≠ 39 ∧ c ≠ 47

/-- A token that can be written.  Numbers: digits and letters from a digit on; two of them around a
point, the second one beginning with a digit; digits, `e` and a sign, and digits. -/
inductive Proper : LTok → Prop where
  | ident {c cs} (hc : idChar c) (hd : ¬ digit c) (h : ∀ d ∈ cs, idChar d) : Proper (.ident (c :: cs))
  | num {c cs} (hc : digit c) (h : ∀ d ∈ cs, idChar d) : Proper (.num (c :: cs))
  | point {c cs d ds} (hc : digit c) (h : ∀ d ∈ cs, idChar d) (hd : digit d) (h' : ∀ d ∈ ds, idChar d) :
    Proper (.num (c :: cs ++ 46 :: d :: ds))
  | exponent {c cs s ds} (hc : digit c) (h : ∀ d ∈ cs, digit d) (hs : s = 43 ∨ s = 45)
    (h' : ∀ d ∈ ds, idChar d) : Proper (.num (c :: cs ++ 101 :: s :: ds))
  | str {cs} (h : ∀ d ∈ cs, d ≠ 34 ∧ d ≠ 92) : Proper (.str cs)
  | lifetime : Proper .lifetime
  | doc : Proper .doc
  | punct {c} (h : sign c) : Proper (.punct c)

/-- How a token may be written: words and numbers with a space behind them, strings in quotes, a
documentation comment with a line of its own. -/
def spell : LTok → List Nat
  | .ident cs => cs ++ [32]
  | .num cs => cs ++ [32]
  | .str cs => 34 :: cs ++ [34]
  | .lifetime => [39, 97, 32]
  | .doc => [47, 47, 47, 10]
  | .punct c => [c]

/-- What may stand between items without any meaning: blanks, empty lines, comments. -/
inductive Blank : List Nat → Prop where
  | nil : Blank []
  | space {c cs} (h : c = 32 ∨ c = 9 ∨ c = 10 ∨ c = 13) (hr : Blank cs) : Blank (c :: cs)
  | comment {cs rest} (h : ∀ c ∈ cs, c ≠ 10) (hd : ∀ c ∈ cs.head?, c ≠ 47 ∧ c ≠ 33) (hr : Blank rest) :
    Blank (47 :: 47 :: cs ++ 10 :: rest)

/-- The number that digits mean in a base. -/
def value (b : Nat) (ds : List Nat) : Nat := ds.foldl (fun n d => b * n + d) 0

/-- A digit of the hexadecimal system, in small or capital letters. -/
def hexDigit (upper : Bool) (d : Nat) : Nat :=
  if d < 10 then 48 + d else if upper then 55 + d else 87 + d

/-- The declarations of packets among the items. -/
def packetsOf (l : List Item) : List Syn.StructDecl := l.filterMap fun | .packet d => some d | _ => none
/-- The declarations of enumerations among the items. -/
def enumsOf (l : List Item) : List Syn.EnumDecl := l.filterMap fun | .enum d => some d | _ => none
/-- The declarations of flags among the items. -/
def flagDeclsOf (l : List Item) : List Syn.FlagsDecl := l.filterMap fun | .flags d => some d | _ => none
/-- The lists of received packets among the items. -/
def listsOf (l : List Item) : List (List Syn.Tok) := l.filterMap fun | .recv d => some d | _ => none

end Ublox.Spec.Source
