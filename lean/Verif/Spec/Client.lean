import Verif.Model.Eval

/-!
# A client of the functions of `ublox/src/parser.rs`

What a program does with the parser, given the functions `call`: type, name, arguments; result and the value
of `self` at the end.
-/

namespace Ublox.Spec.Client

open Code

variable {T P : Type} (call : Name → Name → List (V T P) → O (V T P × V T P))

/-- `n` calls of `next`: what they answer, and the iterator afterwards. -/
def nexts : Nat → V T P → O (List (V T P) × V T P)
  | 0, it => .ok ([], it)
  | n + 1, it => do
    let (r, it) ← call i!"ParserIter" i!"next" [it]
    let (rs, it) ← nexts n it
    return (r :: rs, it)

/-- A chunk of data: `consume`, `n` calls of `next`, and the iterator is dropped, or it is leaked with
`core::mem::forget`.  The iterator has borrowed the buffer of the parser; what it has become is the buffer of
the parser afterwards. -/
def feed (p : V T P) (chunk : Bytes) (n : Nat) (leak : Bool) : O (List (V T P) × V T P) := do
  let (it, _) ← call i!"Parser" i!"consume" [p, .bytes chunk]
  let (rs, it) ← nexts call n it
  let dual ← getField it i!"buf"
  let dual ← if leak then pure dual else Prod.snd <$> call i!"DualBuffer" i!"drop" [dual]
  let p ← setField p i!"buf" (← getField dual i!"buf")
  return (rs, p)

/-- One chunk after another. -/
def session (p : V T P) : List (Bytes × Nat × Bool) → O (List (List (V T P)) × V T P)
  | [] => .ok ([], p)
  | (chunk, n, leak) :: rest => do
    let (rs, p) ← feed call p chunk n leak
    let (rss, p) ← session p rest
    return (rs :: rss, p)

end Ublox.Spec.Client
