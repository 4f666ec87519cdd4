import Verif.Spec.Report
import Verif.Spec.Stream

/-!
# Vocabulary for statements about parser histories
-/

namespace Ublox.Spec

/-- A fresh `Parser::default()`; `M` is `usize::MAX`. -/
def vecParser (M : Nat) : Parser (VecBuf M) := Parser.new ⟨[]⟩

/-- A fresh `Parser::new(FixedLinearBuffer::new(backing))`. -/
def flbParser (M : Nat) (backing : Bytes) : Parser (FixedLinearBuffer M) :=
  Parser.new (FixedLinearBuffer.new backing)

/-- The bytes held by a parser over a fixed buffer. -/
def flbBytes {M : Nat} (p : Parser (FixedLinearBuffer M)) : Bytes := p.buf.buffer.take p.buf.len

/-- The `Some` answers of a history, in order. -/
def results {α : Type} (rss : List (List (Option α))) : List α := rss.flatten.filterMap id

/-- Every iterator was used until it returned `None`. -/
def Exhausted {α : Type} (rss : List (List (Option α))) : Prop := ∀ rs ∈ rss, none ∈ rs

/-- All bytes of a history. -/
def fedBytes (h : List (Bytes × Nat)) : Bytes := (h.map Prod.fst).flatten

/-- In the history `h` on a fresh Vec-backed parser the `Vec` never has to hold more than
`isize::MAX` bytes. -/
def VecHolds {P : Type} (M : Nat) (D : Dispatch P) (h : List (Bytes × Nat)) : Prop :=
  ∀ h1 c n h2, h = h1 ++ (c, n) :: h2 → ∀ rs q,
    Parser.session M D (vecParser M) h1 = some (.ok (rs, q)) → q.bufferLen + c.length ≤ M / 2

/-- Rust slices have at most `isize::MAX` bytes. -/
def Slices (M : Nat) (h : List (Bytes × Nat)) : Prop := ∀ x ∈ h, x.1.length ≤ M / 2

/-- In the history `h` on a fresh parser over the fixed buffer `backing` every iterator is used until
it returns `None`, or else the bytes it is made for fit in the buffer together with those already
there. -/
def FlbKeeps {P : Type} (M : Nat) (D : Dispatch P) (backing : Bytes) (h : List (Bytes × Nat)) :
    Prop :=
  ∀ h1 c n h2, h = h1 ++ (c, n) :: h2 → ∀ rss q rs q',
    Parser.session M D (flbParser M backing) h1 = some (.ok (rss, q)) →
    Parser.feed M D q c n = some (.ok (rs, q')) →
    none ∈ rs ∨ q.bufferLen + c.length ≤ backing.length

/-- Does a list of answers contain this error? -/
def HasError {P : Type} (rss : List (List (Option (Except ParserError P)))) (e : ParserError) :
    Prop := Except.error e ∈ results rss

end Ublox.Spec
