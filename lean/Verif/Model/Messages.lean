import Verif.Model.Code
import Verif.Model.Error
import Verif.Model.Tokens

/-!
# The texts of errors, from the text of `error.rs`

A grammar for the implementations of `Display` in `ublox/src/error.rs`, and what they write.  Each has one function, which
is one `match` over the variants; each arm calls `write_str` or `write!`.

Simplified: types are not checked; an error of the formatter itself, which `fmt` hands on, is left out; of the format
strings there are `{}` and `{:x}`.
-/

namespace Ublox.Msg

open Code (Tk Name name skipType skipSig skipGroup)

/-- A piece of a format string: a character, `{}`, `{:x}` (those in `ublox/src/error.rs:9-90`) -/
inductive Piece where
  | lit (c : Nat)
  | shown
  | hex
  deriving DecidableEq

/-- An arm of `match self` in `ublox/src/error.rs:9-90`: the enumeration and the variant, the members with the variables
that they are bound to, what is written, and the variables that are shown -/
structure Arm where
  owner : Name
  variant : Name
  members : List (Name × Name)
  pieces : List Piece
  args : List Name
  deriving DecidableEq

/-! ## Grammar -/

/-- The pieces of a format string of `ublox/src/error.rs` (`write!`); other braces are refused. -/
def piecesOf : List Nat → Option (List Piece)
  | [] => some []
  | 123 :: 125 :: cs => (piecesOf cs).map (.shown :: ·)
  | 123 :: 58 :: 120 :: 125 :: cs => (piecesOf cs).map (.hex :: ·)
  | 123 :: _ => none
  | 125 :: _ => none
  | c :: cs => (piecesOf cs).map (.lit c :: ·)

/-- The arguments of `write!` behind the format string, `ublox/src/error.rs:13`, `46-66` -/
def argsOf : List Tk → Option (List Name × List Tk)
  | .p 41 :: ts => some ([], ts)
  | .p 44 :: .p 41 :: ts => some ([], ts)
  | .p 44 :: .id cs :: ts => (argsOf ts).map fun r => (name cs :: r.1, r.2)
  | _ => none

/-- `f.write_str("..")` or `write!(f, "..", ..)`, `ublox/src/error.rs:12-13`, `46-66`, `85-87` -/
def callOf : List Tk → Option ((List Piece × List Name) × List Tk)
  | .id f :: .p 46 :: .id m :: .p 40 :: .str s :: .p 41 :: ts =>
    if name f = i!"f" ∧ name m = i!"write_str" then some ((s.map .lit, []), ts) else none
  | .id w :: .p 33 :: .p 40 :: .id f :: .p 44 :: .str s :: ts =>
    if name f = i!"f" ∧ name w = i!"write" then do
      let ps ← piecesOf s
      let (as, ts) ← argsOf ts
      return ((ps, as), ts)
    else none
  | _ => none

/-- The members in a pattern, up to the closing brace, `ublox/src/error.rs:46-62` -/
def membersOf : List Tk → Option (List (Name × Name) × List Tk)
  | .p 125 :: ts => some ([], ts)
  | .id a :: .p 44 :: ts => (membersOf ts).map fun r => ((name a, name a) :: r.1, r.2)
  | .id a :: .p 125 :: ts => some ([(name a, name a)], ts)
  | _ => none

/-- The members of a variant in a pattern; that of a tuple has the name 0. -/
def patternOf : List Tk → Option (List (Name × Name) × List Tk)
  | .p 123 :: ts => membersOf ts
  | .p 40 :: .id x :: .p 41 :: ts => some ([(0, name x)], ts)
  | ts => some ([], ts)

/-- The body of an arm, with or without braces, and the comma behind it -/
def bodyOf : List Tk → Option ((List Piece × List Name) × List Tk)
  | .p 123 :: ts => do
    match ← callOf ts with
    | (r, .p 125 :: .p 44 :: ts) => some (r, ts)
    | (r, .p 125 :: ts) => some (r, ts)
    | _ => none
  | ts => do
    match ← callOf ts with
    | (r, .p 44 :: ts) => some (r, ts)
    | _ => none

/-- The arms of a `match` up to the closing brace, `ublox/src/error.rs:11-14`, `45-67`, `84-88`; `fuel` bounds their
number. -/
def armsOf : Nat → List Tk → Option (List Arm × List Tk)
  | _, .p 125 :: ts => some ([], ts)
  | fuel + 1, .id x :: .p 58 :: .p 58 :: .id v :: ts => do
    let (ms, ts) ← patternOf ts
    match ts with
    | .p 61 :: .p 62 :: ts =>
      let (b, ts) ← bodyOf ts
      let (as, ts) ← armsOf fuel ts
      return (⟨name x, name v, ms, b.1, b.2⟩ :: as, ts)
    | _ => none
  | _, _ => none

/-- The name of the trait and of the type, and what is behind the brace, of an `impl` of `ublox/src/error.rs` -/
def header : Name → List Tk → Option (Name × Name × List Tk)
  | _, .id cs :: .kw .for_ :: .id x :: ts =>
    match skipSig 0 ts with
    | some (.p 123 :: ts) => some (name cs, name x, ts)
    | _ => none
  | n, _ :: ts => header n ts
  | _, [] => none

/-- `fn fmt(&self, f: ..) -> .. { match self { .. } } }` -/
def fmtOf : List Tk → Option (List Arm)
  | .kw .fn :: .id m :: .p 40 :: .p 38 :: .id s :: .p 44 :: .id f :: .p 58 :: ts =>
    if name m = i!"fmt" ∧ name s = i!"self" ∧ name f = i!"f" then do
      match ← skipType 0 ts with
      | .p 41 :: ts =>
        match ← skipSig 0 ts with
        | .p 123 :: .kw .match_ :: .id s :: .p 123 :: ts =>
          if name s = i!"self" then
            match ← armsOf 16 ts with
            | (as, [.p 125, .p 125]) => some as
            | _ => none
          else none
        | _ => none
      | _ => none
    else none
  | _ => none

/-- An item of `ublox/src/error.rs`, `fuel` attributes before it: the arms of an implementation of `Display`, for its
type; nothing for the rest. -/
def item : Nat → List Tk → Option (List Arm)
  | fuel + 1, .p 35 :: .p 91 :: ts => do item fuel (← skipGroup 0 ts)
  | _, .kw .use :: _ => some []
  | _, .kw .pub :: .kw .enum :: _ => some []
  | _, .kw .impl :: ts => do
    let (t, x, ts) ← header 0 ts
    if t = i!"Display" then
      let as ← fmtOf ts
      if as.all fun a => Nat.beq a.owner x then some as else none
    else if ts = [.p 125] then some [] else none
  | _, _ => none

/-- All arms in a text -/
def itemsOf : List (List Tk) → Option (List Arm)
  | [] => some []
  | ts :: r => do
    let a ← item 4 ts
    let b ← itemsOf r
    return a ++ b

/-- The arms in the text of `ublox/src/error.rs` -/
def messagesOf (cs : List Nat) : Option (List Arm) := do
  itemsOf (← Code.cut 0 [] (← Code.tokens (← Src.lex cs)))

/-- The type of a member in `ublox/src/error.rs:24-40`: an identifier or `&'static` and an identifier -/
def typeOf : List Tk → Option (Name × List Tk)
  | .id t :: .p 44 :: ts => some (name t, ts)
  | .p 38 :: .life :: .id t :: .p 44 :: ts => some (name t, ts)
  | _ => none

/-- The members of a variant with their types, `ublox/src/error.rs:24-40` -/
def declMembers : Nat → List Tk → Option (List (Name × Name) × List Tk)
  | _, .p 125 :: ts => some ([], ts)
  | fuel + 1, .id a :: .p 58 :: ts => do
    let (t, ts) ← typeOf ts
    let (ms, ts) ← declMembers fuel ts
    return ((name a, t) :: ms, ts)
  | _, _ => none

/-- A variant with the members and their types -/
abbrev Variant := Name × List (Name × Name)

/-- The variants of an enumeration, `ublox/src/error.rs:5-6`, `24-40`, `77-79` -/
def variantsOf : Nat → List Tk → Option (List Variant)
  | _, [.p 125] => some []
  | fuel + 1, .id v :: .p 44 :: ts => (variantsOf fuel ts).map ((name v, []) :: ·)
  | fuel + 1, .id v :: .p 40 :: .id t :: .p 41 :: .p 44 :: ts =>
    (variantsOf fuel ts).map ((name v, [(0, name t)]) :: ·)
  | fuel + 1, .id v :: .p 123 :: ts => do
    let (ms, ts) ← declMembers 8 ts
    match ts with
    | .p 44 :: ts => (variantsOf fuel ts).map ((name v, ms) :: ·)
    | _ => none
  | _, _ => none

/-- The enumeration that an item of `ublox/src/error.rs` declares; nothing for the rest -/
def enumOf : Nat → List Tk → Option (List (Name × List Variant))
  | fuel + 1, .p 35 :: .p 91 :: ts => do enumOf fuel (← skipGroup 0 ts)
  | _, .kw .pub :: .kw .enum :: .id x :: .p 60 :: .id _ :: .p 62 :: .p 123 :: ts => do
    return [(name x, ← variantsOf 16 ts)]
  | _, .kw .pub :: .kw .enum :: .id x :: .p 123 :: ts => do return [(name x, ← variantsOf 16 ts)]
  | _, .kw .pub :: _ => none
  | _, _ => some []

/-- The enumerations in a text -/
def enumsOf : List (List Tk) → Option (List (Name × List Variant))
  | [] => some []
  | ts :: r => do
    let a ← enumOf 4 ts
    let b ← enumsOf r
    return a ++ b

/-- The enumerations in the text of `ublox/src/error.rs` -/
def declsOf (cs : List Nat) : Option (List (Name × List Variant)) := do
  enumsOf (← Code.cut 0 [] (← Code.tokens (← Src.lex cs)))

/-! ## What is written -/

/-- A member of an error: an unsigned number, or something whose `Display` is a given text -/
inductive Arg where
  | num (n : Nat)
  | text (cs : List Nat)

/-- An error: enumeration, variant, members (`ublox/src/error.rs:4-7`, `23-41`, `75-80`) -/
structure Val where
  owner : Name
  variant : Name
  members : List (Name × Arg)

/-- The member of a name -/
def lookup {α : Type} (n : Name) : List (Name × α) → Option α
  | [] => none
  | (m, a) :: r => if Nat.beq m n then some a else lookup n r

/-- The values of the variables of a pattern -/
def bind (v : Val) : List (Name × Name) → Option (List (Name × Arg))
  | [] => some []
  | (m, x) :: r => do
    let a ← lookup m v.members
    let b ← bind v r
    return (x, a) :: b

/-- What a format string writes: each placeholder takes the next argument, and none is left over. -/
def write (env : List (Name × Arg)) : List Piece → List Name → Option (List Nat)
  | [], [] => some []
  | .lit c :: ps, as => (write env ps as).map (c :: ·)
  | .shown :: ps, a :: as => do
    let v ← lookup a env
    let r ← write env ps as
    match v with
    | .num n => some (Src.codes (numeral 10 n) ++ r)
    | .text cs => some (cs ++ r)
  | .hex :: ps, a :: as => do
    let v ← lookup a env
    let r ← write env ps as
    match v with
    | .num n => some (Src.codes (numeral 16 n) ++ r)
    | .text _ => none
  | _, _ => none

/-- `Display::fmt` of an error, `ublox/src/error.rs:9-90`: what the first arm of its variant writes -/
def display (arms : List Arm) (v : Val) : Option (List Nat) :=
  match arms.find? fun a => Nat.beq a.owner v.owner && Nat.beq a.variant v.variant with
  | none => none
  | some a => do write (← bind v a.members) a.pieces a.args

/-! ## The errors of the model as values -/

/-- `ublox/src/error.rs:23-41` -/
def parserErrorV : ParserError → Val
  | .invalidChecksum e g => ⟨i!"ParserError", i!"InvalidChecksum", [(i!"expect", .num e.toNat), (i!"got", .num g.toNat)]⟩
  | .invalidField p f =>
    ⟨i!"ParserError", i!"InvalidField", [(i!"packet", .text (Src.codes p)), (i!"field", .text (Src.codes f))]⟩
  | .invalidPacketLen p e g => ⟨i!"ParserError", i!"InvalidPacketLen",
    [(i!"packet", .text (Src.codes p)), (i!"expect", .num e), (i!"got", .num g)]⟩
  | .outOfMemory n => ⟨i!"ParserError", i!"OutOfMemory", [(i!"required_size", .num n)]⟩

/-- `ublox/src/error.rs:75-80` -/
def dateTimeErrorV : DateTimeError → Val
  | .invalidDate => ⟨i!"DateTimeError", i!"InvalidDate", []⟩
  | .invalidTime => ⟨i!"DateTimeError", i!"InvalidTime", []⟩
  | .invalidNanoseconds => ⟨i!"DateTimeError", i!"InvalidNanoseconds", []⟩

/-- `ublox/src/error.rs:4-7`, with the `Display` of the error of the writer -/
def memWriterErrorV {E : Type} (text : E → String) : MemWriterError E → Val
  | .notEnoughMem => ⟨i!"MemWriterError", i!"NotEnoughMem", []⟩
  | .custom e => ⟨i!"MemWriterError", i!"Custom", [(0, .text (Src.codes (text e)))]⟩

end Ublox.Msg
