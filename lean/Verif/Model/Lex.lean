import Verif.Model.Input
import Verif.Model.CfgVal

/-!
# From the text of a source file to declarations

What the Rust compiler does before it calls the macros: the characters of a file are grouped into
tokens, the tokens into items, and an item that carries the attribute of a macro is handed to that
macro.  No code of `/repo`; modelled is the part of the language that occurs in
`ublox/src/ubx_packets/packets.rs` and in the argument of `cfg_val!` in `cfg_val.rs`, and everything
else is refused: block comments, escapes in strings, character literals, raw and byte strings, letters
outside ASCII except in comments.

Characters are given by their codes.
-/

namespace Ublox.Src

open Syn

/-- A token as the lexer of Rust forms it. -/
inductive LTok where
  /-- identifier or keyword -/
  | ident (cs : List Nat)
  /-- a number as it is written -/
  | num (cs : List Nat)
  /-- a string literal -/
  | str (cs : List Nat)
  /-- `'a` -/
  | lifetime
  /-- a documentation comment `///` -/
  | doc
  /-- any other character -/
  | punct (c : Nat)
  deriving DecidableEq, Repr

/-- a digit -/
def isDigit (c : Nat) : Bool := Nat.ble 48 c && Nat.ble c 57
/-- the beginning of an identifier: a letter or `_` -/
def isIdStart (c : Nat) : Bool :=
  (Nat.ble 97 c && Nat.ble c 122) || (Nat.ble 65 c && Nat.ble c 90) || Nat.beq c 95
/-- a character inside an identifier or number -/
def isIdCont (c : Nat) : Bool := isIdStart c || isDigit c
/-- space, tabulator, line feed, carriage return -/
def isSpace (c : Nat) : Bool := Nat.beq c 32 || Nat.beq c 10 || Nat.beq c 9 || Nat.beq c 13

/-- Where the lexer is.  The characters of a token are kept in reverse. -/
inductive St where
  | start
  | ident (rev : List Nat)
  | num (rev : List Nat)
  /-- a number and a point -/
  | numDot (rev : List Nat)
  | str (rev : List Nat)
  /-- number of slashes: one, two, three -/
  | slash1 | slash2 | slash3
  /-- in a comment, or in one for documentation -/
  | comment | docComment
  /-- after `'` -/
  | quote
  | lifetime
  /-- something that is not supported -/
  | bad
  deriving DecidableEq, Repr

/-- A character outside of a token. -/
def start (c : Nat) : List LTok × St :=
  if isSpace c then ([], .start)
  else if isIdStart c then ([], .ident [c])
  else if isDigit c then ([], .num [c])
  else if Nat.beq c 34 then ([], .str [])
  else if Nat.beq c 47 then ([], .slash1)
  else if Nat.beq c 39 then ([], .quote)
  else if Nat.ble c 32 || Nat.ble 127 c then ([], .bad)
  else ([.punct c], .start)

/-- A token is complete, and another character follows. -/
def after (t : LTok) (c : Nat) : List LTok × St :=
  let r := start c
  (t :: r.1, r.2)

/-- Is a number, in reverse, such that a sign may follow: digits and an `e`? -/
def expects : List Nat → Bool
  | [] => false
  | c :: rest => (Nat.beq c 101 || Nat.beq c 69) &&
      rest.all (fun d => isDigit d || Nat.beq d 95 || Nat.beq d 46) && !rest.isEmpty

/-- One character. -/
def step : St → Nat → List LTok × St
  | .start, c => start c
  | .ident rev, c =>
    if isIdCont c then ([], .ident (c :: rev))
    else if Nat.beq c 34 || Nat.beq c 39 then ([], .bad)
    else after (.ident rev.reverse) c
  | .num rev, c =>
    if isIdCont c then ([], .num (c :: rev))
    else if Nat.beq c 46 then ([], .numDot rev)
    else if (Nat.beq c 45 || Nat.beq c 43) && expects rev then ([], .num (c :: rev))
    else after (.num rev.reverse) c
  | .numDot rev, c =>
    if isDigit c then ([], .num (c :: 46 :: rev))
    else if isIdStart c || Nat.beq c 46 then
      let r := start c
      (.num rev.reverse :: .punct 46 :: r.1, r.2)
    else after (.num (46 :: rev).reverse) c
  | .str rev, c =>
    if Nat.beq c 34 then ([.str rev.reverse], .start)
    else if Nat.beq c 92 then ([], .bad)
    else ([], .str (c :: rev))
  | .slash1, c =>
    if Nat.beq c 47 then ([], .slash2)
    else if Nat.beq c 42 then ([], .bad)
    else after (.punct 47) c
  | .slash2, c =>
    if Nat.beq c 10 then ([], .start)
    else if Nat.beq c 47 then ([], .slash3)
    else if Nat.beq c 33 then ([], .bad)
    else ([], .comment)
  | .slash3, c =>
    if Nat.beq c 10 then ([.doc], .start)
    else if Nat.beq c 47 then ([], .comment)
    else ([], .docComment)
  | .comment, c => if Nat.beq c 10 then ([], .start) else ([], .comment)
  | .docComment, c => if Nat.beq c 10 then ([.doc], .start) else ([], .docComment)
  | .quote, c => if isIdStart c then ([], .lifetime) else ([], .bad)
  | .lifetime, c =>
    if isIdCont c then ([], .lifetime)
    else if Nat.beq c 39 then ([], .bad)
    else after .lifetime c
  | .bad, _ => ([], .bad)

/-- The tokens of a text and where the lexer is at its end. -/
def run : St → List Nat → List LTok × St
  | s, [] => ([], s)
  | s, c :: cs =>
    match step s c with
    | (ts, s) => let r := run s cs; (ts ++ r.1, r.2)

/-- The tokens of a text that ends with a line feed. -/
def lex (cs : List Nat) : Option (List LTok) :=
  match run .start cs with
  | (ts, .start) => some ts
  | _ => none

/-! ## Numbers -/

/-- The value of a digit in bases up to 16. -/
def digitVal (c : Nat) : Option Nat :=
  if isDigit c then some (c - 48)
  else if Nat.ble 97 c && Nat.ble c 102 then some (c - 87)
  else if Nat.ble 65 c && Nat.ble c 70 then some (c - 55)
  else none

/-- The value of digits in a base, `_` left out; `none` if there is anything else. -/
def digitsVal (b : Nat) : Nat → List Nat → Option Nat
  | acc, [] => some acc
  | acc, c :: cs =>
    if Nat.beq c 95 then digitsVal b acc cs
    else match digitVal c with
      | some d => if Nat.blt d b then digitsVal b (acc * b + d) cs else none
      | none => none

/-- The fraction of a decimal number from behind the point: its digits are added to the mantissa;
returned are mantissa, number of digits behind the point and what follows the digits. -/
def fraction : Nat → Nat → List Nat → Nat × Nat × List Nat
  | m, k, c :: cs =>
    if isDigit c then fraction (m * 10 + (c - 48)) (k + 1) cs
    else if Nat.beq c 95 then fraction m k cs
    else (m, k, c :: cs)
  | m, k, [] => (m, k, [])

/-- A number as it is written; without suffix. -/
def number (cs : List Nat) : Option Lit :=
  match cs with
  | 48 :: 120 :: ds => (digitsVal 16 0 ds).map fun n => .int (.ofNat n)
  | 48 :: 98 :: ds => (digitsVal 2 0 ds).map fun n => .int (.ofNat n)
  | 48 :: 111 :: ds => (digitsVal 8 0 ds).map fun n => .int (.ofNat n)
  | _ =>
    match fraction 0 0 cs with
    | (n, _, []) => some (.int (.ofNat n))
    | (n, _, 46 :: ds) =>
      match fraction n 0 ds with
      | (m, k, rest) => exponent m k rest
    | (n, _, rest) => exponent n 0 rest
where
  /-- The exponent of a number with mantissa `m` and `k` digits behind the point. -/
  exponent (m k : Nat) : List Nat → Option Lit
    | [] => some (.float (mkRat (.ofNat m) (10 ^ k)))
    | 101 :: 45 :: ds => (digitsVal 10 0 ds).map fun e => .float (mkRat (.ofNat m) (10 ^ (k + e)))
    | 101 :: 43 :: ds => (digitsVal 10 0 ds).map fun e => .float (mkRat (.ofNat (m * 10 ^ e)) (10 ^ k))
    | 101 :: ds => (digitsVal 10 0 ds).map fun e => .float (mkRat (.ofNat (m * 10 ^ e)) (10 ^ k))
    | _ => none

/-! ## Words -/

/-- The codes of a text. -/
def codes (s : String) : List Nat := s.toList.map Char.toNat

/-- A text from its codes. -/
def text (cs : List Nat) : String := String.ofList (cs.map Char.ofNat)

/-- The identifiers that the macros compare with, by their codes (`c89_words`). -/
def known : List (List Nat × Word) := [
  ([117, 98, 120], .ubx),
  ([100, 111, 99], .doc),
  ([114, 101, 112, 114], .repr),
  ([99, 108, 97, 115, 115], .class_),
  ([105, 100], .id),
  ([102, 105, 120, 101, 100, 95, 112, 97, 121, 108, 111, 97, 100, 95, 108, 101, 110], .fixedPayloadLen),
  ([109, 97, 120, 95, 112, 97, 121, 108, 111, 97, 100, 95, 108, 101, 110], .maxPayloadLen),
  ([102, 108, 97, 103, 115], .flags),
  ([100, 101, 102, 97, 117, 108, 116, 95, 102, 111, 114, 95, 98, 117, 105, 108, 100, 101, 114], .defaultForBuilder),
  ([109, 97, 112, 95, 116, 121, 112, 101], .mapType),
  ([115, 99, 97, 108, 101], .scale),
  ([97, 108, 105, 97, 115], .«alias»),
  ([109, 97, 121, 95, 102, 97, 105, 108], .mayFail),
  ([102, 114, 111, 109], .from_),
  ([105, 115, 95, 118, 97, 108, 105, 100], .isValid),
  ([115, 105, 122, 101, 95, 102, 110], .sizeFn),
  ([103, 101, 116, 95, 97, 115, 95, 114, 101, 102], .getAsRef),
  ([105, 110, 116, 111], .into),
  ([105, 110, 116, 111, 95, 114, 97, 119], .intoRaw),
  ([102, 114, 111, 109, 95, 117, 110, 99, 104, 101, 99, 107, 101, 100], .fromUnchecked),
  ([114, 101, 115, 116, 95, 114, 101, 115, 101, 114, 118, 101, 100], .restReserved),
  ([114, 101, 115, 116, 95, 101, 114, 114, 111, 114], .restError),
  ([117, 56], .u8),
  ([105, 56], .i8),
  ([117, 49, 54], .u16),
  ([105, 49, 54], .i16),
  ([117, 51, 50], .u32),
  ([105, 51, 50], .i32),
  ([102, 51, 50], .f32),
  ([102, 54, 52], .f64),
  ([79, 112, 116, 105, 111, 110], .option)]

/-- The keywords that the macros look for, by their codes (`c89_keywords`). -/
def keywords : List (List Nat × Kw) := [
  ([101, 110, 117, 109], .enum), ([115, 116, 114, 117, 99, 116], .struct), ([99, 111, 110, 115, 116], .const), ([112, 117, 98], .pub)]

/-- The entry of a table for the codes of a word. -/
def find {α : Type} : List (List Nat × α) → List Nat → Option α
  | [], _ => none
  | (k, x) :: rest, cs => if k == cs then some x else find rest cs

/-- An identifier. -/
def word (cs : List Nat) : Word := (find known cs).getD (.name (text cs))

/-- The tokens of the content of a string, as far as the macros tell them apart. -/
def strTok : LTok → StrTok
  | .ident cs => .word (word cs)
  | .punct 44 => .comma
  | _ => .other

/-- A literal. -/
def lit : LTok → Option Lit
  | .num cs => number cs
  | .str cs => (lex (cs ++ [10])).map fun ts => .str (ts.map strTok)
  | _ => none

/-- A token of an attribute or of the argument of a macro. -/
def tok : LTok → Option Tok
  | .ident cs =>
    match find keywords cs with
    | some k => some (.kw k)
    | none => if cs == [95] then some (.punct '_') else some (.word (word cs))
  | .punct c => some (.punct (Char.ofNat c))
  | .doc => some .attr
  | .lifetime => none
  | t => (lit t).map .lit

/-! ## Items -/

/-- An opening bracket. -/
def isOpen : LTok → Bool
  | .punct 40 => true
  | .punct 91 => true
  | .punct 123 => true
  | _ => false

/-- A closing bracket. -/
def isClose : LTok → Bool
  | .punct 41 => true
  | .punct 93 => true
  | .punct 125 => true
  | _ => false

/-- The tokens up to the bracket that closes an open one, `depth` more being open, and those behind
it.  That brackets of the same kind belong together is left to the compiler. -/
def group : Nat → List LTok → Option (List LTok × List LTok)
  | _, [] => none
  | depth, t :: ts =>
    if isClose t then
      match depth with
      | 0 => some ([], ts)
      | depth + 1 => (group depth ts).map fun r => (t :: r.1, r.2)
    else (group (if isOpen t then depth + 1 else depth) ts).map fun r => (t :: r.1, r.2)

/-- An attribute, given by the tokens in its brackets.  Only the arguments of `ubx` and `repr` are
looked at by the macros. -/
def attr : List LTok → Option Attr
  | [.ident p] => some ⟨word p, .empty⟩
  | .ident p :: .punct 40 :: ts =>
    match word p with
    | .ubx => args .ubx ts
    | .repr => args .repr ts
    | w => some ⟨w, .other⟩
  | .ident p :: _ => some ⟨word p, .other⟩
  | _ => none
where
  /-- An attribute with its arguments. -/
  args (w : Word) (ts : List LTok) : Option Attr := do
    match ← group 0 ts with
    | (inside, []) => return ⟨w, .paren (← inside.mapM tok)⟩
    | _ => none

/-- The attributes at the beginning; a documentation comment is an attribute `doc` with a string,
whose content nothing reads.  `fuel` bounds their number. -/
def attrs : Nat → List LTok → Option (List Attr × List LTok)
  | fuel + 1, .doc :: ts => do
    let r ← attrs fuel ts
    return (⟨.doc, .eq (.str [.other])⟩ :: r.1, r.2)
  | fuel + 1, .punct 35 :: .punct 91 :: ts => do
    let (inside, ts) ← group 0 ts
    let a ← attr inside
    let r ← attrs fuel ts
    return (a :: r.1, r.2)
  | _, ts => some ([], ts)

/-- `pub`, if it is there. -/
def skipPub : List LTok → List LTok
  | .ident [112, 117, 98] :: ts => ts
  | ts => ts

/-- The tokens up to the next comma outside of brackets, and those behind it. -/
def element : Nat → List LTok → List LTok × List LTok
  | _, [] => ([], [])
  | 0, .punct 44 :: ts => ([], ts)
  | depth, t :: ts =>
    let r := element (if isOpen t then depth + 1 else if isClose t then depth - 1 else depth) ts
    (t :: r.1, r.2)

/-- A type; `syn` keeps lifetimes, but nothing looks at them. -/
def type (ts : List LTok) : Option Ty := do
  let ts ← (ts.filter (· != .lifetime)).mapM tok
  match parseType (ts.length + 1) ts with
  | .ok (t, []) => some t
  | _ => none

/-- The fields of a structure; `fuel` bounds their number. -/
def fields : Nat → List LTok → Option (List Field)
  | _, [] => some []
  | 0, _ :: _ => none
  | fuel + 1, ts => do
    let (as, ts) ← attrs ts.length ts
    match skipPub ts with
    | .ident name :: .punct 58 :: ts =>
      let (t, ts) := element 0 ts
      return ⟨text name, as, ← type t⟩ :: (← fields fuel ts)
    | _ => none

/-- The variants of an enumeration; `fuel` bounds their number. -/
def variants : Nat → List LTok → Option (List VariantDecl)
  | _, [] => some []
  | 0, _ :: _ => none
  | fuel + 1, ts => do
    let (_, ts) ← attrs ts.length ts
    match element 0 ts with
    | ([.ident name], ts) => return ⟨text name, true, none⟩ :: (← variants fuel ts)
    | ([.ident name, .punct 61, t], ts) =>
      return ⟨text name, true, some (← lit t)⟩ :: (← variants fuel ts)
    | (.ident name :: .punct _ :: _, ts) => return ⟨text name, false, none⟩ :: (← variants fuel ts)
    | _ => none

/-- The tokens of the argument of a macro, with attributes taken together.  `fuel` bounds their
number. -/
def macroToks : Nat → List LTok → Option (List Tok)
  | _, [] => some []
  | 0, _ :: _ => none
  | fuel + 1, .punct 35 :: .punct 91 :: ts => do
    let (_, ts) ← group 0 ts
    return .attr :: (← macroToks fuel ts)
  | fuel + 1, t :: ts => do return (← tok t) :: (← macroToks fuel ts)

/-- What is handed to the macros of `ublox_derive`, `ublox_derive/src/lib.rs:25-91`. -/
inductive Item where
  | packet (d : StructDecl)
  | enum (d : EnumDecl)
  | flags (d : FlagsDecl)
  | recv (ts : List Tok)
  deriving DecidableEq, Repr

/-- The macros that are called by an attribute. -/
inductive Mark where
  | packet (k : PackKind)
  | enum
  | flags
  deriving DecidableEq, Repr

/-- The attributes of the macros. -/
def marks : List (String × Mark) := [
  ("ubx_packet_recv", .packet .recv), ("ubx_packet_send", .packet .send),
  ("ubx_packet_recv_send", .packet .recvSend), ("ubx_extend", .enum), ("ubx_extend_bitflags", .flags)]

/-- The macro that an attribute calls. -/
def markOf (a : Attr) : Option Mark :=
  match a.path with
  | .name s => marks.lookup s
  | _ => none

/-- The first attribute that calls a macro, and the others. -/
def splitMark : List Attr → Option (Mark × List Attr)
  | [] => none
  | a :: as =>
    match markOf a with
    | some m => some (m, as)
    | none => (splitMark as).map fun r => (r.1, a :: r.2)

/-- The tokens from the first opening brace on, without it. -/
def toBrace : List LTok → List LTok
  | [] => []
  | .punct 123 :: ts => ts
  | _ :: ts => toBrace ts

/-- The item behind the attributes, if a macro is called for it. -/
def marked (m : Mark) (as : List Attr) (ts : List LTok) : Option (Item × List LTok) :=
  match m, skipPub ts with
  | .packet k, .ident [115, 116, 114, 117, 99, 116] :: .ident name :: ts => do
    let (inside, ts) ← group 0 (toBrace ts)
    return (.packet ⟨k, text name, as, some (← fields inside.length inside)⟩, ts)
  | .enum, .ident [101, 110, 117, 109] :: .ident name :: ts => do
    let (inside, ts) ← group 0 (toBrace ts)
    return (.enum ⟨text name, as, ← variants inside.length inside⟩, ts)
  | .flags, .ident [98, 105, 116, 102, 108, 97, 103, 115] :: .punct 33 :: .punct 123 :: ts => do
    let (inside, ts) ← group 0 ts
    return (.flags ⟨as, ← macroToks inside.length inside⟩, ts)
  | _, _ => none

/-- The tokens behind an item that no macro is called for: behind the first semicolon or closing brace
outside of brackets. -/
def skipItem : Nat → List LTok → Option (List LTok)
  | _, [] => none
  | depth, t :: ts =>
    if isOpen t then skipItem (depth + 1) ts
    else if isClose t then
      match depth with
      | 0 => none
      | 1 => if t == .punct 125 then some ts else skipItem 0 ts
      | depth + 2 => skipItem (depth + 1) ts
    else if depth == 0 && t == .punct 59 then some ts
    else skipItem depth ts

/-- The items of a file that the macros are called for; `fuel` bounds the number of all items. -/
def items : Nat → List LTok → Option (List Item)
  | _, [] => some []
  | 0, _ :: _ => none
  | fuel + 1, ts => do
    let (as, ts) ← attrs ts.length ts
    match splitMark as with
    | some (m, as) =>
      let (i, ts) ← marked m as ts
      return i :: (← items fuel ts)
    | none =>
      match ts with
      | .ident [100, 101, 102, 105, 110, 101, 95, 114, 101, 99, 118, 95, 112, 97, 99, 107, 101, 116, 115] :: .punct 33 :: .punct 40 :: ts =>
        let (inside, ts) ← group 0 ts
        return .recv (← inside.mapM tok) :: (← items fuel ts)
      | ts => items fuel (← skipItem 0 ts)

/-- The items of a text that the macros are called for. -/
def itemsOf (cs : List Nat) : Option (List Item) := do
  let ts ← lex cs
  items ts.length ts

/-! ## Configuration items -/

/-- The types of configuration values, by the codes of their names (`c89_keywords`). -/
def cfgTypes : List (List Nat × CfgTy) := [
  ([98, 111, 111, 108], .bool),
  ([117, 56], .u8),
  ([117, 49, 54], .u16),
  ([105, 49, 54], .i16),
  ([117, 51, 50], .u32),
  ([117, 54, 52], .u64),
  ([67, 102, 103, 73, 110, 102, 77, 97, 115, 107], .cfgInfMask),
  ([68, 97, 116, 97, 66, 105, 116, 115], .dataBits),
  ([80, 97, 114, 105, 116, 121], .parity),
  ([83, 116, 111, 112, 66, 105, 116, 115], .stopBits),
  ([65, 108, 105, 103, 110, 109, 101, 110, 116, 84, 111, 82, 101, 102, 101, 114, 101, 110, 99, 101, 84, 105, 109, 101], .alignment),
  ([84, 112, 80, 117, 108, 115, 101], .tpPulse),
  ([84, 112, 80, 117, 108, 115, 101, 76, 101, 110, 103, 116, 104], .tpPulseLength)]

/-- The rows of the argument of `cfg_val!`, `ublox/src/ubx_packets/cfg_val.rs:212-217`:
documentation, name, key, type. -/
def rows : List LTok → Option (List CfgItem)
  | [] => some []
  | .doc :: ts => rows ts
  | .ident name :: .punct 44 :: .num key :: .punct 44 :: .ident ty :: .punct 44 :: ts => do
    let .int key ← number key | none
    let ty ← find cfgTypes ty
    return ⟨text name, UInt32.ofNat key.toNat, ty⟩ :: (← rows ts)
  | _ => none

/-- The rows in a text. -/
def rowsOf (cs : List Nat) : Option (List CfgItem) := do rows (← lex cs)

end Ublox.Src
