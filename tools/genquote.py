"""Writes the text of ublox_derive/src/output.rs and its functions, as read by Verif.Model.Quote, into
lean/Verif/Model/GenQuote.lean, and the proofs that the functions are those of the text into
lean/Verif/Lemmas/GenQuote.lean.
Usage: genquote.py (needs `lake build Verif.Model.Quote Verif.Model.Tokens` and `lake env lean`)."""
import os, re, subprocess, sys, tempfile

here = os.path.dirname(os.path.abspath(__file__))
LEAN = os.environ.get('GENLEAN', os.path.join(here, '..', 'lean'))
PATH = 'ublox_derive/src/output.rs'
TEXT = open(os.environ.get('GENREPO', '/repo') + '/' + PATH).read()

PRINT = r'''import Verif.Model.Quote
open Ublox Code Quote

def nm (n : Nat) : String :=
  let rec go (fuel n : Nat) (acc : List Char) : List Char :=
    match fuel with
    | 0 => acc
    | k + 1 => if n = 0 then acc else go k (n / 256) (Char.ofNat (n % 256) :: acc)
  if n = 0 then "0" else "i!\"" ++ String.ofList (go 100 n []) ++ "\""
def tuple (n : Nat) : String := if n = 48 ∨ n = 49 then toString n else nm n
def names (l : List Nat) : String := "[" ++ ", ".intercalate (l.map nm) ++ "]"
def cs (l : List Nat) : String := "c!\"" ++ (String.ofList (l.map Char.ofNat)).replace "\"" "\\\"" ++ "\""
def kwText (k : K) : String := ((((repr k).pretty.splitOn ".").getLast!).splitOn "_").head!
def tkText : Tk → String
  | .kw k => kwText k
  | .id l => String.ofList (l.map Char.ofNat)
  | .num n => toString n
  | .tnum n ty => toString n ++ ((nm ty).drop 3).dropEnd 1
  | .float .. => "FLOAT"
  | .str l => "\\\"" ++ String.ofList (l.map Char.ofNat) ++ "\\\""
  | .life => "'a"
  | .p c => String.singleton (Char.ofNat c)
/-- no space where Rust has none -/
def spaced : List Tk → String
  | [] => ""
  | [t] => tkText t
  | t :: u :: r =>
    let noSpace := match t, u with
      | .p 58, .p 58 => true | .p 45, .p 62 => true | .p 46, .p 46 => true | .p 61, .p 61 => true
      | .p 61, .p 62 => true | .p 62, .p 61 => true | .p 60, .p 60 => true | .p 35, .p 91 => true
      | .p 43, .p 61 => true
      | _, .p 44 => true | _, .p 59 => true | .p 58, .id _ => false | .p 46, .id _ => true | .p 40, _ => true
      | _, .p 41 => true | .p 38, _ => true | .p 91, _ => true | _, .p 93 => true
      | .id _, .p 40 => true | .id _, .p 46 => true | .p 41, .p 46 => true | .id _, .p 33 => true
      | .p 33, .p 40 => true | .id _, .p 91 => true | _, .p 63 => true | .p 33, .id _ => true
      | .id _, .p 58 => true
      | _, _ => false
    tkText t ++ (if noSpace then "" else " ") ++ spaced (u :: r)
def toks (l : List Tk) : String := "t!\"" ++ spaced l ++ "\""
def piece : Piece → String
  | .toks l => ".toks " ++ toks l
  | .var x => ".var " ++ nm x
def part (ind : String) : Part → String
  | .one p => ".one (" ++ piece p ++ ")"
  | .rep b sep => ".rep [" ++ ", ".intercalate (b.map piece) ++ "] " ++ toks sep
def ptn : Pt → String
  | .name x => "(.name " ++ nm x ++ ")"
  | .wild => ".wild"
  | .pair a b => "(.pair " ++ ptn a ++ " " ++ ptn b ++ ")"
  | .ctor0 p => "(.ctor0 " ++ names p ++ ")"
  | .ctor1 p a => "(.ctor1 " ++ names p ++ " " ++ ptn a ++ ")"
  | .or a b => "(.or " ++ ptn a ++ " " ++ ptn b ++ ")"
def opn : Op → String
  | .add => ".add" | .sub => ".sub" | .eq => ".eq" | .ne => ".ne" | .or => ".or" | .and => ".and"
mutual
partial def ex (i : String) : Ex → String
  | .path p => "(.path " ++ names p ++ ")"
  | .num n ty => "(.num " ++ toString n ++ " " ++ nm ty ++ ")"
  | .str l => "(.str " ++ cs l ++ ")"
  | .quote ps =>
    let j := i ++ "  "
    "(.quote [" ++ (",\n" ++ j).intercalate (ps.map (part j)) ++ "])"
  | .parse l => "(.parse " ++ toks l ++ ")"
  | .formatIdent a b e => "(.formatIdent " ++ cs a ++ " " ++ cs b ++ " " ++ ex i e ++ ")"
  | .format => ".format"
  | .assert e => "(.assert " ++ ex i e ++ ")"
  | .assertEq a b => "(.assertEq " ++ ex i a ++ " " ++ ex i b ++ ")"
  | .assertNe a b => "(.assertNe " ++ ex i a ++ " " ++ ex i b ++ ")"
  | .unimplemented => ".unimplemented"
  | .field e n => "(.field " ++ ex i e ++ " " ++ tuple n ++ ")"
  | .index e n => "(.index " ++ ex i e ++ " " ++ toString n ++ ")"
  | .vec es => "(.vec " ++ exs i es ++ ")"
  | .call f as => "(.call " ++ names f ++ " " ++ exs i as ++ ")"
  | .meth e n as => "(.meth " ++ ex i e ++ " " ++ nm n ++ " " ++ exs i as ++ ")"
  | .methFn e n as xs b => "(.methFn " ++ ex i e ++ " " ++ nm n ++ " " ++ exs i as ++ " " ++ names xs ++
      " " ++ ex i b ++ ")"
  | .not e => "(.not " ++ ex i e ++ ")"
  | .bin op a b => "(.bin " ++ opn op ++ " " ++ ex i a ++ " " ++ ex i b ++ ")"
  | .range a b => "(.range " ++ ex i a ++ " " ++ ex i b ++ ")"
  | .rangeIncl a b => "(.rangeIncl " ++ ex i a ++ " " ++ ex i b ++ ")"
  | .set x n e => "(.set " ++ nm x ++ " " ++ toString n ++ " " ++ ex i e ++ ")"
  | .assign x e => "(.assign " ++ nm x ++ " " ++ ex i e ++ ")"
  | .addAssign x e => "(.addAssign " ++ nm x ++ " " ++ ex i e ++ ")"
  | .ite c t e => "(.ite " ++ ex i c ++ sub i t ++ sub i e ++ ")"
  | .ifLet p c t e => "(.ifLet " ++ ptn p ++ " " ++ ex i c ++ sub i t ++ sub i e ++ ")"
  | .match_ e as => "(.match_ " ++ ex i e ++ "\n" ++ i ++ "  " ++ ams (i ++ "  ") as ++ ")"
  | .for_ p e b => "(.for_ " ++ ptn p ++ " " ++ ex i e ++ " @@[" ++ sts "    " b ++ "@@])"
  | .block b => "(.block" ++ sub i b ++ ")"
  | .return_ e => "(.return_ " ++ ex i e ++ ")"
  | .break_ => ".break_"
partial def sub (i : String) : Sts → String
  | .nil => " .nil"
  | b => "\n" ++ i ++ "  (" ++ sts (i ++ "  ") b ++ ")"
partial def exs (i : String) : Exs → String
  | .nil => ".nil"
  | .cons e es => "(.cons " ++ ex i e ++ " " ++ exs i es ++ ")"
partial def sts (i : String) : Sts → String
  | .nil => ".nil"
  | .last e => ".last " ++ ex i e
  | .semi e r => ".semi " ++ ex i e ++ " <|\n" ++ i ++ sts i r
  | .let_ p e r => ".let_ " ++ ptn p ++ " " ++ ex i e ++ " <|\n" ++ i ++ sts i r
partial def ams (i : String) : Ams → String
  | .nil => ".nil"
  | .cons p e as => "(.cons " ++ ptn p ++ " " ++ ex i e ++ "\n" ++ i ++ ams i as ++ ")"
end
def main : IO Unit := do
  for k in List.range COUNT do
    let s ← IO.FS.readFile s!"DIR/{k}.rs"
    let some fs := fnsOf (s.toList.map Char.toNat) | throw (.userError s!"piece {k}")
    IO.println "@@P"
    for f in fs do
      IO.println s!"@@F {((nm f.name).drop 3).dropEnd 1} {names f.params}\n{sts "    " f.body}"
#eval main
'''
LINES = TEXT.split('\n')
assert not any('"#' in l for l in LINES)
# one piece per function
ps = []; cur = []
for i, l in enumerate(LINES):
    cur.append(l)
    if i + 1 == len(LINES) or (l == '' and LINES[i - 1] == '}'):
        ps.append((i + 2 - len(cur), i + 1, cur)); cur = []
if ps[-1][2] == ['']:
    ps[-2][2].append(''); ps[-2] = (ps[-2][0], ps[-1][1], ps[-2][2]); ps.pop()
texts = ['\n'.join(p[2]) + '\n' for p in ps]
texts[-1] = texts[-1][:-1]
assert ''.join(texts) == TEXT
with tempfile.TemporaryDirectory() as d:
    for k, t in enumerate(texts):
        open(f'{d}/{k}.rs', 'w').write(t)
    open(d + '/a.lean', 'w').write(PRINT.replace('DIR', d).replace('COUNT', str(len(texts))))
    r = subprocess.run(['lake', 'env', 'lean', d + '/a.lean'], cwd=LEAN, capture_output=True, text=True)
assert r.returncode == 0, r.stdout[-3000:] + r.stderr

GEN = 'Generated by `tools/genquote.py`: '
code = ['import Verif.Model.Quote\nimport Verif.Model.Tokens\n\n/-! ' + GEN + 'the functions of '
        f'`{PATH}` as syntax, and its text; do not edit. -/\n\nnamespace Ublox.Gen\nopen Code hiding Fn\nopen Quote\n']
proof = ['import Verif.Lemmas.Quote\nimport Verif.Lemmas.SourceText\nimport Verif.Model.GenQuote\n\n/-! ' + GEN +
         'the functions in each piece of the text; do not edit. -/\n\nnamespace Ublox.Gen\nopen Src\nopen Code hiding Fn\nopen Quote\n\n'
         'set_option maxRecDepth 100000\n']
vals = []
for k, (p, (a, b, ls)) in enumerate(zip(r.stdout.split('@@P\n')[1:], ps)):
    names = []
    for q in p.split('@@F ')[1:]:
        head, body = q.split('\n', 1)
        name, params = head.split(' ', 1)
        body = body.rstrip()
        line = a + next(i for i, l in enumerate(ls) if re.search(rf'\bfn {name}\b', l))
        n = 0
        # the bodies of loops get names, from the inside out
        while '@@[' in body:
            i = body.rindex('@@['); j = body.index('@@]', i)
            inner = body[i + 3:j]
            code.append(f'/-- `{PATH}:{line}`, the body of a loop in `{name}` -/\ndef {name}_loop{n} : Sts :=\n'
                        f'    {inner}\n')
            body = body[:i] + f'{name}_loop{n}' + body[j + 3:]
            n += 1
        code.append(f'/-- `{PATH}:{line}` -/\ndef {name}_body : Sts :=\n    {body}\n')
        code.append(f'/-- `{PATH}:{line}` -/\ndef {name} : Fn := ⟨i!"{name}", {params}, {name}_body⟩\n')
        names.append(name)
    code.append(f'/-- `{PATH}:{a}-{b}` -/\ndef outputRs{k} : String := r#"' + texts[k] + '"#\n')
    v = '[' + ', '.join(names) + ']'
    vals.append(v)
    proof.append(f'theorem outputRs{k}_fns : fnsOf (codes outputRs{k}) = some {v} := by\n'
                 f'  rw [codes_eq (s := outputRs{k}) (chars := charsOf% outputRs{k}) rfl]\n  kernel_rfl\n')
n = len(texts)
code.append(f'/-- `{PATH}`, in pieces. -/\ndef outputRs : List String :=\n  ['
            + ', '.join(f'outputRs{k}' for k in range(n)) + ']\n')
code.append(f'/-- `{PATH}`, all functions -/\ndef outputRs_fns : List Fn :=\n  ['
            + ', '.join(v[1:-1] for v in vals if v != '[]') + ']\n')
proof.append('theorem outputRs_fnsOf : fnsOf (codes (String.join outputRs)) = some outputRs_fns :=\n'
             f'  fnsOf_strings (ls := [{", ".join(vals)}]) <|\n    '
             + ' <|\n    '.join(f'.cons outputRs{k}_fns' for k in range(n)) + ' .nil\n')
for f, o in (('Model/GenQuote', code), ('Lemmas/GenQuote', proof)):
    open(os.path.join(LEAN, 'Verif', f + '.lean'), 'w').write('\n'.join(o + ['end Ublox.Gen\n']))
