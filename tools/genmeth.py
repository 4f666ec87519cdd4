"""Writes the text of ublox_derive/src/types.rs and of ublox_derive/src/lib.rs, and their functions
as read by Verif.Model.Meth, into lean/Verif/Model/GenMeth.lean, and the proofs that the functions are those of the
text into lean/Verif/Lemmas/GenMeth.lean.
Usage: genmeth.py (needs `lake build Verif.Model.Meth` and `lake env lean`)."""
import os, re, subprocess, tempfile

here = os.path.dirname(os.path.abspath(__file__))
LEAN = os.environ.get('GENLEAN', os.path.join(here, '..', 'lean'))
REPO = os.environ.get('GENREPO', '/repo')

PRINT = open(os.path.join(here, 'genquote.py')).read().split("PRINT = r'''")[1].split("'''")[0]
PRINT = PRINT.replace('import Verif.Model.Quote\nopen Ublox Code Quote\n',
                      'import Verif.Model.Meth\nopen Ublox\nopen Code (Tk K)\nopen Quote (Piece Part)\nopen Meth\n')
PRINT = PRINT.replace('| .float .. => "FLOAT"', '| .float n _ => toString n ++ "."').replace('(ind : String)', '(_ : String)')
a, b = PRINT.index('def ptn'), PRINT.index('def main')
PRINT = PRINT[:a] + r'''def ptn : Pt → String
  | .name x => "(.name " ++ nm x ++ ")"
  | .ctor p a => "(.ctor " ++ names p ++ " " ++ nm a ++ ")"
mutual
partial def ex (i : String) : Ex → String
  | .path p => "(.path " ++ names p ++ ")"
  | .num n => "(.num " ++ toString n ++ ")"
  | .str l => "(.str " ++ cs l ++ ")"
  | .quote ps => "(.quote [" ++ ", ".intercalate (ps.map (part i)) ++ "])"
  | .parse l => "(.parse " ++ toks l ++ ")"
  | .formatIdent a b e => "(.formatIdent " ++ cs a ++ " " ++ cs b ++ " " ++ ex i e ++ ")"
  | .matches e p g => "(.matches " ++ ex i e ++ " " ++ ptn p ++ " " ++ ex i g ++ ")"
  | .lit p fs => "(.lit " ++ names p ++ " " ++ flds i fs ++ ")"
  | .field e n => "(.field " ++ ex i e ++ " " ++ nm n ++ ")"
  | .call f as => "(.call " ++ names f ++ " " ++ exs i as ++ ")"
  | .meth e n as => "(.meth " ++ ex i e ++ " " ++ nm n ++ " " ++ exs i as ++ ")"
  | .methFn e n as xs b => "(.methFn " ++ ex i e ++ " " ++ nm n ++ " " ++ exs i as ++ " " ++ names xs ++
      " " ++ ex i b ++ ")"
  | .try_ e => "(.try_ " ++ ex i e ++ ")"
  | .not e => "(.not " ++ ex i e ++ ")"
  | .eq a b => "(.eq " ++ ex i a ++ " " ++ ex i b ++ ")"
  | .and a b => "(.and " ++ ex i a ++ " " ++ ex i b ++ ")"
  | .or a b => "(.or " ++ ex i a ++ " " ++ ex i b ++ ")"
  | .assign x e => "(.assign " ++ nm x ++ " " ++ ex i e ++ ")"
  | .ite c t e => "(.ite " ++ ex i c ++ sub i t ++ sub i e ++ ")"
  | .ifLet p c t e => "(.ifLet " ++ ptn p ++ " " ++ ex i c ++ sub i t ++ sub i e ++ ")"
  | .for_ x e b => "(.for_ " ++ nm x ++ " " ++ ex i e ++ sub i b ++ ")"
  | .block b => "(.block" ++ sub i b ++ ")"
  | .return_ e => "(.return_ " ++ ex i e ++ ")"
partial def sub (i : String) : Sts → String
  | .nil => " .nil"
  | b => "\n" ++ i ++ "  (" ++ sts (i ++ "  ") b ++ ")"
partial def exs (i : String) : Exs → String
  | .nil => ".nil"
  | .cons e es => "(.cons " ++ ex i e ++ " " ++ exs i es ++ ")"
partial def flds (i : String) : Flds → String
  | .nil => ".nil"
  | .cons n e es => "(.cons " ++ nm n ++ " " ++ ex i e ++ " " ++ flds i es ++ ")"
partial def sts (i : String) : Sts → String
  | .nil => ".nil"
  | .last e => ".last " ++ ex i e
  | .semi e r => ".semi " ++ ex i e ++ " <|\n" ++ i ++ sts i r
  | .let_ x e r => ".let_ " ++ nm x ++ " " ++ ex i e ++ " <|\n" ++ i ++ sts i r
end
''' + PRINT[b:]
PRINT = PRINT.replace('''s!"@@F {((nm f.name).drop 3).dropEnd 1} {names''',
                      '''s!"@@F {if f.owner = 0 then "" else toString (((nm f.owner).drop 3).dropEnd 1)}.{((nm f.name).drop 3).dropEnd 1} {names''')

TY, LB = 'ublox_derive/src/types.rs', 'ublox_derive/src/lib.rs'
PIECES = [(n, f, 0, open(f'{REPO}/{f}').read().split('\n')) for n, f in (('typesRs', TY), ('libRs', LB))]
texts = ['\n'.join(p[3]) for p in PIECES]
with tempfile.TemporaryDirectory() as d:
    for k, t in enumerate(texts):
        open(f'{d}/{k}.rs', 'w').write(t)
    open(d + '/a.lean', 'w').write(PRINT.replace('DIR', d).replace('COUNT', str(len(texts))))
    r = subprocess.run(['lake', 'env', 'lean', d + '/a.lean'], cwd=LEAN, capture_output=True, text=True)
assert r.returncode == 0, r.stdout[-3000:] + r.stderr

GEN = 'Generated by `tools/genmeth.py`: '
code = ['import Verif.Model.Meth\nimport Verif.Model.Tokens\n\n/-! ' + GEN + f'the functions of `{TY}` and of `{LB}` as syntax, and their '
        'text; do not edit. -/\n\nnamespace Ublox.Gen.Meth\nopen Ublox.Meth\n']
proof = ['import Verif.Lemmas.Code\nimport Verif.Lemmas.SourceText\nimport Verif.Model.GenMeth\n\n/-! ' + GEN +
         'the functions in the texts; do not edit. -/\n\nnamespace Ublox.Gen.Meth\nopen Src\nopen Ublox.Meth\n\n'
         'set_option maxRecDepth 100000\n']
alls = []
for p, (piece, path, start, ls), text in zip(r.stdout.split('@@P\n')[1:], PIECES, texts):
    names = []
    for q in p.split('@@F ')[1:]:
        head, body = q.split('\n', 1)
        qual, params = head.split(' ', 1)
        owner, name = qual.split('.')
        body = body.rstrip()
        line = start + 1 + next(i for i, l in enumerate(ls) if re.search(rf'\bfn {name}\b', l))
        lean = (owner + '_' if owner else '') + name
        code.append(f'/-- `{path}:{line}` -/\ndef {lean}_body : Sts :=\n    {body}\n')
        own = f'i!"{owner}"' if owner else '0'
        code.append(f'/-- `{path}:{line}` -/\ndef {lean} : Fn := ⟨{own}, i!"{name}", {params}, {lean}_body⟩\n')
        names.append(lean)
    code.append(f'/-- `{path}:{start + 1}-{start + len(ls)}` -/\ndef {piece} : String := r#"' + text + '"#\n')
    v = '[' + ', '.join(names) + ']'
    code.append(f'/-- `{path}:{start + 1}-{start + len(ls)}` -/\ndef {piece}_fns : List Fn :=\n  {v}\n')
    proof.append(f'theorem {piece}_fnsOf : fnsOf (codes {piece}) = some {piece}_fns := by\n'
                 f'  rw [codes_eq (s := {piece}) (chars := charsOf% {piece}) rfl]\n  kernel_rfl\n')
for f, o in (('Model/GenMeth', code), ('Lemmas/GenMeth', proof)):
    open(os.path.join(LEAN, 'Verif', f + '.lean'), 'w').write('\n'.join(o + ['end Ublox.Gen.Meth\n']))
