"""Writes the functions of hand-written source files, as read by Verif.Model.Code, into
lean/Verif/Model/GenCode.lean (parser.rs) and GenCode2.lean (the packets), their text into
lean/Verif/Model/GenText.lean (packets.rs is in GenSource.lean already) and the proofs that the functions
are those of the text into lean/Verif/Lemmas/GenCode.lean and GenCode2*.lean.
Usage: gencode.py (needs `lake build Verif.Model.Code` and `lake env lean`)."""
import os, re, subprocess, tempfile

here = os.path.dirname(os.path.abspath(__file__))
LEAN = os.path.join(here, '..', 'lean')
REPO = '/repo'

PRINT = '''import Verif.Model.Code
open Ublox.Code Ublox
def main : IO Unit := do
  for k in List.range COUNT do
    let s ← IO.FS.readFile s!"DIR/{k}.rs"
    IO.println s!"@@P"
    let some l := Src.lex (s.toList.map Char.toNat) | throw (.userError "lex")
    let some ts := tokens l | throw (.userError "tokens")
    let some its := cut 0 [] ts | throw (.userError "cut")
    let some is := itemsOf its | throw (.userError "items")
    let some ds := declList its | throw (.userError "decls")
    for i in is do
      IO.println s!"@@I {i.type} {" ".intercalate (i.trait.map toString)}"
      for f in i.fns do
        IO.println s!"@@F {f.name} {f.ret}\\n{(repr f.params).pretty 100}\\n@@B\\n{(repr f.body).pretty 100}"
    for d in ds do
      match d with
      | .struct n fs => IO.println s!"@@D struct {n} {" ".intercalate (fs.map fun p => s!"{p.1} {p.2}")}"
      | .enum n fs => IO.println s!"@@D enum {n} {" ".intercalate (fs.map fun p =>
          s!"{p.1} {match p.2 with | some n => toString n | none => "-"}")}"
#eval main
'''


def ident(n):
    """the identifier of a number"""
    return int(n).to_bytes((int(n).bit_length() + 7) // 8, 'big').decode()


def idents(t):
    """numbers of identifiers -> `i!"..."`; other numbers are left alone"""
    return re.sub(r'(\.int |\.float \d+ |\.float |\.range \d+ |\.range )?\b(\d+)\b',
                  lambda m: m[0] if m[1] else f'i!"{ident(m[2])}"', t)


def functions(texts):
    """for every text: the implementations and the declarations"""
    with tempfile.TemporaryDirectory() as d:
        for k, t in enumerate(texts):
            open(f'{d}/{k}.rs', 'w').write(t)
        open(d + '/a.lean', 'w').write(PRINT.replace('DIR', d).replace('COUNT', str(len(texts))))
        r = subprocess.run(['lake', 'env', 'lean', d + '/a.lean'], cwd=LEAN, capture_output=True, text=True)
    assert r.returncode == 0, r.stdout[-3000:] + r.stderr
    res = []
    for piece in r.stdout.split('@@P')[1:]:
        piece, *ds = piece.split('@@D ')
        impls = []
        for p in piece.split('@@I ')[1:]:
            head, *fs = p.split('@@F ')
            ty, *trait = [ident(w) for w in head.split()]
            out = []
            for f in fs:
                name, rest = f.split('\n', 1)
                name, ret = name.split()
                params, body = rest.split('@@B\n')
                body = re.sub(r'Ublox\.Code\.\w+\.', '.', body)
                body = idents(re.sub(r'\((\.\w+)\)', r'\1', body).strip())
                out.append((ident(name), ident(ret), idents(params.strip()), body))
            impls.append((ty, trait, out))
        decls = []
        for x in ds:
            kind, n, *fs = x.split()
            fs = list(zip(fs[::2], fs[1::2]))
            if kind == 'struct':
                fs = [f'(i!"{ident(a)}", i!"{ident(b)}")' for a, b in fs]
            else:
                fs = [f'(i!"{ident(a)}", {"none" if b == "-" else "some " + b})' for a, b in fs]
            decls.append((ident(n), f'.{kind} i!"{ident(n)}" [{", ".join(fs)}]'))
        res.append((impls, decls))
    return res


def literal(t):
    """a string literal; a word that Lean knows as a keyword is not spelled out in it"""
    if 'unsafe' not in t:
        return f'r#"{t}"#'
    t = t.replace('\\', '\\\\').replace('"', '\\"').replace('unsafe', 'uns\\x61fe')
    return f'"{t}"'


def pieces(lines, first, size=1200):
    """consecutive pieces that end behind an item"""
    out = []; cur = []; n = 0
    for i, l in enumerate(lines):
        cur.append(l); n += len(l) + 1
        if i + 1 == len(lines) or (n >= size and l == '' and lines[i - 1].startswith('}')):
            out.append((first + i + 1 - len(cur), first + i, cur)); cur = []; n = 0
    return out


def embedded(path):
    """the pieces of a file that is in GenSource.lean already"""
    src = open(os.path.join(LEAN, 'Verif/Model/GenSource.lean')).read()
    lines = open(os.path.join(REPO, path)).read().split('\n')
    out = []
    for m in re.finditer(rf'/-- `{re.escape(path)}:(\d+)-(\d+)` -/\ndef (\w+) : String', src):
        out.append((int(m[1]), int(m[2]), lines[int(m[1]) - 1:int(m[2])]))
    return out


GEN = 'Generated by `tools/gencode.py`: '


def head(imports, what, opens):
    return ['\n'.join('import ' + i for i in imports) + f'\n\n/-! {GEN}{what}; do not edit. -/\n\nnamespace Ublox.Gen\n{opens}']


text = [f'/-! {GEN}the text of hand-written files of `/repo`; do not edit. -/\n\nnamespace Ublox.Gen\n']


def line_of(ls, x, fname, used):
    for i, l in enumerate(ls):
        if re.search(rf'\b(fn|const) {re.escape(fname)}\b', l) and (x + i) not in used:
            used.add(x + i)
            return x + i
    raise Exception(fname)


def emit(name, path, a, b, ps, code, proof, program, inText=True):
    used = set()
    parts = []
    res = functions(['\n'.join(ls) + '\n' for _, _, ls in ps])
    fns = []
    for k, ((x, y, ls), (impls, decls)) in enumerate(zip(ps, res)):
        if inText:
            text.append(f'/-- `{path}:{x}-{y}` -/\ndef {name}{k} : String := ' + literal('\n'.join(ls) + '\n') + '\n')
        mine = []
        for ty, trait, fs in impls:
            free = ty == '' or trait == ['mod']
            base = f'{name}_{ty}' if ty else name
            tail = ''
            if trait and trait != [ty] and not free:
                tail = '_' + '_'.join(w for w in trait if w not in ('core', 'ops', 'default', 'usize', 'iter'))
            fnames = []
            for fname, ret, params, body in fs:
                n = f'{base}{tail}_{fname}'
                ln = line_of(ls, x, fname, used)
                code.append(f'/-- `{path}:{ln}` -/\ndef {n} : Fn where\n  name := i!"{fname}"\n  params := {params}\n'
                            f'  ret := i!"{ret}"\n  body :=\n    ' + body.replace('\n', '\n    ') + '\n')
                fnames.append(n)
                fns.append((trait, ty, fname, n))
            n = f'{base}{tail}_impl' if ty else f'{name}_{fs[0][0]}_impl'
            tr = ', '.join(f'i!"{w}"' for w in trait)
            code.append(f'/-- `{path}:{x}-{y}` -/\ndef {n} : Impl := ⟨[{tr}], i!"{ty}", [{", ".join(fnames)}]⟩\n')
            mine.append(n)
        ds = []
        if program:
            for n, v in decls:
                code.append(f'/-- `{path}:{x}-{y}` -/\ndef {name}_{n}_decl : Decl := {v}\n')
                ds.append(f'{name}_{n}_decl')
        parts.append((mine, ds))
    allv = ', '.join(n for m, _ in parts for n in m)
    code.append(f'/-- `{path}:{a}-{b}`, all functions -/\ndef {name}_code : List Impl :=\n  [{allv}]\n')
    if program:
        alld = ', '.join(n for _, m in parts for n in m)
        code.append(f'/-- `{path}:{a}-{b}`, all structures and enumerations that no macro is called for -/\n'
                    f'def {name}_decls : List Decl :=\n  [{alld}]\n')
    if inText:
        text.append(f'/-- `{path}:{a}-{b}`, in pieces. -/\ndef {name} : List String :=\n  ['
                    + ', '.join(f'{name}{k}' for k in range(len(ps))) + ']\n')
    f = 'programOf' if program else 'implsOf'
    s = 'program' if program else 'impls'
    def val(m, d):
        v = '[' + ', '.join(m) + ']'
        return f'({v}, [{", ".join(d)}])' if program else v
    for k, (m, d) in enumerate(parts):
        proof[k * len(proof) // len(parts)].append(
            f'theorem {name}{k}_{s} : {f} (codes {name}{k}) = some {val(m, d)} := by\n'
            f'  rw [codes_eq (s := {name}{k}) (chars := charsOf% {name}{k}) rfl]\n  kernel_rfl\n')
    vals = ', '.join(val(m, d) for m, d in parts)
    rhs = f'({name}_code, {name}_decls)' if program else f'{name}_code'
    return fns, (f'theorem {name}_{s} : {f} (codes (String.join {name})) = some {rhs} :=\n'
                 f'  {f}_strings (ls := [{vals}]) <|\n    '
                 + ' <|\n    '.join(f'.cons {name}{k}_{s}' for k in range(len(ps))) + ' .nil\n')


def lines_of(path, a, b):
    lines = open(os.path.join(REPO, path)).read().split('\n')[a - 1:b]
    assert not any('"#' in l for l in lines)
    return lines


def write(f, o):
    open(os.path.join(LEAN, 'Verif', f + '.lean'), 'w').write('\n'.join(o + ['end Ublox.Gen\n']))


PROOF = 'namespace Ublox.Gen\nopen Src Code\n\nset_option maxRecDepth 100000\n'
# parser.rs
code = head(['Verif.Model.Code'], 'the functions of hand-written files of `/repo` as syntax', 'open Code\n')
proof = head(['Verif.Lemmas.Code', 'Verif.Lemmas.SourceText', 'Verif.Model.GenCode', 'Verif.Model.GenText'],
             'the functions in each piece of the text', 'open Src Code\n\nset_option maxRecDepth 100000\n')
_, last = emit('parserRs', 'ublox/src/parser.rs', 1, 500, pieces(lines_of('ublox/src/parser.rs', 1, 500), 1),
               code, [proof], False)
write('Model/GenCode', code)
write('Lemmas/GenCode', proof + [last])
# the packets
code = head(['Verif.Model.Code'], 'the functions of hand-written files of `/repo` as syntax', 'open Code\n')
PARTS = 3
proofs = [head(['Verif.Lemmas.Code', 'Verif.Lemmas.SourceText', 'Verif.Model.GenCode2', 'Verif.Model.GenText',
                'Verif.Model.GenSource'],
               'the functions in each piece of the text', 'open Src Code\n\nset_option maxRecDepth 100000\n')
          for _ in range(PARTS)]
final = head([f'Verif.Lemmas.GenCode2{"abc"[k]}' for k in range(PARTS)], 'the functions in the whole text',
             'open Src Code\n')
allfns = []
for name, path, a, b, inText in (('metaRs', 'ublox/src/ubx_packets.rs', 1, 132, True),
                                 ('typesRs', 'ublox/src/ubx_packets/types.rs', 1, 152, True),
                                 ('cfgHeadRs', 'ublox/src/ubx_packets/cfg_val.rs', 1, 49, True),
                                 ('packetsRs', 'ublox/src/ubx_packets/packets.rs', 1, 3741, False)):
    ps = pieces(lines_of(path, a, b), a) if inText else embedded(path)
    fns, last = emit(name, path, a, b, ps, code, proofs if name == 'packetsRs' else proofs[:1], True, inText)
    final.append(last)
    allfns += fns
write('Model/GenCode2', code)
for k in range(PARTS):
    write(f'Lemmas/GenCode2{"abc"[k]}', proofs[k])
write('Lemmas/GenCode2', final)
write('Model/GenText', text)
# where the functions are found
o = head(['Verif.Lemmas.Code', 'Verif.Lemmas.RustAttr', 'Verif.Model.Program'], 'where functions are found',
         'open Code Exec\n\nset_option maxRecDepth 100000\n')
for trait, ty, fname, n in allfns:
    if trait == ['mod'] and ty == '':
        tags, ty = ['mod'], ''
    elif sum(1 for f in allfns if f[1] == ty and f[2] == fname) == 1:
        tags = []
    else:
        tags = trait
    for ts in [tags] + ([trait] if trait == ['From', 'u32'] and tags == [] else []):
        tail = '_from' if ts == ['From', 'u32'] else ''
        ids = ', '.join('i!"' + t + '"' for t in ts)
        o.append(f'theorem {n}_lookup{tail} : lookup program.impls [{ids}] i!"{ty}" i!"{fname}" =\n'
                 f'    some {n} := by kernel_rfl\n')
write('Lemmas/GenExec', o)
