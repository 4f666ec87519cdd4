"""Compares the text in lean/Verif/Model/GenSource.lean, GenText.lean and GenMacro.lean with the files of the repository."""
import os
import re
import sys

here = os.path.dirname(os.path.abspath(__file__))
repo = sys.argv[1] if len(sys.argv) > 1 else '/repo'
gen = open(os.path.join(here, '..', 'lean/Verif/Model/GenSource.lean')).read()
for f, n in (('packets.rs', 'packetsRs'), ('cfg_val.rs', 'cfgValRs')):
    src = open(f'{repo}/ublox/src/ubx_packets/{f}').read()
    order = re.search(rf'def {n} : List String :=\n  \[(.*?)\]', gen)[1].split(', ')
    text = ''.join(re.search(rf'def {k} : String := r#"(.*?)"#\n', gen, re.S)[1] for k in order)
    if n == 'packetsRs':
        ok = text == src
    else:
        arg = src.split('cfg_val! {\n')[1]
        ok = arg.startswith(text) and arg[len(text):].startswith('}')
    print(f, 'same' if ok else 'DIFFERENT')

gen = open(os.path.join(here, '..', 'lean/Verif/Model/GenText.lean')).read()
for f, a, b, n, names in re.findall(r'/-- `(\S+):(\d+)-(\d+)`, in pieces. -/\ndef (\w+) : List String :=\n  \[(.*?)\]', gen):
    text = ''
    for k in names.split(', '):
        m = re.search(rf'def {k} : String := (?:r#"(.*?)"#|"(.*?[^\\])")\n', gen, re.S)
        text += m[1] if m[1] is not None else re.sub(
            r'\\(x..|.)', lambda e: chr(int(e[1][1:], 16)) if e[1][0] == 'x' and len(e[1]) == 3 else e[1], m[2])
    src = ''.join(open(f'{repo}/{f}').read().splitlines(True)[int(a) - 1:int(b)])
    print(f, 'same' if text == src else 'DIFFERENT')

gen = ''.join(open(os.path.join(here, '..', f'lean/Verif/Model/{f}.lean')).read() for f in ('GenMacro', 'GenSource', 'GenText'))


def text_of(k):
    m = re.search(rf'def {k} : List String :=\n?\s*(.*?)\n\n', gen, re.S)
    if m:
        return ''.join(text_of(x) for x in re.findall(r'\w+', m[1].replace('String.join', '')))
    m = re.search(rf'def {k} : String := (?:r#"(.*?)"#|"(.*?)")\n', gen, re.S)
    return m[1] if m[1] is not None else m[2].replace('\\n', '\n')


src = open(f'{repo}/ublox/src/ubx_packets/cfg_val.rs').read()
print('cfg_val.rs as a whole', 'same' if text_of('cfgFileRs') == src else 'DIFFERENT')

gen = open(os.path.join(here, '..', 'lean/Verif/Model/GenQuote.lean')).read()
src = open(f'{repo}/ublox_derive/src/output.rs').read()
print('output.rs', 'same' if text_of('outputRs') == src else 'DIFFERENT')

gen = open(os.path.join(here, '..', 'lean/Verif/Model/GenMeth.lean')).read()
src = open(f'{repo}/ublox_derive/src/types.rs').read()
print('types.rs', 'same' if text_of('typesRs') == src else 'DIFFERENT')
src = open(f'{repo}/ublox_derive/src/lib.rs').read()
print('lib.rs', 'same' if text_of('libRs') == src else 'DIFFERENT')

gen = open(os.path.join(here, '..', 'lean/Verif/Model/GenError.lean')).read()
src = open(f'{repo}/ublox/src/error.rs').read()
print('error.rs', 'same' if text_of('errorRs') == src else 'DIFFERENT')
