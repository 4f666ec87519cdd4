#!/usr/bin/env python3
"""Generates lean/Verif/Model/Gen*.lean from the text of /repo.

Reads the declarations of packets.rs and cfg_val.rs (packets, enums, bit flags, receive list,
configuration items) and prints them as Lean data: once interpreted (GenTypes, GenPackets, GenCfgVal),
once as tokens (GenDecls).  Not needed to build: the generated modules are
committed.
"""
import re, sys, os
from fractions import Fraction
REPO = '/repo/ublox/src/ubx_packets/'
OUT = os.path.join(os.path.dirname(os.path.abspath(__file__)), '..', 'lean', 'Verif', 'Model')


def strip(s):
    out = []; i = 0
    while i < len(s):
        if s.startswith('//', i):
            j = s.find('\n', i); j = len(s) if j < 0 else j
            out.append(' ' * (j - i)); i = j
        elif s.startswith('/*', i):
            j = s.find('*/', i) + 2; out.append(re.sub(r'[^\n]', ' ', s[i:j])); i = j
        elif s[i] == '"':
            j = i + 1
            while s[j] != '"':
                j += 2 if s[j] == '\\' else 1
            out.append(s[i:j + 1]); i = j + 1
        else:
            out.append(s[i]); i += 1
    return ''.join(out)


t = strip(open(REPO + 'packets.rs').read())


def line(p): return t.count('\n', 0, p) + 1


def match(s, i, o, c):
    d = 0
    while True:
        if s[i] == o: d += 1
        elif s[i] == c:
            d -= 1
            if d == 0: return i
        i += 1


def attrs_at(i):
    attrs = []
    while True:
        while t[i].isspace(): i += 1
        if t[i] == '#':
            j = match(t, i + 1, '[', ']'); attrs.append(re.sub(r'\s+', ' ', t[i + 2:j])); i = j + 1
        else:
            return attrs, i


def split_top(s):
    out = []; d = 0; cur = ''
    for ch in s:
        if ch in '[(<': d += 1
        if ch in '])>': d -= 1
        if ch == ',' and d == 0: out.append(cur.strip()); cur = ''
        else: cur += ch
    if cur.strip(): out.append(cur.strip())
    return out


def ubx_attr(attrs):
    r = []
    for a in attrs:
        m = re.match(r'ubx\s*\((.*)\)$', a, re.S)
        if m: r += split_top(m[1])
    return r


# ---------------------------------------------------------------- enums
enums = []
for m in re.finditer(r'#\[ubx_extend\]', t):
    attrs, i = attrs_at(m.end())
    em = re.compile(r'(pub )?enum (\w+)\s*\{').match(t, i)
    assert em, line(i)
    end = match(t, em.end() - 1, '{', '}')
    vs = []
    for v in split_top(re.sub(r'#\[[^\]]*\]', '', t[em.end():end])):
        n, x = v.split('='); vs.append((n.strip(), int(x.strip(), 0)))
    assert any(a.replace(' ', '') == 'repr(u8)' for a in attrs)
    enums.append((em[2], ubx_attr(attrs), vs, line(m.start()), line(end)))
# ---------------------------------------------------------------- bit flags
flags = []
for m in re.finditer(r'#\[ubx_extend_bitflags\]', t):
    attrs, i = attrs_at(m.end())
    bm = re.compile(r'bitflags!\s*\{').match(t, i)
    end = match(t, bm.end() - 1, '{', '}')
    sm = re.compile(r'struct\s+(\w+)\s*:\s*(u\d+)\s*\{').search(t, bm.end())
    send = match(t, sm.end() - 1, '{', '}')
    cs = [(c[1], int(c[2].replace('_', ''), 0))
          for c in re.finditer(r'const\s+(\w+)\s*=\s*([0-9a-fA-Fxb_]+)\s*;', t[sm.end():send])]
    assert len(cs) == t[sm.end():send].count('const')
    flags.append((sm[1], sm[2], ubx_attr(attrs), cs, line(m.start()), line(end)))
# ---------------------------------------------------------------- packets
packs = []
for m in re.finditer(r'#\[ubx_packet_(recv_send|recv|send)\]', t):
    attrs, i = attrs_at(m.end())
    sm = re.compile(r'(pub )?struct (\w+)\s*(<[^>]*>)?\s*\{').match(t, i)
    end = match(t, sm.end() - 1, '{', '}')
    body = t[sm.end():end]; base = sm.end(); fields = []; k = 0
    while True:
        while k < len(body) and (body[k].isspace() or body[k] == ','): k += 1
        if k >= len(body): break
        fa = []
        while body[k] == '#':
            j = match(body, k + 1, '[', ']'); fa.append(re.sub(r'\s+', ' ', body[k + 2:j])); k = j + 1
            while body[k].isspace(): k += 1
        fm = re.compile(r'(pub )?(\w+)\s*:\s*').match(body, k)
        ln = line(base + k); k = fm.end(); d = 0; s = k
        while k < len(body) and not (body[k] == ',' and d == 0):
            if body[k] in '[(<': d += 1
            if body[k] in '])>': d -= 1
            k += 1
        fields.append((fm[2], body[s:k].strip(), ubx_attr(fa), ln))
    packs.append((m[1], sm[2], ubx_attr(attrs), fields, line(m.start()), line(end)))
m = re.search(r'define_recv_packets!\s*\(\s*enum PacketRef\s*\{(.*?)\}', t, re.S)
recv = [x.strip() for x in re.sub(r'_ = \w+,', '', m[1]).replace('\n', ' ').split(',') if x.strip()]
recv_lines = (line(m.start()), line(m.end()))


def lname(n): return n[0].lower() + n[1:] + '_'


enum_names = {e[0] for e in enums}; flag_names = {f[0] for f in flags}
HDR = '/-! Generated by `tools/gen.py` from the text of `/repo`; do not edit. -/\n\n'
# ---------------------------------------------------------------- GenTypes
o = ['import Verif.Model.Types\n\n' + HDR + 'namespace Ublox.Gen\n']
for n, at, vs, l0, l1 in enums:
    ff = 'none'
    if 'from' in at: ff = 'some .from'
    if 'from_unchecked' in at: ff = 'some .fromUnchecked'
    rr = 'none'
    if 'rest_reserved' in at: rr = 'some .reserved'
    if 'rest_error' in at: rr = 'some .errorProne'
    ir = 'true' if 'into_raw' in at else 'false'
    assert set(at) <= {'from', 'from_unchecked', 'rest_reserved', 'rest_error', 'into_raw'}, at
    o.append(f'/-- `ublox/src/ubx_packets/packets.rs:{l0}-{l1}` -/\ndef {lname(n)} : EnumDesc :=\n'
             f'  {{ name := "{n}", fromFn := {ff}, rest := {rr}, intoRaw := {ir},\n    variants := ['
             + ',\n      '.join(f'("{a}", {b})' for a, b in vs) + '] }\n')
for n, ty, at, cs, l0, l1 in flags:
    assert set(at) <= {'from', 'rest_reserved', 'into_raw'} and 'rest_reserved' in at, at
    o.append(f'/-- `ublox/src/ubx_packets/packets.rs:{l0}-{l1}` -/\ndef {lname(n)} : FlagsDesc :=\n'
             f'  {{ name := "{n}", nbits := {ty[1:]}, from_ := {"true" if "from" in at else "false"},'
             f' intoRaw := {"true" if "into_raw" in at else "false"},\n    consts := ['
             + ',\n      '.join(f'("{a}", {hex(b)})' for a, b in cs) + '] }\n')
o.append('/-- All enums declared with `#[ubx_extend]` in `ublox/src/ubx_packets/packets.rs`. -/\n'
         'def allEnums : List EnumDesc :=\n  [' + ',\n    '.join(lname(e[0]) for e in enums) + ']\n')
o.append('/-- All types declared with `#[ubx_extend_bitflags]` in `ublox/src/ubx_packets/packets.rs`. -/\n'
         'def allFlags : List FlagsDesc :=\n  [' + ',\n    '.join(lname(e[0]) for e in flags) + ']\n')
o.append('end Ublox.Gen\n')
open(os.path.join(OUT, 'GenTypes.lean'), 'w').write('\n'.join(o))

# ---------------------------------------------------------------- GenPackets
CONV = {'f32': '.f32', 'f64': '.f64', 'FixStatusInfo': '.fixStatusInfo', 'NavSatSvFlags': '.navSatSvFlags',
        'TimTpFlags': '.timTpFlags', 'TimTpRefInfo': '.timTpRefInfo', 'TimTm2Flags': '.timTm2Flags',
        'UartMode': '.uartMode', 'CfgItfmConfig': '.itfmConfig', 'CfgItfmConfig2': '.itfmConfig2',
        'Option<&str>': '.infStr', '&str': '.cstr', 'Option<u32>': '.calibTag', 'NavSatIter': '.iter .navSat',
        'MonVerExtensionIter': '.iter .monVerExt', 'EsfMeasDataIter': '.iter .esfMeas',
        'EsfRawDataIter': '.iter .esfRaw', 'RxmRawxInfoIter': '.iter .rxmRawx', 'DwrdIter': '.iter .dwrd',
        'ResetMode': '.resetMode', 'AlignmentToReferenceTime': '.alignment'}
# explicit conversion functions that the model of the type stands for
FROM = {'NavSatIter': 'NavSatIter::new', 'Option<&str>': 'inf::convert_to_str', 'TimTpFlags': 'TimTpFlags',
        'TimTpRefInfo': 'TimTpRefInfo', 'TimTm2Flags': 'TimTm2Flags', 'RxmRawxInfoIter': 'RxmRawxInfoIter::new',
        '&str': 'mon_ver::convert_to_str_unchecked', 'MonVerExtensionIter': 'MonVerExtensionIter::new',
        'EsfMeasDataIter': 'EsfMeasDataIter::new', 'Option<u32>': 'EsfMeas::calib_tag',
        'EsfRawDataIter': 'EsfRawDataIter::new', 'DwrdIter': 'DwrdIter::new'}
VALID = {'NavSatIter': 'NavSatIter::is_valid', 'Option<&str>': 'inf::is_valid',
         'RxmRawxInfoIter': 'RxmRawxInfoIter::is_valid', '&str': 'mon_ver::is_cstr_valid',
         'MonVerExtensionIter': 'MonVerExtensionIter::is_valid', 'EsfMeasDataIter': 'EsfMeasDataIter::is_valid',
         'EsfRawDataIter': 'EsfRawDataIter::is_valid', 'DwrdIter': 'DwrdIter::is_valid'}
SIZEFN = {'data_len': '.dataLen', 'calib_tag_len': '.calibTagLen'}


def raw_ty(s):
    if s in ('u8', 'i8', 'u16', 'i16', 'u32', 'i32', 'f32', 'f64'): return '.' + s
    m = re.match(r'^\[u8;\s*(\d+)\]$', s)
    if m: return '.tail' if m[1] == '0' else f'.bytes {m[1]}'
    assert s.startswith('&'), s
    return '.tail'


o = ['import Verif.Model.Pack\nimport Verif.Model.GenTypes\n\n' + HDR + 'namespace Ublox.Gen\n']
for kind, n, at, fields, l0, l1 in packs:
    d = {}
    for a in at:
        k, v = a.split('='); d[k.strip()] = v.strip()
    assert set(d) <= {'class', 'id', 'fixed_payload_len', 'max_payload_len', 'flags'}, d
    pl = f'.fixed {int(d["fixed_payload_len"], 0)}' if 'fixed_payload_len' in d else f'.max {int(d["max_payload_len"], 0)}'
    fs = []
    for fn, fty, fat, fl in fields:
        p = [f'name := "{fn}"', f'ty := {raw_ty(fty)}']
        mt = None
        for a in fat:
            if '=' not in a:
                if a == 'may_fail': p.append('mayFail := true')
                elif a == 'get_as_ref': p.append('getAsRef := true')
                else: assert 0, a
                continue
            k, v = [x.strip() for x in a.split('=', 1)]
            if k == 'map_type':
                mt = v
                c = f'.enum {lname(v)}' if v in enum_names else f'.flags {lname(v)}' if v in flag_names else CONV[v]
                p.append(f'map := some ({c})')
            elif k == 'scale':
                q = Fraction(v)
                p.append(f'scale := some (mkRat {q.numerator} {q.denominator})')
            elif k == 'alias': p.append(f'alias := some "{v}"')
            elif k == 'from': assert FROM[mt] == v, (mt, v)
            elif k == 'is_valid': assert VALID[mt] == v, (mt, v)
            elif k == 'size_fn': p.append(f'sizeFn := some {SIZEFN[v]}')
            else: assert 0, a
        if mt in FROM: assert any(a.split('=')[0].strip() == 'from' for a in fat), (n, fn)
        fs.append('{ ' + ', '.join(p) + ' }')
    k = {'recv': '.recv', 'send': '.send', 'recv_send': '.recvSend'}[kind]
    o.append(f'/-- `ublox/src/ubx_packets/packets.rs:{l0}-{l1}` -/\ndef {lname(n)} : PackDesc :=\n'
             f'  {{ name := "{n}", kind := {k}, cls := {hex(int(d["class"], 0))}, id := {hex(int(d["id"], 0))},'
             f' payloadLen := {pl}, defaultForBuilder := {"true" if "flags" in d else "false"},\n    fields := [\n      '
             + ',\n      '.join(fs) + '] }\n')
o.append('/-- All packet declarations of `ublox/src/ubx_packets/packets.rs`. -/\n'
         'def allPackets : List PackDesc :=\n  [' + ',\n    '.join(lname(p[1]) for p in packs) + ']\n')
o.append(f'/-- The argument of `define_recv_packets!`, `ublox/src/ubx_packets/packets.rs:{recv_lines[0]}-{recv_lines[1]}`. -/\n'
         'def recvPackets : List PackDesc :=\n  [' + ',\n    '.join(lname(p) for p in recv) + ']\n')
o.append('end Ublox.Gen\n')
open(os.path.join(OUT, 'GenPackets.lean'), 'w').write('\n'.join(o))

# ---------------------------------------------------------------- GenDecls
full = open(REPO + 'packets.rs').read()
assert len(full) == len(t)
KEY = {'ubx': 'ubx', 'doc': 'doc', 'repr': 'repr', 'class': 'class_', 'id': 'id',
       'fixed_payload_len': 'fixedPayloadLen', 'max_payload_len': 'maxPayloadLen', 'flags': 'flags',
       'default_for_builder': 'defaultForBuilder', 'map_type': 'mapType', 'scale': 'scale', 'alias': 'alias',
       'may_fail': 'mayFail', 'from': 'from_', 'is_valid': 'isValid', 'size_fn': 'sizeFn',
       'get_as_ref': 'getAsRef', 'into': 'into', 'into_raw': 'intoRaw', 'from_unchecked': 'fromUnchecked',
       'rest_reserved': 'restReserved', 'rest_error': 'restError', 'Option': 'option'}
for x in 'u8 i8 u16 i16 u32 i32 f32 f64'.split(): KEY[x] = x
KW = {'enum', 'struct', 'const', 'pub'}


def word(s): return '.' + KEY[s] if s in KEY else f'(.name "{s}")'


LEX = re.compile(r'\s+|(?P<id>(?!_\b)[A-Za-z_]\w*)|(?P<num>\d[\w.]*(?:(?<=[eE])[+-]\d+)?)|"(?P<str>[^"]*)"|(?P<p>.)', re.S)


def lit(s):
    s = s.replace('_', '')
    if re.match(r'^0[xb]', s) or re.match(r'^\d+$', s): return f'.int {int(s, 0)}'
    q = Fraction(s)
    return f'.float (mkRat {q.numerator} {q.denominator})'


def strtoks(s):
    out = []
    for m in LEX.finditer(s):
        if m['id']: out.append(f'.word {word(m["id"])}')
        elif m['p'] == ',': out.append('.comma')
        elif m[0].strip(): out.append('.other')
    return '.str [' + ', '.join(out) + ']'


def toks(s):
    """tokens of stripped text; attributes have been replaced by \x00"""
    out = []
    for m in LEX.finditer(s):
        if m['id']: out.append(f'.kw .{m["id"]}' if m['id'] in KW else f'.word {word(m["id"])}')
        elif m['num']: out.append(f'.lit ({lit(m["num"])})')
        elif m['str'] is not None: out.append(f'.lit ({strtoks(m["str"])})')
        elif m['p'] == '\x00': out.append('.attr')
        elif m['p']: out.append(f".punct '{m['p']}'")
    return '[' + ', '.join(out) + ']'


def attr(s):
    """an attribute without the brackets"""
    m = re.match(r'^(\w+)\s*\((.*)\)$', s, re.S)
    if m and m[1] in ('ubx', 'repr'): return f'⟨{word(m[1])}, .paren {toks(m[2])}⟩'
    m = re.match(r'^(\w+)$', s)
    if m: return f'⟨{word(m[1])}, .empty⟩'
    return f'⟨{word(re.match(r"^[a-z_]+", s)[0])}, .other⟩'


def raw_attrs(i):
    """attributes and doc comments from position i on; end position"""
    out = []
    while True:
        while full[i].isspace(): i += 1
        if full.startswith('///', i) and not full.startswith('////', i):
            out.append('doc'); i = full.index('\n', i)
        elif full.startswith('//', i): i = full.index('\n', i)
        elif full.startswith('/**', i): out.append('doc'); i = full.index('*/', i) + 2
        elif full.startswith('/*', i): i = full.index('*/', i) + 2
        elif full[i] == '#':
            j = match(t, i + 1, '[', ']'); out.append(attr(t[i + 2:j].strip())); i = j + 1
        else: return out, i


def item_start(p):
    """beginning of the attributes before position p (the beginning of a line)"""
    ls = full.rfind('\n', 0, p) + 1
    assert full[ls:p].strip() == ''
    while True:
        prev = full.rfind('\n', 0, ls - 1) + 1
        l = t[prev:ls].strip()
        if full[prev:ls].strip().startswith('///') or (l.startswith('#[') and l.endswith(']')): ls = prev
        else: return ls


def item_attrs(m):
    """attributes of an item without the one of the macro at m"""
    at, i = raw_attrs(item_start(m.start()))
    own = f'⟨(.name "{m[0][2:-1]}"), .empty⟩'
    assert at.count(own) == 1, (m[0], at)
    at.remove(own)
    return '[' + ', '.join(at) + ']', i


def ty(s):
    m = re.match(r'^\[(\w+);\s*(\w+)\]$', s)
    if m: return f'.array {ty2(m[1])} (.int {int(m[2])})'
    m = re.match(r"^&'a \[(\w+)\]$", s)
    if m: return f'.ref (.slice (.path [{word(m[1])}]))'
    assert s in KEY, s
    return f'.path [{word(s)}]'


def ty2(s): return '(' + ty(s) + ')'


o = ['import Verif.Model.Input\n\n' + HDR + 'namespace Ublox.Gen\nopen Syn\n',
     '/-- A line of documentation (`///`) as attribute; the text is left out. -/\n'
     'def doc : Attr := ⟨.doc, .eq (.str [.other])⟩\n']
pd = []; ed = []; fd = []
for m in re.finditer(r'#\[ubx_packet_(recv_send|recv|send)\]', t):
    at, i = item_attrs(m)
    sm = re.compile(r'(pub )?struct (\w+)\s*(<[^>]*>)?\s*\{').match(t, i)
    end = match(t, sm.end() - 1, '{', '}'); k = sm.end(); fs = []
    while True:
        while full[k].isspace() or full[k] == ',': k += 1
        fa, k = raw_attrs(k)
        if k >= end:
            assert not fa
            break
        fm = re.compile(r'(pub )?(\w+)\s*:\s*([^,]*?)\s*(?=,|\})').match(t, k)
        fs.append(f'⟨"{fm[2]}", [' + ', '.join(fa) + f'], {ty(fm[3])}⟩'); k = fm.end()
    kk = {'recv': '.recv', 'send': '.send', 'recv_send': '.recvSend'}[m[1]]
    pd.append(lname(sm[2]) + 'decl')
    o.append(f'/-- `ublox/src/ubx_packets/packets.rs:{line(m.start())}-{line(end)}` -/\ndef {pd[-1]} : StructDecl :=\n'
             f'  {{ kind := {kk}, name := "{sm[2]}",\n    attrs := {at},\n    fields := some [\n      '
             + ',\n      '.join(fs) + '] }\n')
for m in re.finditer(r'#\[ubx_extend\]', t):
    at, i = item_attrs(m)
    em = re.compile(r'(pub )?enum (\w+)\s*\{').match(t, i)
    end = match(t, em.end() - 1, '{', '}'); vs = []
    for v in split_top(re.sub(r'#\[[^\]]*\]', '', t[em.end():end])):
        vm = re.match(r'^(\w+)\s*=\s*(\w+)$', v)
        vs.append(f'⟨"{vm[1]}", true, some ({lit(vm[2])})⟩')
    ed.append(lname(em[2]) + 'decl')
    o.append(f'/-- `ublox/src/ubx_packets/packets.rs:{line(m.start())}-{line(end)}` -/\ndef {ed[-1]} : EnumDecl :=\n'
             f'  {{ name := "{em[2]}",\n    attrs := {at},\n    variants := [\n      '
             + ',\n      '.join(vs) + '] }\n')
for m in re.finditer(r'#\[ubx_extend_bitflags\]', t):
    at, i = item_attrs(m)
    bm = re.compile(r'bitflags!\s*\{').match(t, i)
    end = match(t, bm.end() - 1, '{', '}')
    body = ''.join(' \x00 ' if l.strip().startswith('///') else t[a:b] for l, a, b in
                   ((full[a:b], a, b) for a, b in
                    ((max(q.start(), bm.end()), min(q.end(), end)) for q in re.finditer(r'[^\n]*\n', full)
                     if q.start() < end and q.end() > bm.end())))
    while '#[' in body:
        a = body.index('#['); b = match(body, a + 1, '[', ']'); body = body[:a] + ' \x00 ' + body[b + 1:]
    n = re.search(r'struct\s+(\w+)', body)[1]
    fd.append(lname(n) + 'decl')
    o.append(f'/-- `ublox/src/ubx_packets/packets.rs:{line(m.start())}-{line(end)}` -/\ndef {fd[-1]} : FlagsDecl :=\n'
             f'  {{ attrs := {at},\n    tokens := ' + toks(body).replace(', .kw .const', ',\n      .kw .const') + ' }\n')
for n, T, l in (('packet', 'StructDecl', pd), ('enum', 'EnumDecl', ed), ('flags', 'FlagsDecl', fd)):
    o.append(f'/-- All {n} declarations of `ublox/src/ubx_packets/packets.rs`. -/\n'
             f'def {n}Decls : List {T} :=\n  [' + ',\n    '.join(l) + ']\n')
m = re.search(r'define_recv_packets!\s*\(', t)
end = match(t, m.end() - 1, '(', ')')
o.append(f'/-- The argument of `define_recv_packets!`, `ublox/src/ubx_packets/packets.rs:{line(m.start())}-{line(end)}`. -/\n'
         'def recvDecl : List Tok :=\n  ' + toks(t[m.end():end]).replace(", .word (.name", ",\n    .word (.name") + '\n')
o.append('end Ublox.Gen\n')
open(os.path.join(OUT, 'GenDecls.lean'), 'w').write('\n'.join(o))

# ---------------------------------------------------------------- GenCfgVal
src = open(REPO + 'cfg_val.rs').read().split('\n')
items = []; inside = False
for i, l in enumerate(src):
    l = re.sub(r'//.*', '', l).strip()
    if l == 'cfg_val! {': inside = True; first = i + 1; continue
    if inside and l == '}': last = i + 1; break
    if not inside or not l: continue
    m = re.match(r'^(\w+),\s*(0x[0-9a-fA-F_]+),\s*(\w+),$', l)
    items.append((m[1], m[2].lower(), m[3], i + 1))
TY = {'bool': '.bool', 'u8': '.u8', 'u16': '.u16', 'i16': '.i16', 'u32': '.u32', 'u64': '.u64',
      'CfgInfMask': '.cfgInfMask', 'DataBits': '.dataBits', 'Parity': '.parity', 'StopBits': '.stopBits',
      'AlignmentToReferenceTime': '.alignment', 'TpPulse': '.tpPulse', 'TpPulseLength': '.tpPulseLength'}
o = ['import Verif.Model.CfgVal\n\n' + HDR + 'namespace Ublox.Gen\n']
o.append(f'/-- The argument of `cfg_val!`, `ublox/src/ubx_packets/cfg_val.rs:{first}-{last}`; each item is\n'
         'cited by its line. -/\ndef cfgItems : List CfgItem := [')
for j, (n, k, ty, ln) in enumerate(items):
    c = ',' if j + 1 < len(items) else ' ]'
    o.append(f'  ⟨"{n}", {k}, {TY[ty]}⟩{c} -- {ln}')
o.append('\nend Ublox.Gen\n')
open(os.path.join(OUT, 'GenCfgVal.lean'), 'w').write('\n'.join(o))
print(len(enums), len(flags), len(packs), len(recv), len(items))

# ---------------------------------------------------------------- GenSource
def cut(lines, first, size, ends):
    """consecutive pieces of at least `size` characters that end behind a line for which `ends` holds"""
    out = []; cur = []; n = 0
    for i, l in enumerate(lines):
        cur.append(l); n += len(l) + 1
        if i + 1 == len(lines) or (n >= size and ends(i)):
            out.append((first + i + 1 - len(cur), first + i, cur)); cur = []; n = 0
    return out


lines = full.split('\n')
assert lines[-1] == '' and '"#' not in full
lines = lines[:-1]
pieces = cut(lines, 1, 1200, lambda i: lines[i] == '' and lines[i - 1].startswith('}'))
cfg_lines = src[first:last - 1]
cfg_pieces = cut(cfg_lines, first + 1, 1500, lambda i: cfg_lines[i].endswith(','))
o = ['/-! Generated by `tools/gen.py`: the text of declarations in `/repo`; do not edit. -/\n\nnamespace Ublox.Gen\n']
for f, n, ps in (('packets.rs', 'packetsRs', pieces), ('cfg_val.rs', 'cfgValRs', cfg_pieces)):
    for k, (a, b, ls) in enumerate(ps):
        o.append(f'/-- `ublox/src/ubx_packets/{f}:{a}-{b}` -/\ndef {n}{k} : String := r#"' + '\n'.join(ls) + '\n"#\n')
    what = 'the whole file' if f == 'packets.rs' else 'the argument of `cfg_val!`'
    o.append(f'/-- `ublox/src/ubx_packets/{f}:{ps[0][0]}-{ps[-1][1]}`, {what}, in pieces. -/\n'
             f'def {n} : List String :=\n  [' + ', '.join(f'{n}{k}' for k in range(len(ps))) + ']\n')
o.append('end Ublox.Gen\n')
open(os.path.join(OUT, 'GenSource.lean'), 'w').write('\n'.join(o))

where = ([(line(m.start()), f'.packet {lname(re.compile(r"struct (" + chr(92) + "w+)").search(t, m.end())[1])}decl')
          for m in re.finditer(r'#\[ubx_packet_(recv_send|recv|send)\]', t)]
         + [(line(m.start()), f'.enum {lname(re.compile(r"enum (" + chr(92) + "w+)").search(t, m.end())[1])}decl')
            for m in re.finditer(r'#\[ubx_extend\]', t)]
         + [(line(m.start()), f'.flags {lname(re.compile(r"struct (" + chr(92) + "w+)").search(t, m.end())[1])}decl')
            for m in re.finditer(r'#\[ubx_extend_bitflags\]', t)]
         + [(line(re.search(r'define_recv_packets!\s*\(', t).start()), '.recv recvDecl')])
where.sort()
head = ('import Verif.Lemmas.SourceText\nimport Verif.Model.GenDecls\nimport Verif.Model.GenCfgVal\nimport Verif.Model.GenSource\n\n'
        '/-! Generated by `tools/gen.py`: the declarations in each piece of the text; do not edit. -/\n\n'
        'namespace Ublox.Gen\nopen Src\n\nset_option maxRecDepth 100000\n')


def pieceThm(name, n, fn, val):
    return (f'theorem {name} : {fn} (codes {n}) = some {val} := by\n'
            f'  rw [codes_eq (s := {n}) (chars := charsOf% {n}) rfl]\n  decide +kernel\n')


def joined(name, n, fn, all_, vals, thms):
    val = ',\n    '.join(vals)
    return (f'theorem {name} : {fn} (codes (String.join {n})) = some (List.flatten [\n    {val}]) :=\n  {all_} <|\n    '
            + ' <|\n    '.join(f'.cons {t}' for t in thms) + ' .nil\n')


its = ['[' + ', '.join(w for l, w in where if a <= l <= b) + ']' for a, b, ls in pieces]
rws = []
j = 0
for a, b, ls in cfg_pieces:
    n = sum(a <= it[3] <= b for it in items)
    rws.append(f'((cfgItems.drop {j}).take {n})')
    j += n
assert j == len(items)
half = len(its) // 2
for part, body in (('1', [pieceThm(f'packetsRs{k}_items', f'packetsRs{k}', 'itemsOf', its[k]) for k in range(half)]),
                   ('2', [pieceThm(f'packetsRs{k}_items', f'packetsRs{k}', 'itemsOf', its[k]) for k in range(half, len(its))]),
                   ('3', [pieceThm(f'cfgValRs{k}_rows', f'cfgValRs{k}', 'rowsOf', rws[k]) for k in range(len(rws))])):
    open(os.path.join(OUT, '..', 'Lemmas', f'GenSource{part}.lean'), 'w').write('\n'.join([head] + body + ['end Ublox.Gen\n']))
o = ['import Verif.Lemmas.Source\nimport Verif.Lemmas.GenSource1\nimport Verif.Lemmas.GenSource2\nimport Verif.Lemmas.GenSource3\n\n'
     '/-! Generated by `tools/gen.py`: the declarations in the whole text; do not edit. -/\n\n'
     'namespace Ublox.Gen\nopen Src\n',
     joined('packetsRs_items', 'packetsRs', 'itemsOf', 'itemsOf_strings', its, [f'packetsRs{k}_items' for k in range(len(its))]),
     joined('cfgValRs_rows', 'cfgValRs', 'rowsOf', 'rowsOf_strings', rws, [f'cfgValRs{k}_rows' for k in range(len(rws))]),
     'end Ublox.Gen\n']
open(os.path.join(OUT, '..', 'Lemmas', 'GenSource.lean'), 'w').write('\n'.join(o))
