"""Writes the text and the rules of the macros in ublox/src/ubx_packets/cfg_val.rs, as read by
Verif.Model.Macro, into lean/Verif/Model/GenMacro.lean, and the proofs that the tokens are those of the text
into lean/Verif/Lemmas/GenMacro.lean; the names of the items into lean/Verif/Lemmas/GenCfgNames.lean.
Usage: genmacro.py (needs `lake build Verif.Model.Macro` and `lake env lean`)."""
import os, re, subprocess, tempfile

here = os.path.dirname(os.path.abspath(__file__))
LEAN = os.path.join(here, '..', 'lean')
PATH = 'ublox/src/ubx_packets/cfg_val.rs'
LINES = open('/repo/' + PATH).read().split('\n')
FIRST, LAST = 50, 301
TABLE, END = 302, 1113

PRINT = '''import Verif.Model.Macro
open Ublox Code
def main : IO Unit := do
  let s ← IO.FS.readFile "FILE"
  let some l := Src.lex (s.toList.map Char.toNat) | throw (.userError "lex")
  let some ts := tokens l | throw (.userError "tokens")
  let some its := cut 0 [] ts | throw (.userError "cut")
  let some (ms, []) := Macro.expandItems [] its | throw (.userError "items")
  for m in ms.reverse do
    IO.println s!"@@M {String.ofList (m.name.map Char.ofNat)}"
    for r in m.rules do
      IO.println "@@R"
      for l in [r.takes, r.makes] do
        IO.println "@@L"
        for t in l do
          match t with
          | .kw k => IO.println s!".kw .{((repr k).pretty.splitOn ".").getLast!}"
          | .id cs => IO.println s!".id c!\\"{String.ofList (cs.map Char.ofNat)}\\""
          | .num n => IO.println s!".num {n}"
          | .str cs => IO.println s!".str c!\\"{String.ofList (cs.map Char.ofNat)}\\""
          | .p c => IO.println s!".p {c}"
          | _ => throw (.userError "token")
#eval main
'''
text = '\n'.join(LINES[FIRST - 1:LAST]) + '\n'
with tempfile.TemporaryDirectory() as d:
    open(d + '/a.rs', 'w').write(text)
    open(d + '/a.lean', 'w').write(PRINT.replace('FILE', d + '/a.rs'))
    r = subprocess.run(['lake', 'env', 'lean', d + '/a.lean'], cwd=LEAN, capture_output=True, text=True)
assert r.returncode == 0, r.stdout[-3000:] + r.stderr
macros = []
for p in r.stdout.split('@@M ')[1:]:
    name, *rules = p.split('@@R\n')
    macros.append((name.strip(), [[l.strip().split('\n') for l in q.split('@@L\n')[1:]] for q in rules]))


def listing(ts, indent='  '):
    out = ''; line = indent + '['
    for i, t in enumerate(ts):
        w = t + (', ' if i + 1 < len(ts) else ']')
        if len(line) + len(w) > 110:
            out += line.rstrip() + '\n'; line = indent + ' '
        line += w
    return out + (line if ts else indent + '[]')


def camel(n):
    return re.sub(r'_(\w)', lambda m: m[1].upper(), n)


def segments(ts):
    """literal parts and bodies of the repetitions `$(..)*`, alternating"""
    out = [[]]; i = 0
    while i < len(ts):
        if ts[i] == '.p 36' and ts[i + 1] == '.p 40':
            d = 1; j = i + 2
            while True:
                d += {'.p 40': 1, '.p 91': 1, '.p 123': 1, '.p 41': -1, '.p 93': -1, '.p 125': -1}.get(ts[j], 0)
                if d == 0:
                    break
                j += 1
            assert ts[j + 1] == '.p 42'
            out += [ts[i + 2:j], []]
            i = j + 2
        else:
            out[-1].append(ts[i]); i += 1
    return out


o = ['''import Verif.Model.Macro
import Verif.Model.GenSource
import Verif.Model.GenText

/-! Generated by `tools/genmacro.py`: the text and the rules of the macros of `/repo`; do not edit. -/

namespace Ublox.Gen

open Macro
''']
starts = [i + 1 for i, l in enumerate(LINES) if l.startswith('macro_rules!')] + [LAST + 1]
assert starts[0] == FIRST + 1; starts[0] = FIRST
texts = []
for k, (a, b) in enumerate(zip(starts, starts[1:])):
    t = '\n'.join(LINES[a - 1:b - 1]) + '\n'
    o.append(f'/-- `{PATH}:{a}-{b - 1}` -/\ndef macrosRs{k} : String := r#"{t}"#\n')
    texts.append(f'macrosRs{k}')
o.append(f'/-- `{PATH}:{TABLE}` -/\ndef cfgCallRs : String := "{LINES[TABLE - 1]}\\n"\n')
o.append(f'/-- `{PATH}:{END}` -/\ndef cfgEndRs : String := "{LINES[END - 1]}\\n"\n')
o.append(f'/-- `{PATH}:{END + 1}-{len(LINES) - 1}` -/\ndef cfgTailRs : String := r#"' + '\n'.join(LINES[END:]) + '"#\n')
o.append(f'/-- `{PATH}:1-{len(LINES) - 1}`, in pieces. -/\ndef cfgFileRs : List String :=\n'
         f'  cfgHeadRs ++ [{", ".join(texts)}, cfgCallRs, String.join cfgValRs, cfgEndRs, cfgTailRs]\n')
for k, (name, rules) in enumerate(macros):
    n = camel(name); names = []
    for j, (takes, makes) in enumerate(rules):
        where = f'`{PATH}:{starts[k]}-{starts[k + 1] - 1}`'
        if name == 'cfg_val':
            segs = segments(makes)
            parts = []
            for i, s in enumerate(segs):
                what = 'part' if i % 2 == 0 else 'rep'
                o.append(f'/-- {where}, part of what the rule makes -/\ndef {n}_{what}{i // 2} : List Code.Tk :=\n{listing(s)}\n')
                parts.append(f'{n}_part{i // 2}' if i % 2 == 0 else f'repetition {n}_rep{i // 2}')
            body = '    ' + ' ++\n    '.join(parts)
            o.append(f'/-- {where} -/\ndef {n}{j} : Rule where\n  takes :=\n{listing(takes, "    ")}\n  makes :=\n{body}\n')
        else:
            o.append(f'/-- {where}, rule {j + 1} -/\ndef {n}{j} : Rule where\n  takes :=\n{listing(takes, "    ")}\n'
                     f'  makes :=\n{listing(makes, "    ")}\n')
        names.append(f'{n}{j}')
    o.append(f'/-- `{PATH}:{starts[k]}-{starts[k + 1] - 1}` -/\ndef {n}_macro : Macro := ⟨c!"{name}", [{", ".join(names)}]⟩\n')
o.append('end Ublox.Gen\n')
open(os.path.join(LEAN, 'Verif/Model/GenMacro.lean'), 'w').write('\n'.join(o))

o = ['''import Verif.Lemmas.MacroText
import Verif.Model.GenCfgVal
import Verif.Model.GenCode2
import Verif.Model.GenText
import Verif.Model.GenSource

/-! Generated by `tools/genmacro.py`: the macros and the rows in each piece of the text; do not edit. -/

namespace Ublox.Gen

open Src Code Macro

set_option maxRecDepth 100000
''']


def piece(name, statement):
    o.append(f'theorem {statement} := by\n  rw [codes_eq (s := {name}) (chars := charsOf% {name}) rfl]\n  kernel_rfl\n')


piece('cfgHeadRs0', 'cfgHeadRs0_stage : stage [] (codes cfgHeadRs0) = some ([], cfgHeadRs_code, cfgHeadRs_decls)')
known = ''
for k, (name, rules) in enumerate(macros):
    now = f'{camel(name)}_macro' + (', ' if known else '') + known
    piece(f'macrosRs{k}', f'macrosRs{k}_stage : stage [{known}] (codes macrosRs{k}) = some ([{now}], [], [])')
    known = now
piece('cfgCallRs', 'cfgCallRs_tokens : tokensIn (codes cfgCallRs) = some [.id c!"cfg_val", .p 33, .p 123]')
piece('cfgEndRs', 'cfgEndRs_tokens : tokensIn (codes cfgEndRs) = some [.p 125]')
piece('cfgTailRs', f'cfgTailRs_stage : stage [{known}] (codes cfgTailRs) =\n    some ([{known}], [], [tpPulseDecl, tpPulseLengthDecl])')
ranges = re.findall(r'cfgValRs(\d+)_rows : .*drop (\d+)\).take (\d+)', open(os.path.join(LEAN, 'Verif/Lemmas/GenSource3.lean')).read())
for k, a, b in ranges:
    piece(f'cfgValRs{k}', f'cfgValRs{k}_tokens : tokensIn (codes cfgValRs{k}) =\n    some (((cfgItems.drop {a}).take {b}).flatMap fun i => (rowOf i).tokens)')
o.append('theorem cfgValRs_tokens : tokensIn (codes (String.join cfgValRs)) = some (cfgItems.flatMap fun i => (rowOf i).tokens) := by')
o.append('  have h := tokensIn_strings (ss := cfgValRs) (ls := [' + ', '.join(f'(cfgItems.drop {a}).take {b}' for k, a, b in ranges) + '])')
o.append('    (' + ' <|\n    '.join(f'.cons cfgValRs{k}_tokens' for k, a, b in ranges) + ' .nil)')
o.append('  have : List.flatten [' + ', '.join(f'(cfgItems.drop {a}).take {b}' for k, a, b in ranges) + '] = cfgItems := by kernel_rfl')
o.append('  rw [h, this]\n')
o.append('''/-- `cfg_val.rs` as a whole -/
theorem cfgFileRs_program : Macro.programOf (codes (String.join cfgFileRs)) =
    some (cfgHeadRs_code ++ cfgValImpl (cfgItems.map rowOf) :: (cfgItems.map rowOf).map Row.impl,
      cfgHeadRs_decls ++ cfgValDecl (cfgItems.map rowOf) :: (cfgItems.map rowOf).map Row.decl ++
        [tpPulseDecl, tpPulseLengthDecl]) := by
  have h := stage_append cfgHeadRs0_stage (stage_append macrosRs0_stage (stage_append macrosRs1_stage
    (stage_append macrosRs2_stage (stage_append (stage_call (rows := cfgItems.map rowOf) cfgCallRs_tokens
      (by rw [cfgValRs_tokens, List.flatMap_map]) cfgEndRs_tokens) cfgTailRs_stage))))
  rw [programOf_eq, codes_join]
  have e : cfgFileRs.flatMap codes = codes cfgHeadRs0 ++ (codes macrosRs0 ++ (codes macrosRs1 ++ (codes macrosRs2 ++
      ((codes cfgCallRs ++ (codes (String.join cfgValRs) ++ codes cfgEndRs)) ++ codes cfgTailRs)))) := by
    simp only [cfgFileRs, cfgHeadRs, List.cons_append, List.nil_append, List.flatMap_cons, List.flatMap_nil,
      List.append_nil, List.append_assoc]
  rw [e, h]
  simp only [Option.map_some, List.nil_append, List.append_nil, List.append_assoc, List.cons_append]
''')
o.append('end Ublox.Gen\n')
open(os.path.join(LEAN, 'Verif/Lemmas/GenMacro.lean'), 'w').write('\n'.join(o))

names = re.findall(r'⟨"(\w+)", 0x', open(os.path.join(LEAN, 'Verif/Model/GenCfgVal.lean')).read())
o = ['import Verif.Lemmas.WholeItems\n', '/-! Generated by `tools/genmacro.py` from the text of `/repo`; do not edit. -/\n',
     'namespace Ublox.Exec\n', 'open Macro Gen\n', 'set_option maxRecDepth 100000\n',
     '/-- The names of the items, `ublox/src/ubx_packets/cfg_val.rs:302-1113` -/', 'def cfgNames : List Code.Name := [']
for i in range(0, len(names), 3):
    o.append('  ' + ', '.join('i!"%s"' % n for n in names[i:i + 3]) + (',' if i + 3 < len(names) else ']'))
o.append('''
theorem cfgNames_eq : cfgItems.map (fun i => (rowOf i).name) = cfgNames := by kernel_rfl

theorem cfgNames_nodup : nodupB cfgNames = true := by decide +kernel

theorem cfgNames_fresh : (cfgNames.all fun n => (reserved.all fun m => !Nat.beq m n) && isCtor n) = true := by
  decide +kernel

end Ublox.Exec
''')
open(os.path.join(LEAN, 'Verif/Lemmas/GenCfgNames.lean'), 'w').write('\n'.join(o))
