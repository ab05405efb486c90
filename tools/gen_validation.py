#!/usr/bin/env python3
"""Writes lean/Verif/Validation.lean: the repository's own unit tests, run on the model."""
import re, pathlib, codecs
root = pathlib.Path(__file__).resolve().parent.parent
repo = pathlib.Path('/repo')

def b(s):
    bs = s if isinstance(s, bytes) else s.encode('utf-8')
    return '[' + ', '.join(str(x) for x in bs) + ']'

def line(f, text):
    for i, l in enumerate((repo / f).read_text(encoding='utf-8').split('\n'), 1):
        if text in l:
            return i
    raise SystemExit('not found: ' + text)

def go_unquote(s):
    """An interpreted Go string literal, as bytes."""
    out = b''
    i = 0
    while i < len(s):
        if s[i] == '\\':
            if s[i + 1] == 'x':
                out += bytes([int(s[i + 2:i + 4], 16)]); i += 4
            else:
                out += {'n': b'\n'}[s[i + 1]]; i += 2
        else:
            out += s[i].encode('utf-8'); i += 1
    return out

o = ['import Verif.Hangul.Stroke', 'import Verif.Hangul.Hangul', 'import Verif.Hanja.Hanja', 'import Verif.Env.Transform',
     '/-!',
     "The unit tests of the repository, run on the model. They prove nothing about all inputs; they check that the model",
     'computes what the authors saw the code compute. Those that search a large table are run by the interpreter (`#guard`). Generated by tools/gen_validation.py from the test files.',
     '-/', 'namespace Validation', 'open Go', '', 'section Hangul', 'open Hangul', '']

def ex(f, text, stmt, table=False):
    o.append(f'/- {f}:{line(f, text)} -/')
    o.append(f'#guard {stmt}' if table else f'example : {stmt} := by decide +kernel')

H = 'hangul_test.go'
t = (repo / H).read_text(encoding='utf-8')
ex(H, 'leadIdx(Lead(T))', 'leadIdx (Lead T) = some 16')
for c, n in zip('세상아 안녕', re.search(r'ss = \[\]int\{(.*?)\}', t)[1].split(', ')):
    ex(H, 'for _, c := range "세상아', f'Stroke {ord(c)} = {n}')
for c, n in re.findall(r'Stroke\((\w+)\); c != (\d+)', t):
    ex(H, f'Stroke({c})', f'Stroke {c} = {n}')
for l, m, f, r in re.findall(r'c := Join\((\w+), (\w+), (\w+)\); c != (0x\w+)', t):
    ex(H, f'Join({l}, {m}, {f})', f'Join {l} {m} {f} = {r}')
for c, (l, m, f) in zip('자모한글안녕', re.findall(r'\{(\w+), (\w+), (\w+)\},\s+// .', t)):
    ex(H, 'range "자모한글안녕"', f'SplitCompat {ord(c)} = ({l}, {m}, {f})')
ex(H, 'SplitMultiElement(GG)', 'SplitMultiElement GG = some [G, G]')
ex(H, 'SplitMultiElement(G);', 'SplitMultiElement G = none')
for j, c in re.findall(r'c := CompatJamo\((\w+)\); c != (\w+)', t):
    ex(H, f'CompatJamo({j})', f'CompatJamo {j} = {c}')
for j, c in re.findall(r'if (\w+) != (0x\w+)', t):
    ex(H, f'if {j} != ', f'{j} = {c}')
for w, r in re.findall(r'\{"(.*)", (true|false)\}', t):
    ex(H, f'{{"{w}", {r}}}', f'EndsWithConsonant {b(w)} = {r}')
for w, r in re.findall(r'\{"(.*)", (0|Tail\w+)\}', t):
    ex(H, f'{{"{w}", {r}}}', f'LastConsonant {b(w)} = {r}')
for w, x, y, r in re.findall(r'\{"(.*)", "(.*)", "(.*)", "(.*)"\}', t):
    ex(H, f'{{"{w}", "{x}", "{y}", "{r}"}}', f'AppendPostposition {b(w)} {b(x)} {b(y)} = {b(r)}')
E_ = 'example_test.go'
t = (repo / E_).read_text(encoding='utf-8')
calls = re.findall(r'AppendPostposition\("(.*)", "(.*)", "(.*)"\)', t)
outs = re.findall(r'^\t// (?!Output)(.*)$', t, re.M)
for (w, x, y), r in zip(calls, outs):
    ex(E_, f'("{w}", "{x}", "{y}")', f'AppendPostposition {b(w)} {b(x)} {b(y)} = {b(r)}')
for w, r in zip(re.findall(r'LastConsonant\("(.*)"\)', t), outs[len(calls):]):
    ex(E_, f'LastConsonant("{w}")', f'LastConsonant {b(w)} = {r}')
o += ['', 'end Hangul', '', 'section Hanja', 'open Hanja', '']
J = 'hanja/hanja_test.go'
t = (repo / J).read_text(encoding='utf-8')
ex(J, 'if Convert(hanja)', f'Convert {b(re.search(chr(34).join(["hanja := ", "(.*)", ""]), t)[1])} = {b(re.search(chr(34).join(["hangul := ", "(.*)", ""]), t)[1])}', True)
o += ['', 'end Hanja', '', 'section Cp949', 'open Cp949', '']
C = 'encoding/cp949/cp949_test.go'
t = (repo / C).read_text(encoding='utf-8')
cases = re.findall(r'cp949: "(.*)",\s+utf8:\s+(?:"(.*)"|`([^`]*)`),', t)
for c, u1, u2 in cases[:4]:
    u = u1 or u2
    for lhs in (f'From {b(go_unquote(c))} = ({b(u)}, none)', f'To {b(u)} = ({b(go_unquote(c))}, none)'):
        ex(C, c[:12], lhs, True)
ex(C, 'cp949: "\\xa8",', 'From [168] = ([], some .unexpectedStream)', True)
o += ['',
'/-- A `bytes.Buffer` as a source. -/',
'def buffer : Source Str := fun s k => if s = [] then ([], some .eof, []) else (s.take k, none, s.drop k)', '',
'/-- A `bytes.Buffer` as a sink. -/',
'def append : Sink Str := fun s bs => (bs.length, none, s ++ bs)', '',
'/-- `io.ReadAll` on the x/text Reader, with buffers of 512 bytes. -/',
'def readAll : (fuel : Nat) → XText.Reader Str → Str → Option (Str × Option Err)',
'  | 0, _, _ => none',
'  | fuel + 1, r, got =>',
'    match r.read decoderTransform buffer 100 (List.replicate 512 0) with',
'    | .ret (n, err, p, r) =>',
'      match err with',
'      | none => readAll fuel r (got ++ p.take n)',
'      | some .eof => some (got ++ p.take n, none)',
'      | some e => some (got ++ p.take n, some e)',
'    | _ => none', '',
'/-- One `Write` on the x/text Writer: what the sink has got, and the results. -/',
'def writeOnce (s : Str) : Option (Str × Nat × Option Err) :=',
'  match (XText.NewWriter ([] : Str)).write encoderTransform append 100 s with',
'  | .ret (n, err, w) => some (w.sink, n, err)',
'  | _ => none', '']
F = 'encoding/cp949/encoding_test.go'
for c, u1, u2 in cases[:4]:
    u = u1 or u2
    ex(F, 'NewDecoder().Reader', f'readAll 100 (XText.NewReader {b(go_unquote(c))}) [] = some ({b(u)}, none)', True)
    ex(F, 'NewEncoder().Writer', f'writeOnce {b(u)} = some ({b(go_unquote(c))}, {len(u.encode())}, none)', True)
o += ['', 'end Cp949', '', 'end Validation', '']
(root / 'lean/Verif/Validation.lean').write_text('\n'.join(o), encoding='utf-8')
