#!/usr/bin/env python3
"""Write lean/Verif/Spec/Unicode.lean from Python's Unicode data, and the list of constant.go in
lean/Verif/Hangul/ConstNames.lean from /repo."""
import re, sys, pathlib, unicodedata as u
repo = sys.argv[1] if len(sys.argv) > 1 else "/repo"
root = pathlib.Path(__file__).resolve().parent.parent / "lean/Verif"

def names(prefix, lo, hi):
    out = []
    for x in range(lo, hi + 1):
        n = u.name(chr(x))
        assert n.startswith(prefix)
        out.append(f'(0x{x:04X}, "{n[len(prefix):]}")')
    return out

def block(items, per):
    return ",\n   ".join(", ".join(items[i:i + per]) for i in range(0, len(items), per))

comp = []
for x in range(0xF900, 0xFB00):
    d = u.decomposition(chr(x))
    if d:
        assert re.fullmatch("[0-9A-F]{4,5}", d), d
        comp.append(f"(0x{x:04X}, 0x{d})")
single = []
for x in range(0x10000):
    d = u.decomposition(chr(x))
    if d and " " not in d and "<" not in d and not 0xF900 <= x <= 0xFAFF:
        d = u.normalize("NFC", chr(x))
        assert len(d) == 1
        single.append(f"(0x{x:04X}, 0x{ord(d):04X})")
# On the characters of CP949, normalisation works character by character and by these two lists alone.
both = {int(a, 16): int(b, 16) for a, b in (e[1:-1].split(", ") for e in comp + single)}
second = {int(d.split()[1], 16) for x in range(0x110000)
          if " " in (d := u.decomposition(chr(x))) and "<" not in d}
for hi in range(0x80, 0x100):
    for lo in range(0x100):
        try:
            c = bytes([hi, lo]).decode("cp949")
        except UnicodeDecodeError:
            continue
        for c in c:
            assert u.normalize("NFC", c) == chr(both.get(ord(c), ord(c)))
            assert ord(c) not in second and u.combining(c) == 0 and not 0x1100 <= ord(c) < 0x1200
o = f"""/-!
Unicode character names and decompositions, generated by `tools/gen_unicode.py` from the Unicode Character Database
{u.unidata_version} as it comes with Python; nothing here is taken from /repo.
-/
namespace Spec

/-- U+3131..U+3163, without the prefix `HANGUL LETTER`. -/
def letterNames : List (Nat × String) :=
  [{block(names("HANGUL LETTER ", 0x3131, 0x3163), 4)}]

/-- U+1100..U+1112, without the prefix `HANGUL CHOSEONG`. -/
def choseongNames : List (Nat × String) :=
  [{block(names("HANGUL CHOSEONG ", 0x1100, 0x1112), 4)}]

/-- U+1161..U+1175, without the prefix `HANGUL JUNGSEONG`. -/
def jungseongNames : List (Nat × String) :=
  [{block(names("HANGUL JUNGSEONG ", 0x1161, 0x1175), 4)}]

/-- U+11A8..U+11C2, without the prefix `HANGUL JONGSEONG`. -/
def jongseongNames : List (Nat × String) :=
  [{block(names("HANGUL JONGSEONG ", 0x11A8, 0x11C2), 4)}]

/-- The canonical decompositions of the block U+F900..U+FAFF, CJK Compatibility Ideographs. -/
def ideographs : List (Nat × Nat) :=
  [{block(comp, 6)}]

/-- The other characters of the Basic Multilingual Plane whose canonical decomposition is a single character, with their
normal form (NFC). -/
def singletons : List (Nat × Nat) :=
  [{block(single, 6)}]

end Spec
"""
(root / "Spec/Unicode.lean").write_text(o)

groups = {"LETTER": [], "CHOSEONG": [], "JUNGSEONG": [], "JONGSEONG": []}
for i, line in enumerate(pathlib.Path(repo, "constant.go").read_text().splitlines(), 1):
    if m := re.match(r"\t([A-Z]\w*)\s+// HANGUL (\w+) ([A-Z-]+)", line):
        groups[m[2]].append((i, m[1], m[3]))
o = """import Verif.Hangul.Const
/-! The exported constants with the character names their comments give; generated by `tools/gen_unicode.py`. -/
namespace Hangul
open Go

"""
for g, l in groups.items():
    o += f"""/-- constant.go:{l[0][0]}-{l[-1][0]}, the constants with a comment `HANGUL {g}`. -/
def names{g.capitalize()} : List (Rune × String) :=
  [{block([f'({n}, "{c}")' for _, n, c in l], 6)}]

"""
o += "end Hangul\n"
(root / "Hangul/ConstNames.lean").write_text(o)
print({g: len(l) for g, l in groups.items()}, len(comp))
