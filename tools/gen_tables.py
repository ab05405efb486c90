#!/usr/bin/env python3
"""Generate the Lean copies of the three lookup tables of /repo, in source order.

    hanja/table.go                  -> Verif/Hanja/Table.lean
    encoding/cp949/lookup_from.go   -> Verif/Cp949/LookupFrom.lean
    encoding/cp949/lookup_to.go     -> Verif/Cp949/LookupTo.lean
"""
import re, pathlib
out = pathlib.Path(__file__).resolve().parent.parent / "lean/Verif"
repo = pathlib.Path("/repo")
CH = 256

def entries(path, rx):
    res = []
    for no, line in enumerate((repo / path).read_text().splitlines(), 1):
        if "0x" in line:
            m = re.fullmatch(rx, line)
            assert m, (path, no, line)
            res.append((no, int(m[1], 16), int(m[2], 16)))
    return res

def emit(mod, path, ns, name, doc, rx, w):
    es = entries(path, rx)
    o = ["-- Generated by tools/gen_tables.py; do not edit.", f"namespace {ns}", ""]
    n = 0
    for i in range(0, len(es), CH):
        c = es[i:i + CH]
        o.append(f"/-- {path}:{c[0][0]}-{c[-1][0]} -/")
        o.append(f"def {name}{n} : List (Nat × Nat) := [")
        row = [f"({a:#0{w}x}, {b:#0{w}x})" for _, a, b in c]
        for j in range(0, len(row), 5):
            o.append("  " + ", ".join(row[j:j + 5]) + ("," if j + 5 < len(row) else "]"))
        o.append("")
        n += 1
    o.append(f"/-- {doc} -/")
    o.append(f"def {name} : List (Nat × Nat) := List.flatten [")
    names = [f"{name}{k}" for k in range(n)]
    for j in range(0, n, 8):
        o.append("  " + ", ".join(names[j:j + 8]) + ("," if j + 8 < n else "]"))
    o += ["", f"end {ns}", ""]
    (out / mod).parent.mkdir(exist_ok=True)
    (out / mod).write_text("\n".join(o))
    print(mod, len(es))

emit("Hanja/Table.lean", "hanja/table.go", "Hanja", "rawTable",
     "hanja/table.go:8-27505, the literal `table`: (key, value) pairs in source order.",
     r"\t\t0x([0-9a-f]{4}): 0x([0-9a-f]{4}),", 6)
emit("Cp949/LookupFrom.lean", "encoding/cp949/lookup_from.go", "Cp949", "rawFrom",
     "encoding/cp949/lookup_from.go:8-17057, the literal `fromTable`: (cp949, ucs2) in source order.",
     r"\t\tlookupItem\{cp949: 0x([0-9a-f]{4}), ucs2: 0x([0-9a-f]{4})\},", 6)
emit("Cp949/LookupTo.lean", "encoding/cp949/lookup_to.go", "Cp949", "rawTo",
     "encoding/cp949/lookup_to.go:8-17057, the literal `toTable`: (ucs2, cp949) in source order.",
     r"\t\tlookupItem\{ucs2: 0x([0-9a-f]{4}), cp949: 0x([0-9a-f]{4})\},", 6)
