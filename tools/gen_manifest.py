#!/usr/bin/env python3
"""Write MANIFEST.json from the theorems named Cnn_* in lean/Verif/Props."""
import json, re, pathlib, collections
root = pathlib.Path(__file__).resolve().parent.parent
notes = json.loads((root / "tools" / "notes.json").read_text())
th = collections.OrderedDict()
for f in sorted((root / "lean/Verif/Props").rglob("*.lean")):
    ns = []
    for line in f.read_text().splitlines():
        if m := re.match(r"namespace (\S+)", line):
            ns.append(m[1])
        elif ns and line.rstrip() == "end " + ns[-1]:
            ns.pop()
        elif m := re.match(r"theorem ((C\d\d\d?)_\S*)", line):
            th.setdefault(m[2], []).append(".".join(ns + [m[1]]))
claims = []
for line in (root / "properties.jsonl").read_text().splitlines():
    pid = json.loads(line)["id"]
    names = th.get(pid, [])
    part = any(n.endswith(("_partial", "_fails")) for n in names)
    status = "partial" if part or not names else "proved"
    if names:
        claims.append({"property": pid, "status": status, "theorems": names, "note": notes.get(pid, "")})
    else:
        claims.append({"property": pid, "status": "partial", "theorems": [], "note": notes.get(pid, "not proved yet")})
(root / "MANIFEST.json").write_text(json.dumps({"claims": claims}, indent=1, ensure_ascii=False) + "\n")
print({c["property"]: (c["status"], len(c["theorems"])) for c in claims})
