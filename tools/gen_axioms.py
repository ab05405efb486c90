#!/usr/bin/env python3
"""Write AXIOMS.tsv: for every theorem in MANIFEST.json the axioms it depends on, as Lean's `#print axioms` reports them.
Needs a finished `lake build`."""
import json, re, subprocess, pathlib, tempfile, collections
root = pathlib.Path(__file__).resolve().parent.parent
names = [t for c in json.loads((root / "MANIFEST.json").read_text())["claims"] for t in c["theorems"]]
with tempfile.NamedTemporaryFile("w", suffix=".lean") as f:
    f.write("import Verif\n" + "".join(f"#print axioms {n}\n" for n in names))
    f.flush()
    out = subprocess.run(["lake", "env", "lean", f.name], cwd=root / "lean", capture_output=True, text=True)
    if out.returncode != 0:
        raise SystemExit(out.stdout + out.stderr)
    out = out.stdout
out = re.sub(r"\s+", " ", out)
rows = []
for n in names:
    m = re.search(r"'" + re.escape(n) + r"' (does not depend on any axioms|depends on axioms: \[(.*?)\])", out)
    rows.append((n, m[2] or "none"))
(root / "AXIOMS.tsv").write_text("".join(f"{a}\t{b}\n" for a, b in rows))
print(collections.Counter(b for _, b in rows))
