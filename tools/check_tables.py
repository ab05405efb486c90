#!/usr/bin/env python3
"""Compare the generated Lean tables with the Go tables, entry by entry and in order.
Independent of gen_tables.py: every hexadecimal number of each file, in order."""
import re, pathlib, sys
root = pathlib.Path(__file__).resolve().parent.parent / "lean/Verif"
repo = pathlib.Path("/repo")
bad = 0
for go, lean in [("hanja/table.go", "Hanja/Table.lean"),
                 ("encoding/cp949/lookup_from.go", "Cp949/LookupFrom.lean"),
                 ("encoding/cp949/lookup_to.go", "Cp949/LookupTo.lean")]:
    a = [int(x, 16) for x in re.findall(r"0x[0-9a-fA-F]+", (repo / go).read_text())]
    b = [int(x, 16) for x in re.findall(r"0x[0-9a-fA-F]+", (root / lean).read_text())]
    text = (root / lean).read_text()
    defs = re.findall(r"^def (\w+?)(\d+) :", text, re.M)
    listed = re.findall(r"(raw\w+?)(\d+)[,\]]", text[text.rindex("List.flatten"):])
    ok = a == b and defs == listed
    print(go, len(a) // 2, "entries", "identical" if ok else "DIFFERENT")
    bad |= not ok
# the CP949 tables against Python's own codec: every two-byte code it knows, and no other
want = {}
for hi in range(0x81, 0xff):
    for lo in range(0x41, 0xff):
        try:
            u = bytes([hi, lo]).decode("cp949")
        except UnicodeDecodeError:
            continue
        if len(u) == 1:
            want[hi << 8 | lo] = ord(u)
for go in ["encoding/cp949/lookup_from.go", "encoding/cp949/lookup_to.go"]:
    items = re.findall(r"lookupItem\{(.*?)\}", (repo / go).read_text())
    get = lambda field, item: int(re.search(field + r": *0x([0-9a-fA-F]+)", item)[1], 16)
    have = {get("cp949", i): get("ucs2", i) for i in items}
    same = have == want and len(items) == len(have)
    print(go, len(items), "entries", "same as Python's codec" if same else
          f"differ from Python's codec: {len(set(have.items()) ^ set(want.items()))} pairs")
    bad |= not same
import subprocess
codes = sorted(want)
text = subprocess.run(["iconv", "-f", "CP949", "-t", "UTF-8"], input=b"".join(c.to_bytes(2, "big") for c in codes),
                      capture_output=True).stdout.decode()
same = [ord(c) for c in text] == [want[c] for c in codes]
print("iconv", len(text), "characters", "same as Python's codec" if same else "DIFFERENT")
bad |= not same
sys.exit(bad)
