#!/usr/bin/env python3
"""Write lean/Verif/Spec/Cp949Chart.lean: the code chart of CP949 as Python's own codec has it.
Does not read /repo. (glibc's iconv has the same 17048 pairs: tools/check_tables.py.)"""
import pathlib
out = pathlib.Path(__file__).resolve().parent.parent / "lean/Verif/Spec/Cp949Chart.lean"
trails = [*range(0x41, 0x5B), *range(0x61, 0x7B), *range(0x81, 0xFF)]

def char(hi, lo):
    try:
        u = bytes([hi, lo]).decode("cp949")
    except UnicodeDecodeError:
        return 0
    return ord(u) if len(u) == 1 else 0

leads = range(0x80, 0x100)
for hi in leads:
    for lo in range(0x100):
        assert lo in trails or not char(hi, lo)
rows = {hi: [char(hi, lo) for lo in trails] for hi in leads}
rows = {hi: us for hi, us in rows.items() if any(us)}
s = """-- Generated by tools/gen_chart.py from Python's codec, not from /repo; do not edit.
/-!
Code chart of CP949 (Windows code page 949 without its user-defined area), as Python's `cp949` codec and glibc's
`iconv` have it. One row for each lead byte, with the code points of the characters for the trail bytes
41..5A, 61..7A, 81..FE in this order; 0 where no character is assigned.
-/
namespace Spec

"""
for hi, us in rows.items():
    s += f"def row{hi:02X} : List Nat := [\n"
    items = [f"0x{u:04x}" if u else "0" for u in us]
    # a run of unassigned codes at the start of the row
    line = "  "
    for i, it in enumerate(items):
        it += ", " if i + 1 < len(items) else "]"
        if len(line + it) > 108:
            s += line.rstrip() + "\n"
            line = "  "
        line += it
    s += line + "\n\n"
s += "/-- The rows with their lead bytes. -/\ndef chartRows : List (Nat × List Nat) := [\n"
items = [f"(0x{hi:02X}, row{hi:02X})" for hi in rows]
s += ",\n".join("  " + ", ".join(items[i:i + 6]) for i in range(0, len(items), 6)) + "]\n\n"
s += """/-- The trail bytes. -/
def trails : List Nat := List.range' 0x41 26 ++ List.range' 0x61 26 ++ List.range' 0x81 126

/-- All assigned codes with their characters. -/
def chartPairs : List (Nat × Nat) :=
  chartRows.flatMap fun row => (trails.zip row.2).filterMap fun e =>
    if e.2 = 0 then none else some (row.1 * 256 + e.1, e.2)

end Spec
"""
out.write_text(s)
print(sum(1 for us in rows.values() for u in us if u), "codes in", len(rows), "rows")
