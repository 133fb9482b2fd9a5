"""Distinct linear parts of the coordinates in wyckoff.dat -> lean/Verif/Gen/WyckParts.lean.

Every "(..., ..., ...)" of the file is parsed on its own; the constants are dropped, the nine
coefficients of x, y, z are kept, row after row."""
import os
import re

REPO = "/repo/cryspy/A_functions_base/wyckoff.dat"
OUT = os.path.join(os.path.dirname(__file__), "..", "lean", "Verif", "Gen", "WyckParts.lean")


def row(s):
    res = [0, 0, 0]
    rest = s.replace(" ", "")
    while rest:
        m = re.match(r"([+-]?)(\d*)([xyz])", rest)
        if m:
            res["xyz".index(m[3])] += (-1 if m[1] == "-" else 1)*(int(m[2]) if m[2] else 1)
        else:
            m = re.match(r"[+-]?\d+(\.\d+)?(/\d+)?", rest)
            if m is None:
                raise ValueError(s)
        rest = rest[m.end():]
    return res


text = open(REPO).read()
parts = {}
for t in re.findall(r"\(([^()]*)\)", text):
    r = [row(s) for s in t.split(",")]
    assert len(r) == 3, t
    parts.setdefault(tuple(r[0]+r[1]+r[2]), t)

with open(OUT, "w") as f:
    f.write("/-!\nGenerated by tools/gen_wyck.py from cryspy/A_functions_base/wyckoff.dat (all %d coordinates\n"
            "of all positions of all settings): the distinct linear parts, nine coefficients each.\n-/\n\n"
            "namespace Cryspy.Wyck\n\n/-- cryspy/A_functions_base/wyckoff.dat:1-12477 -/\n"
            "def linearParts : List (List Int) := [\n" % len(re.findall(r"\(([^()]*)\)", text)))
    f.write(",\n".join("  [" + ", ".join(map(str, p)) + "]" for p in parts))
    f.write("]\n\nend Cryspy.Wyck\n")
print(len(parts))
