"""First listed coordinates of every position of every card in wyckoff.dat ->
lean/Verif/Gen/WyckFirst.lean: the distinct ones, nine coefficients and the three constants in 24ths."""
import os
import re
from fractions import Fraction

REPO = "/repo/cryspy/A_functions_base/wyckoff.dat"
OUT = os.path.join(os.path.dirname(__file__), "..", "lean", "Verif", "Gen", "WyckFirst.lean")


def row(s):
    r, b, rest = [0, 0, 0], Fraction(0), s.replace(" ", "")
    while rest:
        m = re.match(r"([+-]?)(\d*)([xyz])", rest)
        if m:
            r["xyz".index(m[3])] += (-1 if m[1] == "-" else 1)*(int(m[2]) if m[2] else 1)
        else:
            m = re.match(r"[+-]?\d+(\.\d+)?(/\d+)?", rest)
            if m is None:
                raise ValueError(s)
            b += Fraction(m[0])
        rest = rest[m.end():]
    n = (b % 1)*24
    assert n.denominator == 1, s
    return r, int(n)


first, total, new = {}, 0, False
for line in open(REPO):
    l = line.split()
    if l and l[0].isdigit():
        new = len(l) < 5 or not all(t.isdigit() for t in l[:5])
    elif l and new:
        t = re.findall(r"\(([^()]*)\)", line)[0]
        rows = [row(s) for s in t.split(",")]
        assert len(rows) == 3, t
        first.setdefault(tuple(rows[0][0] + rows[1][0] + rows[2][0] + [b for _, b in rows]), t)
        total, new = total + 1, False

with open(OUT, "w") as f:
    f.write("/-!\nGenerated by tools/gen_wyck_first.py from cryspy/A_functions_base/wyckoff.dat: the first listed\n"
            "coordinates of the %d positions of all cards, each distinct one once: nine coefficients, row after\n"
            "row, and the three constants in 24ths.\n-/\n\nnamespace Cryspy.Wyck\n\n"
            "/-- cryspy/A_functions_base/wyckoff.dat:1-12477 -/\n"
            "def firstPositions : List (List Int) := [\n" % total)
    f.write(",\n".join("  [" + ", ".join(map(str, p)) + "]" for p in first))
    f.write("]\n\nend Cryspy.Wyck\n")
print(len(first), total)
