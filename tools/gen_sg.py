"""Write the space-group tables of cryspy as Lean data.

  Verif/Gen/ITables.lean   the lines of itables.txt, and what they mean as exact numbers
  Verif/Gen/SGNames.lean   the name tables of function_2_space_group.py

The Lean side proves that reading the lines with the modelled reader gives the numbers, so the numbers
written here are not trusted.  Only the copying of lines and of name tables is.
"""
import ast, os, re
from fractions import Fraction as F
A = "/repo/cryspy/A_functions_base/"
OUT = os.path.join(os.path.dirname(os.path.abspath(__file__)), "..", "lean", "Verif", "Gen")


def lstr(s):
    return '"' + s.replace("\\", "\\\\").replace('"', '\\"') + '"'


def parse(s):
    out = []
    for comp in s.strip().strip("()").split(","):
        row = [F(0)] * 3
        off = F(0)
        for t in re.findall(r"[+-]?[^+-]+", comp.replace(" ", "")):
            sg = -1 if t[0] == "-" else 1
            t = t.lstrip("+-")
            for i, l in enumerate("xyz"):
                if l in t:
                    c = t.replace(l, "")
                    row[i] += sg * (F(c) if c else 1)
                    break
            else:
                off += sg * F(t)
        out.append((row, off))
    return out


def op(s):
    rb = parse(s)
    if len(rb) != 3:
        return "none"
    n = [x for r, _ in rb for x in r] + [b * 120 for _, b in rb]
    assert all(x.denominator == 1 for x in n), s
    return "some ⟨" + ", ".join(str(int(x)) for x in n) + "⟩"


def chunks(name, ty, items, size, doc):
    names = []
    out = ""
    cuts = size if isinstance(size, list) else list(range(0, len(items), size)) + [len(items)]
    for i, (k, m) in enumerate(zip(cuts, cuts[1:])):
        nm = f"{name}{i}"
        names.append(nm)
        out += f"/-- {doc}, part {i}. -/\ndef {nm} : {ty} := [\n  " + ",\n  ".join(items[k:m]) + "]\n\n"
    out += f"/-- {doc}. -/\ndef {name} : List ({ty}) := [" + ", ".join(names) + "]\n\n"
    return out, names


def cards():
    lines = [l.rstrip("\n") for l in open(A + "itables.txt")]
    res = []
    for l in lines:
        s = l.strip()
        if not s:
            continue
        w = s.split()
        if w[0].isdigit():
            res.append({"it": int(w[0]), "name": w[1], "singony": w[2], "symmetry": []})
        else:
            k, v = s.split(":")[:2]
            k, v = k.strip(), v.strip()
            if k == "symmetry":
                res[-1][k].append(v)
            else:
                res[-1][k] = v
    return lines, res


HEAD = "/-! Generated by tools/gen_sg.py from {}; do not edit. -/\n\n"


def main():
    lines, cs = cards()
    # text blocks: one block of lines per card, with the blank lines that follow it
    blocks = []
    for l in lines:
        if l.strip() and l.split()[0].isdigit():
            blocks.append([])
        blocks[-1].append(l)
    assert len(blocks) == len(cs)
    # parts of about the same number of operations
    cuts, n = [0], 0
    for i, c in enumerate(cs):
        if n + len(c["symmetry"]) > 200:
            cuts.append(i)
            n = 0
        n += len(c["symmetry"])
    cuts.append(len(cs))
    t = "import Verif.SG.Op\n\n" + HEAD.format("cryspy/A_functions_base/itables.txt") + "namespace Cryspy.SG\n\n"
    items = ["[" + ", ".join(lstr(l) for l in b) + "]" for b in blocks]
    o, _ = chunks("itablesBlocks", "List (List String)", items, cuts, "The lines of itables.txt, one list per card")
    t += o
    dist = sorted({s for c in cs for s in c["symmetry"]})
    items = [f"({lstr(s)}, {op(s)})" for s in dist]
    o, _ = chunks("symTab", "List (String × Option Op)", items, 60, "The distinct operations of itables.txt")
    t += o
    idx = {s: i for i, s in enumerate(dist)}
    items = []
    for c in cs:
        pc = [F(x).limit_denominator(10) * 120 for x in c["pcentr"].split(",")]
        assert all(x.denominator == 1 for x in pc)
        items.append(f"⟨{c['it']}, {lstr(c['choice'])}, {lstr(c['pcentr'])}, ({int(pc[0])}, {int(pc[1])}, {int(pc[2])}), [" +
                     ", ".join(str(idx[s]) for s in c["symmetry"]) + "]⟩")
    o, _ = chunks("cardTab", "List CardN", items, cuts, "The cards of itables.txt; operations by their place in `symTab`")
    t += o
    t += "end Cryspy.SG\n"
    open(os.path.join(OUT, "ITables.lean"), "w").write(t)

    tree = ast.parse(open(A + "function_2_space_group.py").read())
    val = {}
    for n in tree.body:
        if isinstance(n, ast.Assign) and isinstance(n.targets[0], ast.Name):
            try:
                if n.targets[0].id not in val:
                    val[n.targets[0].id] = (ast.literal_eval(n.value), n.lineno, n.end_lineno)
            except ValueError:
                pass
    t = HEAD.format("cryspy/A_functions_base/function_2_space_group.py") + "namespace Cryspy.SG\n\n"

    def strs(lean, py):
        v, a, b = val[py]
        return f"/-- `{py}`, function_2_space_group.py:{a}-{b}. -/\ndef {lean} : List String := [\n  " + \
            ",\n  ".join(lstr(x) for x in v) + "]\n\n"
    t += strs("hmShort", "ACCESIBLE_NAME_HM_SHORT")
    t += strs("schoenflies", "ACCESIBLE_NAME_SCHOENFLIES")
    t += strs("hallShort", "ACCESIBLE_NAME_HALL_SHORT")
    t += strs("laueClasses", "ACCESIBLE_LAUE_CLASS")
    t += strs("allCodes", "ACCESIBLE_IT_COORDINATE_SYSTEM_CODE")
    ext = []
    for s in ("TRICLINIC", "MONOCLINIC", "ORTHORHOMBIC", "TETRAGONAL", "TRIGONAL", "HEXAGONAL", "CUBIC"):
        v, a, b = val[f"REFERENCE_TABLE_{s}_IT_COORDINATE_SYSTEM_CODE_NAME_HM_EXTENDED"]
        nm = "ext" + s.capitalize()
        ext.append(nm)
        t += f"/-- `REFERENCE_TABLE_{s}_IT_COORDINATE_SYSTEM_CODE_NAME_HM_EXTENDED`, function_2_space_group.py:{a}-{b}. -/\n"
        t += f"def {nm} : List (ℕ × Option String × String) := [\n  " + ",\n  ".join(
            f"({i}, {'none' if c is None else 'some ' + lstr(c)}, {lstr(n)})" for i, c, n in v) + "]\n\n"
    t += "/-- function_2_space_group.py:746-753. -/\ndef extTable : List (ℕ × Option String × String) :=\n  " + " ++ ".join(ext) + "\n\n"
    full = []
    for s in ("TRICLINIC", "ORTHORHOMBIC", "TETRAGONAL", "TRIGONAL", "HEXAGONAL", "CUBIC"):
        v, a, b = val[f"REFERENCE_TABLE_{s}_IT_NUMBER_NAME_HM_FULL"]
        nm = "full" + s.capitalize()
        full.append(nm)
        t += f"/-- `REFERENCE_TABLE_{s}_IT_NUMBER_NAME_HM_FULL`, function_2_space_group.py:{a}-{b}. -/\n"
        t += f"def {nm} : List (ℕ × String) := [\n  " + ",\n  ".join(f"({i}, {lstr(n)})" for i, n in v) + "]\n\n"
    t += "/-- function_2_space_group.py:865-870 (the monoclinic table is not part of it). -/\ndef fullTable : List (ℕ × String) :=\n  " + " ++ ".join(full) + "\n\n"
    v, a, b = val["REFERENCE_TABLE_BRAVAIS_TYPE_CENTRING_TYPE_CRYSTAL_SYSTEM"]
    t += f"/-- function_2_space_group.py:{a}-{b}. -/\ndef bravaisTable : List (String × String × String) := [\n  " + ",\n  ".join(
        f"({lstr(x)}, {lstr(y)}, {lstr(z)})" for x, y, z in v) + "]\n\n"
    v, a, b = val["REFERENCE_TABLE_PATTERSON_NAME_HM_LATTICE_TYPE_LAUE_CLASS"]
    t += f"/-- function_2_space_group.py:{a}-{b}. -/\ndef pattersonTable : List (String × String × String) := [\n  " + ",\n  ".join(
        f"({lstr(x)}, {lstr(y)}, {lstr(z)})" for x, y, z in v) + "]\n\n"
    v, a, b = val["REFERENCE_TABLE_LAUE_CLASS_SHORT_FULL_POINT_GROUP_HM_SYMBOL_SHORT_FULL_SCHOENFLIES"]
    t += f"/-- Laue class, full Laue class, point group, full point group, Schoenflies; function_2_space_group.py:{a}-{b}. -/\n" + \
        "def laueTable : List (String × String × String × String × String) := [\n  " + ",\n  ".join(
        "(" + ", ".join(map(lstr, x)) + ")" for x in v) + "]\n\n"
    t += "end Cryspy.SG\n"
    open(os.path.join(OUT, "SGNames.lean"), "w").write("import Mathlib.Init\nnotation \"ℕ\" => Nat\n\n".replace('notation "ℕ" => Nat\n', "") + t.replace("ℕ", "Nat"))


main()


def gen_keys():
    """Verif/Gen/SGKeys.lean: the names as numbers (Lean checks the translation)."""
    import re
    src = open(os.path.join(os.path.dirname(os.path.abspath(__file__)), "..", "lean", "Verif", "Gen", "SGNames.lean")).read()

    def enc(s):
        r = 0
        for c in reversed(s):
            r = ord(c) + 1 + 2097152 * r
        return r

    def block(name):
        a = src.index("def %s :" % name)
        b = src.find("\ndef ", a + 1)
        c = src.find("/--", a + 1)
        ends = [x for x in (b, c, len(src)) if x > 0]
        return src[a:min(ends)]

    out = ["import Verif.SG.Resolve\n", "/-! Generated by tools/gen_sg.py: the tables of names with every name as a number (`key`); do not edit. -/\n",
           "namespace Cryspy.SG\n"]
    for lean, new in (("hmShort", "kShort"), ("hallShort", "kHall"), ("schoenflies", "kSchoenflies")):
        names = [x.replace('\\"', '"').replace("\\\\", "\\") for x in re.findall(r'^  "((?:[^"\\]|\\.)*)"', block(lean), re.M)]
        assert len(names) == 230, (lean, len(names))
        out.append("/-- Keys of `%s`. -/" % lean)
        out.append("def %s : List Nat := [\n  %s]\n" % (new, ",\n  ".join(str(enc(x)) for x in names)))
    full, ext = [], []
    for b in ("fullTriclinic", "fullOrthorhombic", "fullTetragonal", "fullTrigonal", "fullHexagonal", "fullCubic"):
        full += re.findall(r'^  \((\d+), "([^"]*)"\)', block(b), re.M)
    for b in ("extTriclinic", "extMonoclinic", "extOrthorhombic", "extTetragonal", "extTrigonal", "extHexagonal", "extCubic"):
        ext += re.findall(r'^  \((\d+), (none|some "[^"]*"), "([^"]*)"\)', block(b), re.M)
    out.append("/-- Keys of `fullTable`. -/")
    out.append("def kFull : List (Nat × Nat) := [\n  %s]\n" % ",\n  ".join("(%s, %d)" % (n, enc(x)) for n, x in full))
    out.append("/-- Keys of `extTable`. -/")
    out.append("def kExt : List (Nat × Option String × Nat) := [\n  %s]\n" % ",\n  ".join("(%s, %s, %d)" % (n, c, enc(x)) for n, c, x in ext))
    out.append("end Cryspy.SG\n")
    open(os.path.join(os.path.dirname(os.path.abspath(__file__)), "..", "lean", "Verif", "Gen", "SGKeys.lean"), "w").write("\n".join(out))


gen_keys()
