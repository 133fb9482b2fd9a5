#!/usr/bin/env python3
"""Write lean/Verif/Gen/Elements.lean from cryspy/A_functions_base/database.pickle.

The pickle is read without numpy: numpy scalars are decoded by hand and numpy arrays are skipped.
"""
import os, pickle, struct
SRC = '/repo/cryspy/A_functions_base/database.pickle'
OUT = os.path.join(os.path.dirname(__file__), '../lean/Verif/Gen/Elements.lean')


class Arr:
    def __setstate__(self, st): self.st = st
    def __hash__(self): return id(self)


class DT:
    def __init__(self, *a): self.a = a
    def __setstate__(self, st): self.st = st


def scalar(dt, b=None):
    f = {'f8': '<d', 'i8': '<q', 'i4': '<i'}.get(dt.a[0])
    return struct.unpack(f, b)[0] if f else (dt.a[0], b)


class U(pickle.Unpickler):
    def find_class(self, m, n):
        if n == 'dtype': return DT
        if n == 'scalar': return scalar
        if n == '_reconstruct': return lambda *a: Arr()
        if n == 'ndarray': return Arr
        if m in ('builtins', '_codecs'): return super().find_class(m, n)
        raise Exception((m, n))


d = U(open(SRC, 'rb')).load()
el = d['Elements']


def chars(t):
    return '[' + ', '.join(f"'{x}'" for x in t) + ']'


with open(OUT, 'w') as o:
    o.write('/-!\n# Elements, isotopes and ions known to the data base\n\nWritten by tools/gen_elements.py from A_functions_base/database.pickle '
            '(keys and text entries only).\n-/\n\nnamespace Cryspy.Gen\n\n')
    o.write('/-- `DATABASE["Elements"]`: symbol, "Atomic number" and "Orbital occupancy" of every element -/\n'
            'def elements : List (List Char × Nat × List Char) := [\n')
    syms = [s for (p, s) in el if p == 'Atomic number']
    o.write(',\n'.join(f'  ({chars(s)}, {el["Atomic number", s]}, {chars(el["Orbital occupancy", s])})' for s in syms) + ']\n\n')
    iso = [s for (p, s) in d['Isotopes'] if p == 'b_scat']
    o.write('/-- the keys `("b_scat", key)` of `DATABASE["Isotopes"]` -/\ndef isotopes : List (List Char) := [\n')
    o.write(',\n'.join('  ' + chars(s) for s in iso) + ']\n\n')
    mag = [(s, q) for (p, s, q) in d['Magnetic Form Factor, tabulated'] if p == 'j0_AaBbCcD']
    o.write('/-- the keys `("j0_AaBbCcD", name, charge)` of `DATABASE["Magnetic Form Factor, tabulated"]` -/\n'
            'def magneticIons : List (List Char × Int) := [\n')
    o.write(',\n'.join(f'  ({chars(s)}, {q})' for s, q in mag) + ']\n\n')
    o.write('/-- the keys of `DATABASE["Scattering amplitude"]` -/\ndef scatteringKeys : List (List Char) := [\n')
    o.write(',\n'.join('  ' + chars(s) for s in d['Scattering amplitude']) + ']\n\n')
    o.write('/-- the keys of `DATABASE["Orbitals by radial Slater functions"]` -/\ndef slaterKeys : List (List Char × List Char) := [\n')
    o.write(',\n'.join(f'  ({chars(s)}, {chars(q)})' for s, q in d['Orbitals by radial Slater functions']) + ']\n\nend Cryspy.Gen\n')
