#!/usr/bin/env python3
"""Generates lean/Verif/Gen/Extinction.lean from /repo."""
import sys; sys.path.insert(0, '/verif/tools')
from py2lean import Tr
t = Tr('cryspy/A_functions_base/extinction.py')
o = []
P = ['f_sq', 'radius', 'volume_unit_cell', 'cos_2theta', 'wavelength']
S = ['f_sq', 'radius', 'mosaicity', 'volume_unit_cell', 'cos_2theta', 'wavelength']
sc = lambda ns: [(n, ()) for n in ns]
o.append(t.fn('calc_extinction_sphere_primary', sc(P), [('primary', 0), ('primary_x', 'var:x'), ('primary_A', 'var:A'), ('primary_B', 'var:B')] + [('d_primary_' + k, k) for k in P]))
K = {'skip': ['y_s[numpy.isnan(y_s)] = 1.0']}
C = 'not radius * mosaicity_rad > 0'
o.append(t.fn('calc_extinction_sphere_secondary_gauss', sc(S), [('gauss', 0), ('gauss_x', 'var:x'), ('gauss_A', 'var:A'), ('gauss_B', 'var:B')] + [('d_gauss_' + k, k) for k in S], assume={C: False, **K}))
o.append(t.fn('calc_extinction_sphere_secondary_lorentz', sc(S), [('lorentz', 0), ('lorentz_x', 'var:x'), ('lorentz_A', 'var:A'), ('lorentz_B', 'var:B')] + [('d_lorentz_' + k, k) for k in S], assume={C: False, **K}))
o.append(t.fn('calc_extinction_sphere_secondary_gauss', sc(S), [('gauss_off', 0), ('d_gauss_off_f_sq', 'f_sq')], assume={C: True, **K}))
o.append(t.fn('calc_extinction_sphere_secondary_lorentz', sc(S), [('lorentz_off', 0), ('d_lorentz_off_f_sq', 'f_sq')], assume={C: True, **K}))
hdr = '''import Mathlib.Analysis.SpecialFunctions.Sqrt
import Mathlib.Analysis.SpecialFunctions.Trigonometric.Basic

/-!
# Model of A_functions_base/extinction.py

Generated from the source by tools/gen_extinction.py (see tools/py2lean.py): the formulas.  `…_off` are the branches for
`not(radius*mosaicity_rad>0)`.  Two points are treated by hand in Verif/Ext/Model.lean: numpy's square root of a negative
number is NaN, and the statement `y_s[numpy.isnan(y_s)]=1.` of the Gauss model replaces it by one.
Numbers are reals; axes over reflections are dropped.
-/

namespace Cryspy.Ext

'''
open('/verif/lean/Verif/Gen/Extinction.lean', 'w').write(hdr + "\n".join(o) + "\nend Cryspy.Ext\n")
