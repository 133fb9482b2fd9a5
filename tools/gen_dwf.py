#!/usr/bin/env python3
"""Generates lean/Verif/Gen/Dwf.lean from /repo."""
import sys; sys.path.insert(0, '/verif/tools')
from py2lean import Tr
t = Tr('cryspy/A_functions_base/debye_waller_factor.py')
o = []
o.append(t.fn('calc_beta_by_u_ij', [('u_ij', (6,)), ('reciprocal_unit_cell_parameters', (6,))], [('beta_by_u', 0), ('d_beta_by_u', 'u_ij')]))
o.append(t.fn('calc_u_ij_by_beta', [('beta', (6,)), ('reciprocal_unit_cell_parameters', (6,))], [('u_by_beta', 0), ('d_u_by_beta', 'beta')]))
o.append(t.fn('calc_power_dwf_iso', [('sthovl', ()), ('b_iso', ())], [('power_iso', 0), ('d_power_iso_b', 'b_iso'), ('d_power_iso_s', 'sthovl')]))
o.append(t.fn('calc_power_dwf_aniso', [('index_hkl', (3,)), ('beta', (6,)), ('symm_elems_r', (9,))], [('power_aniso', 0), ('d_power_aniso', 'beta')]))
hdr = '''import Mathlib.Analysis.SpecialFunctions.Trigonometric.Basic
import Mathlib.Data.Fin.VecNotation

/-!
# Model of A_functions_base/debye_waller_factor.py

Generated from the source by tools/gen_dwf.py (see tools/py2lean.py).  Axes over reflections, atoms and symmetry operations
are dropped.  Numbers are reals.
-/

namespace Cryspy.Adp

open Real

'''
open('/verif/lean/Verif/Gen/Dwf.lean', 'w').write(hdr + "\n".join(o) + "\nend Cryspy.Adp\n")
