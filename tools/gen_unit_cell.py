#!/usr/bin/env python3
"""Generates lean/Verif/Gen/UnitCell.lean from /repo."""
import sys; sys.path.insert(0, '/verif/tools')
from py2lean import Tr
import ast
V, Q, M = (3,), (6,), (9,)
t = Tr('cryspy/A_functions_base/unit_cell.py')
mat = ast.parse(open('/repo/cryspy/A_functions_base/matrix_operations.py').read())
t.known['calc_m_q_mt'] = dict(args=['m_ij', 'q_ij'], dder={}, ret=('Mat.calc_m_q_mt', (6,)),
    fn=[n for n in mat.body if isinstance(n, ast.FunctionDef) and n.name == 'calc_m_q_mt'][0])
o = []
U = 'unit_cell_parameters'
u = [(U, (6,))]
S = '_by_unit_cell_parameters'
def one(n, d=True, extra=None, nod=False):
    args = (extra or []) + u
    outs = [(n, 'ret')] + ([('d_' + n, U)] if d else [])
    o.append(t.fn(n + S, args, outs, assume={'flag_unit_cell_parameters': d}))
one('calc_phi_sq'); one('calc_phi'); one('calc_volume_uc'); one('calc_reciprocal'); one('calc_volume_ruc')
one('calc_m_g'); one('calc_m_g_norm'); one('calc_m_reciprocal_g'); one('calc_m_reciprocal_g_norm')
one('calc_m_b'); one('calc_m_inv_b'); one('calc_m_b_norm'); one('calc_m_inv_b_norm', d=False)
one('calc_m_m'); one('calc_m_inv_m'); one('calc_m_m_norm'); one('calc_m_inv_m_norm')
hkl = [('index_hkl', V)]
one('calc_q_ccs', extra=hkl); one('calc_eq_ccs', d=False, extra=hkl); one('calc_inv_d', extra=hkl); one('calc_sthovl', extra=hkl)
for n, q in [('reciprocal_to_ccs', 'quadratic_form_reciprocal'), ('ccs_to_reciprocal', 'quadratic_form_ccs'),
        ('reciprocal_norm_to_ccs', 'quadratic_form_reciprocal_norm'), ('ccs_to_reciprocal_norm', 'quadratic_form_ccs'),
        ('direct_to_ccs', 'quadratic_form_direct'), ('ccs_to_direct', 'quadratic_form_ccs'),
        ('direct_norm_to_ccs', 'quadratic_form_direct_norm'), ('ccs_to_direct_norm', 'quadratic_form_ccs')]:
    o.append(t.fn('transform_quadratic_form_' + n, [(q, Q)] + u, [('transform_quadratic_form_' + n, 'ret')],
        assume={'flag_' + q: False, 'flag_unit_cell_parameters': False}))
one('calc_m_inv_m_b_norm'); one('calc_m_inv_b_norm_m')
hdr = '''import Verif.Gen.MatrixOps
import Mathlib.Analysis.SpecialFunctions.Trigonometric.Inverse

/-!
# Model of A_functions_base/unit_cell.py

Generated from the source by tools/gen_unit_cell.py (see tools/py2lean.py); one definition per returned value and per
reported derivative (`d_…`, over the six unit-cell parameters).  The suffix `_by_unit_cell_parameters` is dropped.  Angles are
in radians.  Axes over reflections are dropped.  Numbers are reals.
-/

set_option linter.unusedVariables false

namespace Cryspy.Cell

open Cryspy

'''
open('/verif/lean/Verif/Gen/UnitCell.lean', 'w').write(hdr + "\n".join(o) + "\nend Cryspy.Cell\n")
