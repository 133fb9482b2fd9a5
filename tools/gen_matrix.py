#!/usr/bin/env python3
"""Generates lean/Verif/Gen/MatrixOps.lean and lean/Verif/Gen/UnitCell.lean from /repo."""
import sys; sys.path.insert(0, '/verif/tools')
from py2lean import Tr
V, Q, M = (3,), (6,), (9,)
t = Tr('cryspy/A_functions_base/matrix_operations.py', assume={
    'm.dtype == complex': False, 'v.dtype == complex': False, 'q.dtype == complex': False, 'v1.dtype == complex': False,
    'v2.dtype == complex': False, 'q.dtype == float': True, 'm.type == complex': False})
o = []
K = dict(K='K')
nf = lambda *fl: {f: False for f in fl}
o.append(t.fn('transpose_m', [('m', M)], [('transpose_m', 'ret')], assume=nf('flag_m'), **K))
o.append(t.fn('calc_vv_as_v1_v2_v1', [('v1', V)], [('calc_vv_as_v1_v2_v1', 'ret'), ('d_calc_vv_as_v1_v2_v1', 'v1')], **K))
o.append(t.fn('calc_vector_product_v1_v2_v1', [('v1', V), ('v2', V)], [('calc_vector_product_v1_v2_v1', 'ret')], assume=nf('flag_v1', 'flag_v2'), **K))
o.append(t.fn('calc_vector_product_v1_v2', [('v1', V), ('v2', V)], [('calc_vector_product_v1_v2', 'ret')], **K))
o.append(t.fn('calc_m_q_mt', [('m_ij', M), ('q_ij', Q)], [('calc_m_q_mt', 'ret')], **K))
o.append(t.fn('calc_mt_q_m', [('m', M), ('q', Q)], [('calc_mt_q_m', 'ret'), ('d_calc_mt_q_m_m', 'm'), ('d_calc_mt_q_m_q', 'q')], **K))
o.append(t.fn('calc_m1_m2', [('m1_ij', M), ('m2_ij', M)], [('calc_m1_m2', 'ret')], **K))
o.append(t.fn('calc_q1_q2_q1', [('q1_ij', Q), ('q2_ij', Q)], [('calc_q1_q2_q1', 'ret')], **K))
o.append(t.fn('calc_det_m', [('m', M)], [('calc_det_m', 'ret'), ('d_calc_det_m', 'm')], **K))
o.append(t.fn('calc_m_q_inv_m', [('m', M), ('q', Q)], [('calc_m_q_inv_m', 'ret'), ('d_calc_m_q_inv_m_q', 'q')], **K))
o.append(t.fn('calc_mt_m', [('m_ij', M)], [('calc_mt_m', 'ret')], **K))
o.append(t.fn('calc_q_sq', [('q', Q)], [('calc_q_sq', 'ret'), ('d_calc_q_sq', 'q')], **K))
o.append(t.fn('calc_m_sq', [('m', M)], [('calc_m_sq', 'ret'), ('d_calc_m_sq', 'm')], **K))
o.append(t.fn('calc_m1_m2_inv_m1', [('m1_ij', M), ('m2_ij', M)], [('calc_m1_m2_inv_m1', 'ret')], **K))
o.append(t.fn('calc_m1_m2_m1t', [('m1_ij', M), ('m2_ij', M)], [('calc_m1_m2_m1t', 'ret')], **K))
o.append(t.fn('calc_vt_m_v', [('m_ij', M), ('v_i', V)], [('calc_vt_m_v', 'ret'), ('d_calc_vt_m_v_m', 'm'), ('d_calc_vt_m_v_v', 'v')], **K))
o.append(t.fn('calc_vt_q_v', [('q', Q), ('v', V)], [('calc_vt_q_v', 'ret'), ('d_calc_vt_q_v_v', 'v')], assume=nf('flag_q'), **K))
o.append(t.fn('calc_q_v', [('q', Q), ('v', V)], [('calc_q_v', 'ret'), ('d_calc_q_v_q', 'q'), ('d_calc_q_v_v', 'v')], **K))
o.append(t.fn('calc_m_v', [('m', M), ('v', V)], [('calc_m_v', 'ret'), ('d_calc_m_v_m', 'm'), ('d_calc_m_v_v', 'v')], **K))
o.append(t.fn('calc_mm_as_m_q_inv_m', [('m', M)], [('calc_mm_as_m_q_inv_m', 'ret')], **K))
try:
    o.append(t.fn('calc_mm_as_m1_m2_inv_m1', [('m1', M)], [('calc_mm_as_m1_m2_inv_m1', 'ret')], **K))
except Exception as ex: print("mm_as_m1_m2_inv_m1", ex)
t2 = t.fn('calc_inv_m', [('m_ij', M)], [('calc_inv_m', 'ret')], assume={'flag_m': False, 'numpy.all(det == 1)': False})
o.append(t2.replace('. -/', '.  The shortcut for `det == 1` everywhere also sets `inv_det` to 1. -/'))
hdr = '''import Mathlib.Data.Fin.VecNotation
import Mathlib.Analysis.Real.Sqrt

/-!
# Model of A_functions_base/matrix_operations.py

Generated from the source by tools/gen_matrix.py (see tools/py2lean.py for the translation); one definition per output.
Components of vectors (3), quadratic forms (6: 11 22 33 12 13 23) and matrices (9: row by row) are kept, trailing axes over
points are dropped.  Numbers are elements of a field (so real and complex arguments), not floats.
-/

set_option linter.unusedVariables false

namespace Cryspy.Mat

'''
open('/verif/lean/Verif/Gen/MatrixOps.lean', 'w').write(hdr + "\n".join(o) + "\nend Cryspy.Mat\n")
