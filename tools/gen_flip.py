#!/usr/bin/env python3
"""Generates lean/Verif/Gen/FlipRatio.lean from /repo."""
import sys; sys.path.insert(0, '/verif/tools')
from py2lean import Tr
V = (3,)
t = Tr('cryspy/A_functions_base/flip_ratio.py')
o = []
A0 = {'dict_in_out is None': True, 'flag_dict': False, 'len(f_m_perp.shape) == 1': False, 'len(axis_z.shape) == 1': False}
args = [('beam_polarization', ()), ('flipper_efficiency', ()), ('f_nucl', ('c', ())), ('f_m_perp', ('c', V)), ('axis_z', V)]
flags = dict(flag_f_nucl=None, flag_f_m_perp=None)
o.append(t.fn('calc_iint', args, [('calc_iint_plus_none', 0), ('calc_iint_minus_none', 1), ('d_plus_none_P', 'dder_plus/beam_polarization'), ('d_minus_none_P', 'dder_minus/beam_polarization'),
  ('d_minus_none_e', 'dder_minus/flipper_efficiency')] +
  [(f'd_{s}_none_{k}', f'dder_{s}/{k}') for k in ('f_nucl_real', 'f_nucl_imag', 'f_m_perp_real', 'f_m_perp_imag') for s in ('plus', 'minus')],
  assume={**A0, 'func_extinction is None': True, "'f_sq' in dder_y_plus.keys()": False, "'f_sq' in dder_y_minus.keys()": False,
   "'f_sq' in dder_y_m_perp_xy.keys()": False, 'len(extinction_keys) != 0': False}, vals=flags))
o.append(t.fn('calc_iint', args, [('calc_iint_plus', 0), ('calc_iint_minus', 1), ('calc_chiral_term', 'var:chiral_term'), ('d_plus_P', 'dder_plus/beam_polarization'), ('d_minus_P', 'dder_minus/beam_polarization'),
  ('d_minus_e', 'dder_minus/flipper_efficiency')] +
  [(f'd_{s}_{k}', f'dder_{s}/{k}') for k in ('f_nucl_real', 'f_nucl_imag', 'f_m_perp_real', 'f_m_perp_imag') for s in ('plus', 'minus')] +
  [('d_plus_ext', 'dder_plus/ext'), ('d_minus_ext', 'dder_minus/ext')],
  assume={**A0, 'func_extinction is None': False, "'f_sq' in dder_y_plus.keys()": True, "'f_sq' in dder_y_minus.keys()": True,
   "'f_sq' in dder_y_m_perp_xy.keys()": True, 'len(extinction_keys) != 0': True, 'extinction_keys': ['ext'], "key == 'f_sq'": False}, vals=flags,
  funcs={'func_extinction': ('(y dy dk : ℝ → ℝ)', 'y', {'f_sq': 'dy', 'ext': 'dk'})}))
ia = [('iint_plus', ()), ('iint_minus', ())]
ic = ia + [('c_lambda2', ()), ('iint_2hkl', ())]
for n, l in [('calc_flip_ratio_by_iint', 'flip_ratio'), ('calc_asymmetry_by_iint', 'asymmetry')]:
    o.append(t.fn(n, ia, [(l, 0), ('d_' + l + '_plus', 'iint_plus'), ('d_' + l + '_minus', 'iint_minus')],
      assume={'cond': True, 'flag_c_lambda2': False, 'flag_iint_2hkl': False}, vals={'cond': None}))
    o.append(t.fn(n, ic, [(l + '2', 0)] + [('d_' + l + '2_' + k, k) for k in ('iint_plus', 'iint_minus', 'c_lambda2', 'iint_2hkl')],
      assume={'cond': False}, vals={'cond': None}))
hdr = '''import Mathlib.Data.Real.Basic
import Mathlib.Data.Fin.VecNotation

/-!
# Model of A_functions_base/flip_ratio.py

Generated from the source by tools/gen_flip.py (see tools/py2lean.py).  A complex argument is given by its real and imaginary
part.  `…_none` is the function without an extinction function; otherwise `y` is the extinction function, `dy` its reported
derivative over the squared structure factor and `dk` its reported derivative over any other key.  `flip_ratio2` and
`asymmetry2` are the functions with a second-harmonic contribution.  Axes over reflections are dropped.  Numbers are reals.
-/

namespace Cryspy.Flip

'''
open('/verif/lean/Verif/Gen/FlipRatio.lean', 'w').write(hdr + "\n".join(o) + "\nend Cryspy.Flip\n")
