#!/usr/bin/env python3
"""Generates lean/Verif/Gen/Powder.lean from /repo."""
import sys; sys.path.insert(0, '/verif/tools')
from py2lean import Tr
o = []
sc = lambda ns: [(n, ()) for n in ns.split()]
t = Tr('cryspy/A_functions_base/preferred_orientation.py')
SK = ['eq_axis_ccs, dder_eq_axis_ccs = calc_eq_ccs_by_unit_cell_parameters(texture_axis, unit_cell_parameters, flag_unit_cell_parameters=flag_unit_cell_parameters)',
      'eq_hkl_ccs, dder_eq_hkl_ccs = calc_eq_ccs_by_unit_cell_parameters(index_hkl, unit_cell_parameters, flag_unit_cell_parameters=flag_unit_cell_parameters)',
      'cos_alpha_ax = (eq_axis_ccs[:, 0][:, na] * eq_hkl_ccs).sum(axis=0)']
o.append(t.fn('calc_preferred_orientation_pd', sc('cos_alpha_ax texture_g1 texture_g2'),
  [('po_pd_cos', 0), ('d_po_pd_g1_cos', 'texture_g1'), ('d_po_pd_g2_cos', 'texture_g2')], assume={'skip': SK}, drop=True))
o.append(t.fn('calc_preferred_orientation_pd2d', sc('alpha_det cos_alpha_ax texture_g1 texture_g2'),
  [('po_pd2d_cos', 0), ('d_po_pd2d_g1_cos', 'texture_g1'), ('d_po_pd2d_g2_cos', 'texture_g2')], assume={'skip': SK}, drop=True))
t = Tr('cryspy/A_functions_base/powder_diffraction_const_wavelength.py')
f = lambda n, args, outs, **k: o.append(t.fn(n, sc(args), outs, drop=True, **k))
f('calc_lorentz_factor', 'ttheta k cthm', [('lorentz_factor', 0), ('d_lorentz_factor', 'ttheta')])
f('func_asymmetry_f_a', 'z', [('f_a', 0), ('d_f_a', 'z')])
f('func_asymmetry_f_b', 'z', [('f_b', 0), ('d_f_b', 'z')])
f('calc_asymmetry_factor', 'z ttheta p_1 p_2 p_3 p_4', [('asymmetry_factor', 0)] + [('d_asymmetry_' + k, k) for k in 'z p_1 p_2 p_3 p_4'.split()])
f('func_gauss_by_h_pv', 'z h_pv', [('gauss', 0), ('d_gauss_z', 'z'), ('d_gauss_h_pv', 'h_pv')])
f('func_lorentz_by_h_pv', 'z h_pv', [('lorentz', 0), ('d_lorentz_z', 'z'), ('d_lorentz_h_pv', 'h_pv')])
f('calc_h_g', 'u v w i_g ttheta', [('h_g', 0)] + [('d_h_g_' + k, k) for k in 'u v w i_g'.split()])
f('calc_h_l', 'x y ttheta', [('h_l', 0)] + [('d_h_l_' + k, k) for k in 'x y'.split()])
FL = {'flag_h_g or flag_h_l': True, 'flag_h_pv or flag_h_l': True}
f('calc_h_pv', 'h_g h_l', [('h_pv', 0)] + [('d_h_pv_' + k, k) for k in 'h_g h_l'.split()], assume=FL)
f('calc_eta', 'h_l h_pv', [('eta', 0)] + [('d_eta_' + k, k) for k in 'h_pv h_l'.split()], assume=FL)
f('calc_coeff_phi', 'phi p_phi', [('coeff_phi', 0), ('d_coeff_phi', 'p_phi')])
f('calc_profile_pseudo_voight', 'ttheta ttheta_hkl u v w i_g x y p_1 p_2 p_3 p_4', [('profile', 0)])
f('calc_profile_pseudo_voight_2d', 'ttheta phi ttheta_hkl u v w i_g x y p_1 p_2 p_3 p_4 p_phi', [('profile_2d', 0)])
f('calc_gamma_nu_by_ttheta_phi', 'ttheta phi', [('gamma_by', 0), ('nu_by', 1)])
f('calc_ttheta_phi_by_gamma_nu', 'gamma nu', [('ttheta_by', 0), ('phi_by', 1)])
hdr = '''import Mathlib.Analysis.SpecialFunctions.Complex.Arg
import Mathlib.Analysis.SpecialFunctions.Pow.Real

/-!
# Model of A_functions_base/powder_diffraction_const_wavelength.py and preferred_orientation.py

Generated from the source by tools/gen_powder.py (see tools/py2lean.py).  Numbers are reals; the axes over points, reflections
and detector pixels are dropped, because every operation is elementwise in them.  A masked assignment `x[x>c]=v` becomes an `if`.
The preferred-orientation functions take the cosine between texture axis and reflection here; Verif/Powder/Model.lean adds its computation.
-/

namespace Cryspy.Powder

/-- `numpy.arctan2(y, x)`; signed zeros are not distinguished. -/
noncomputable def arctan2 (y x : ℝ) : ℝ := Complex.arg ⟨x, y⟩

'''
open('/verif/lean/Verif/Gen/Powder.lean', 'w').write(hdr + "\n".join(o) + "\nend Cryspy.Powder\n")
