#!/usr/bin/env python3
"""Generates lean/Verif/Gen/Tof.lean from /repo."""
import sys; sys.path.insert(0, '/verif/tools')
from py2lean import Tr
o = []
sc = lambda ns: [(n, ()) for n in ns.split()]
t = Tr('cryspy/A_functions_base/powder_diffraction_tof.py')
f = lambda n, args, outs, **k: o.append(t.fn(n, sc(args), outs, drop=True, **k))
f('calc_time_for_epithermal_neutrons_by_d', 'd zero dtt1 zerot dtt1t dtt2t width x_cross', [('time_epithermal', 'ret')])
f('calc_time_for_thermal_neutrons_by_d', 'd zero dtt1 dtt2', [('time_thermal', 'ret')])
for n, a, b in (('neg', True, False), ('pos', False, True), ('zero', False, False)):
    f('calc_d_by_time_for_thermal_neutrons', 'time zero dtt1 dtt2', [('d_by_time_' + n, 'ret')], assume={'dtt2 < 0.0': a, 'dtt2 > 0.0': b})
f('calc_hpv_eta', 'h_g h_l', [('tof_h_pv', 0), ('tof_eta', 1)])
f('calc_alpha', 'alpha0 alpha1 d', [('calc_alpha', 'ret')])
f('calc_sigma', 'd sigma0 sigma1 sigma2 size_g strain_g', [('calc_sigma', 'ret')])
t.known['calc_sigma']['single'] = True
f('calc_sigma_gamma', 'd sigma0 sigma1 sigma2 gamma0 gamma1 gamma2 size_g size_l strain_g strain_l', [('sg_sigma', 0), ('sg_gamma', 1)])
f('calc_y_z_u_v', 'alpha beta sigma delta_2d', [('jy', 0), ('jz', 1), ('ju', 2), ('jv', 3)])
t.known['calc_y_z_u_v']['multi'] = 4
SK = ['time_2d, time_hkl_2d = numpy.meshgrid(time, time_hkl, indexing=\'ij\')', 'exp_u[numpy.isinf(exp_u)] = 1e+200', 'exp_v[numpy.isinf(exp_v)] = 1e+200']
f('tof_Jorgensen', 'alpha beta sigma time_2d time_hkl_2d', [('jorgensen', 'ret')], assume={'skip': SK})
t2 = Tr('cryspy/A_functions_base/powder_diffraction_tof.py')
for n, a in (('exponents', True), ('maxwell', False)):
    o.append(t2.fn('calc_spectrum', [('time', ()), ('spectrum_parameters', (9,))], [('spectrum_' + n, 0)], assume={"spectrum_type == 'Empirical-Exponents'": a, 'skip': ['exp = numpy.exp']}))
hdr = '''import Mathlib.Analysis.SpecialFunctions.Gaussian.GaussianIntegral

/-!
# Model of A_functions_base/powder_diffraction_tof.py

Generated from the source by tools/gen_tof.py (see tools/py2lean.py).  Numbers are reals; the axes over points and reflections are
dropped.  `d_by_time_neg/pos/zero` are the three branches of `calc_d_by_time_for_thermal_neutrons` (Verif/Tof/Model.lean puts them
together).  The statements that replace an infinite exponential by 1e200 are left out: a real exponential is finite.
-/

set_option linter.unusedVariables false

namespace Cryspy.Tof

/-- `scipy.special.erfc`: the complementary error function. -/
noncomputable def erfc (x : ℝ) : ℝ := 2 / Real.sqrt Real.pi * ∫ t in Set.Ioi x, Real.exp (-t ^ 2)

'''
open('/verif/lean/Verif/Gen/Tof.lean', 'w').write(hdr + "\n".join(o) + "\nend Cryspy.Tof\n")
