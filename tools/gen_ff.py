#!/usr/bin/env python3
"""Generates lean/Verif/Gen/FormFactor.lean from /repo."""
import sys; sys.path.insert(0, '/verif/tools')
from py2lean import Tr
t = Tr('cryspy/A_functions_base/magnetic_form_factor.py')
o = []
S, K = ('sthovl', ()), ('kappa', ())
o.append(t.fn('calc_j0', [S, K, ('j0_parameters', (7,))], [('j0', 0), ('d_j0_sthovl', 'sthovl'), ('d_j0_kappa', 'kappa')]))
o.append(t.fn('calc_j2', [S, K, ('j2_parameters', (7,))], [('j2', 0), ('d_j2_sthovl', 'sthovl'), ('d_j2_kappa', 'kappa')]))
A = [S, ('lande_factor', ()), K, ('j0_parameters', (7,)), ('j2_parameters', (7,))]
o.append(t.fn('calc_form_factor', A, [('ff', 0), ('d_ff_sthovl', 'sthovl'), ('d_ff_kappa', 'kappa'), ('d_ff_lande', 'lande_factor')], assume={'flag_only_orbital': False}))
o.append(t.fn('calc_form_factor', A, [('ffOrb', 0), ('d_ffOrb_sthovl', 'sthovl'), ('d_ffOrb_kappa', 'kappa'), ('d_ffOrb_lande', 'lande_factor')], assume={'flag_only_orbital': True}))
hdr = '''import Mathlib.Analysis.SpecialFunctions.Exp
import Mathlib.Data.Fin.VecNotation

/-!
# Model of A_functions_base/magnetic_form_factor.py

Generated from the source by tools/gen_ff.py (see tools/py2lean.py).  Axes over reflections and atoms are dropped.  Numbers are
reals.  `ffOrb` is `calc_form_factor` with `flag_only_orbital`.
-/

namespace Cryspy.FF

open Real

'''
open('/verif/lean/Verif/Gen/FormFactor.lean', 'w').write(hdr + "\n".join(o) + "\nend Cryspy.FF\n")
