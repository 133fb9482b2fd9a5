#!/usr/bin/env python3
"""Generates lean/Verif/Gen/PowderIint.lean from /repo."""
import sys; sys.path.insert(0, '/verif/tools')
from py2lean import Tr
t = Tr('cryspy/A_functions_base/integrated_intensity_powder_diffraction.py')
T, F, M = ('tensor_sigma', ('c', (9,))), ('f_nucl', ('c', ())), ('f_m_perp', ('c', (3,)))
TD = ['tensor_sigma_real', 'tensor_sigma_imag']; FD = ['f_nucl_real', 'f_nucl_imag']; MD = ['f_m_perp_real', 'f_m_perp_imag']
o = []
def term(name, args, lean, ders):
    o.append(t.fn(name, args, [(lean, 0)] + [(f'd_{lean}_{k}', k) for k in ders]))
term('calc_m_sq_sin_sq_para', [T], 'P1', TD)
term('calc_m_sq_cos_sq_para', [T], 'P2', TD)
term('calc_cross_term_para', [F, T], 'P3', FD + TD)
term('calc_chiral_term_cos_sin_sq_para', [T], 'P4', TD)
term('calc_chiral_term_cos_cube_para', [T], 'P5', TD)
term('calc_cross_term_ordered', [F, M], 'O1', FD + MD)
term('calc_chiral_term_ordered', [M], 'O2', MD)
term('calc_m_sq_mix', [T, M], 'M1', TD + MD)
term('calc_chiral_term_sin_sq_mix', [T, M], 'M2', TD + MD)
term('calc_chiral_term_cos_sq_mix', [T, M], 'M3', TD + MD)
P, E, H, AL = ('polarization', ()), ('flipper', ()), ('magnetic_field', ()), ('alpha_det', ())
pm = lambda pre, ks, only=('plus', 'minus'): [(f'd_{pre}_{s}_{k}', f'dder_{s}/{k}') for k in ks for s in only]
o.append(t.fn('calc_powder_iint_1d_para', [F, T, P, E, H], [('para_plus', 0), ('para_minus', 1)] + pm('para', ['polarization'] + FD + TD) + pm('para', ['flipper'], ('minus',)), drop=True))
t.known['calc_powder_iint_1d_para']['plusminus'] = True
o.append(t.fn('calc_powder_iint_1d_ordered', [F, M], [('ordered', 0)] + [(f'd_ordered_{k}', k) for k in FD + MD], drop=True))
o.append(t.fn('calc_powder_iint_1d_mix', [F, M, T, P, E, H], [('mix_plus', 0), ('mix_minus', 1)] +
   pm('mix', ['polarization', 'f_nucl_real', 'f_m_perp_ordered_real', 'f_m_perp_ordered_imag'] + TD), assume={'flag_flipper': False, 'flag_magnetic_field': False}, drop=True))
BP, FE = ('beam_polarization', ()), ('flipper_efficiency', ())
SK = {'skip': tuple(f'{d}["{k}"] = {k}'.replace('"', "'") for d in ('dict_in_out', 'dict_in_out_phase') for k in ('p_1','p_2','p_3','p_4','p_5','o_1','o_2','m_1','m_2','m_3'))}
o.append(t.fn('calc_powder_iint_2d_para', [F, T, BP, FE, H, AL], [('para2_plus', 0), ('para2_minus', 1)] + pm('para2', ['beam_polarization'] + FD) + pm('para2', ['flipper_efficiency'], ('minus',)), assume=SK, drop=True))
o.append(t.fn('calc_powder_iint_2d_ordered', [F, M, BP, FE, AL], [('ordered2_plus', 0), ('ordered2_minus', 1)] + pm('ordered2', ['beam_polarization'] + FD) + pm('ordered2', ['flipper_efficiency'], ('minus',)), assume=SK, drop=True))
MO = ('f_m_perp_ordered', ('c', (3,)))
o.append(t.fn('calc_powder_iint_2d_mix', [F, T, MO, BP, FE, H, AL], [('mix2_plus', 0), ('mix2_minus', 1)], assume=SK, drop=True))
hdr = '''import Mathlib.Analysis.SpecialFunctions.Trigonometric.Basic
import Mathlib.Data.Fin.VecNotation

/-!
# Model of A_functions_base/integrated_intensity_powder_diffraction.py

Generated from the source by tools/gen_iint.py (see tools/py2lean.py).  A complex argument is given by its real and imaginary
part.  Axes over reflections and detector points are dropped.  Numbers are reals.  Entries of the derivative dictionaries that
the program sets to `None`, and the branches `flag_flipper`, `flag_magnetic_field` of `calc_powder_iint_1d_mix` (they raise
`KeyError`), are not there.
-/

namespace Cryspy.PowInt

'''
open('/verif/lean/Verif/Gen/PowderIint.lean', 'w').write(hdr + "\n".join(o) + "\nend Cryspy.PowInt\n")
