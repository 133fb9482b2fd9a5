import Mathlib.Data.Real.Basic
import Mathlib.Data.Fin.VecNotation

/-!
# Model of A_functions_base/flip_ratio.py

Generated from the source by tools/gen_flip.py (see tools/py2lean.py).  A complex argument is given by its real and imaginary
part.  `…_none` is the function without an extinction function; otherwise `y` is the extinction function, `dy` its reported
derivative over the squared structure factor and `dk` its reported derivative over any other key.  `flip_ratio2` and
`asymmetry2` are the functions with a second-harmonic contribution.  Axes over reflections are dropped.  Numbers are reals.
-/

namespace Cryspy.Flip

/-- `calc_iint`, output `0`, A_functions_base/flip_ratio.py:5-335. -/
noncomputable def calc_iint_plus_none (beam_polarization : ℝ) (flipper_efficiency : ℝ) (f_nucl_re f_nucl_im : ℝ) (f_m_perp_re f_m_perp_im : Fin 3 → ℝ) (axis_z : Fin 3 → ℝ) : ℝ :=
  let f_m_perp_sq : ℝ := f_m_perp_re 0 ^ 2 + f_m_perp_re 1 ^ 2 + f_m_perp_re 2 ^ 2 + (f_m_perp_im 0 ^ 2 + f_m_perp_im 1 ^ 2 + f_m_perp_im 2 ^ 2)
  let f_m_perp_zlab_re : ℝ := f_m_perp_re 0 * axis_z 0 + f_m_perp_re 1 * axis_z 1 + f_m_perp_re 2 * axis_z 2
  let f_m_perp_zlab_im : ℝ := f_m_perp_im 0 * axis_z 0 + f_m_perp_im 1 * axis_z 1 + f_m_perp_im 2 * axis_z 2
  let f_m_perp_zlab_sq : ℝ := f_m_perp_zlab_re ^ 2 + f_m_perp_zlab_im ^ 2
  let f_plus_re : ℝ := f_nucl_re + f_m_perp_zlab_re
  let f_plus_im : ℝ := f_nucl_im + f_m_perp_zlab_im
  let f_minus_re : ℝ := f_nucl_re - f_m_perp_zlab_re
  let f_minus_im : ℝ := f_nucl_im - f_m_perp_zlab_im
  let f_plus_sq : ℝ := f_plus_re ^ 2 + f_plus_im ^ 2
  let f_minus_sq : ℝ := f_minus_re ^ 2 + f_minus_im ^ 2
  let f_m_perp_xy_sq : ℝ := f_m_perp_sq - f_m_perp_zlab_sq
  let chiral_term : ℝ := 2 * (axis_z 0 * (f_m_perp_im 1 * f_m_perp_re 2 - f_m_perp_re 1 * f_m_perp_im 2) + axis_z 1 * (f_m_perp_im 2 * f_m_perp_re 0 - f_m_perp_re 2 * f_m_perp_im 0) + axis_z 2 * (f_m_perp_im 0 * f_m_perp_re 1 - f_m_perp_re 0 * f_m_perp_im 1))
  let iint_plus : ℝ := (1 / 2) * ((1 + beam_polarization) * 1 * f_plus_sq + (1 - beam_polarization) * 1 * f_minus_sq) + 1 * f_m_perp_xy_sq + beam_polarization * chiral_term
  iint_plus

/-- `calc_iint`, output `1`, A_functions_base/flip_ratio.py:5-335. -/
noncomputable def calc_iint_minus_none (beam_polarization : ℝ) (flipper_efficiency : ℝ) (f_nucl_re f_nucl_im : ℝ) (f_m_perp_re f_m_perp_im : Fin 3 → ℝ) (axis_z : Fin 3 → ℝ) : ℝ :=
  let p_d : ℝ := beam_polarization * (2 * flipper_efficiency - 1)
  let f_m_perp_sq : ℝ := f_m_perp_re 0 ^ 2 + f_m_perp_re 1 ^ 2 + f_m_perp_re 2 ^ 2 + (f_m_perp_im 0 ^ 2 + f_m_perp_im 1 ^ 2 + f_m_perp_im 2 ^ 2)
  let f_m_perp_zlab_re : ℝ := f_m_perp_re 0 * axis_z 0 + f_m_perp_re 1 * axis_z 1 + f_m_perp_re 2 * axis_z 2
  let f_m_perp_zlab_im : ℝ := f_m_perp_im 0 * axis_z 0 + f_m_perp_im 1 * axis_z 1 + f_m_perp_im 2 * axis_z 2
  let f_m_perp_zlab_sq : ℝ := f_m_perp_zlab_re ^ 2 + f_m_perp_zlab_im ^ 2
  let f_plus_re : ℝ := f_nucl_re + f_m_perp_zlab_re
  let f_plus_im : ℝ := f_nucl_im + f_m_perp_zlab_im
  let f_minus_re : ℝ := f_nucl_re - f_m_perp_zlab_re
  let f_minus_im : ℝ := f_nucl_im - f_m_perp_zlab_im
  let f_plus_sq : ℝ := f_plus_re ^ 2 + f_plus_im ^ 2
  let f_minus_sq : ℝ := f_minus_re ^ 2 + f_minus_im ^ 2
  let f_m_perp_xy_sq : ℝ := f_m_perp_sq - f_m_perp_zlab_sq
  let chiral_term : ℝ := 2 * (axis_z 0 * (f_m_perp_im 1 * f_m_perp_re 2 - f_m_perp_re 1 * f_m_perp_im 2) + axis_z 1 * (f_m_perp_im 2 * f_m_perp_re 0 - f_m_perp_re 2 * f_m_perp_im 0) + axis_z 2 * (f_m_perp_im 0 * f_m_perp_re 1 - f_m_perp_re 0 * f_m_perp_im 1))
  let iint_minus : ℝ := (1 / 2) * ((1 - p_d) * 1 * f_plus_sq + (1 + p_d) * 1 * f_minus_sq) + 1 * f_m_perp_xy_sq - p_d * chiral_term
  iint_minus

/-- `calc_iint`, output `dder_plus/beam_polarization`, A_functions_base/flip_ratio.py:5-335. -/
noncomputable def d_plus_none_P (beam_polarization : ℝ) (flipper_efficiency : ℝ) (f_nucl_re f_nucl_im : ℝ) (f_m_perp_re f_m_perp_im : Fin 3 → ℝ) (axis_z : Fin 3 → ℝ) : ℝ :=
  let f_m_perp_zlab_re : ℝ := f_m_perp_re 0 * axis_z 0 + f_m_perp_re 1 * axis_z 1 + f_m_perp_re 2 * axis_z 2
  let f_m_perp_zlab_im : ℝ := f_m_perp_im 0 * axis_z 0 + f_m_perp_im 1 * axis_z 1 + f_m_perp_im 2 * axis_z 2
  let f_plus_re : ℝ := f_nucl_re + f_m_perp_zlab_re
  let f_plus_im : ℝ := f_nucl_im + f_m_perp_zlab_im
  let f_minus_re : ℝ := f_nucl_re - f_m_perp_zlab_re
  let f_minus_im : ℝ := f_nucl_im - f_m_perp_zlab_im
  let f_plus_sq : ℝ := f_plus_re ^ 2 + f_plus_im ^ 2
  let f_minus_sq : ℝ := f_minus_re ^ 2 + f_minus_im ^ 2
  let chiral_term : ℝ := 2 * (axis_z 0 * (f_m_perp_im 1 * f_m_perp_re 2 - f_m_perp_re 1 * f_m_perp_im 2) + axis_z 1 * (f_m_perp_im 2 * f_m_perp_re 0 - f_m_perp_re 2 * f_m_perp_im 0) + axis_z 2 * (f_m_perp_im 0 * f_m_perp_re 1 - f_m_perp_re 0 * f_m_perp_im 1))
  (1 / 2) * (1 * f_plus_sq - 1 * f_minus_sq + 2 * chiral_term) * 1

/-- `calc_iint`, output `dder_minus/beam_polarization`, A_functions_base/flip_ratio.py:5-335. -/
noncomputable def d_minus_none_P (beam_polarization : ℝ) (flipper_efficiency : ℝ) (f_nucl_re f_nucl_im : ℝ) (f_m_perp_re f_m_perp_im : Fin 3 → ℝ) (axis_z : Fin 3 → ℝ) : ℝ :=
  let f_m_perp_zlab_re : ℝ := f_m_perp_re 0 * axis_z 0 + f_m_perp_re 1 * axis_z 1 + f_m_perp_re 2 * axis_z 2
  let f_m_perp_zlab_im : ℝ := f_m_perp_im 0 * axis_z 0 + f_m_perp_im 1 * axis_z 1 + f_m_perp_im 2 * axis_z 2
  let f_plus_re : ℝ := f_nucl_re + f_m_perp_zlab_re
  let f_plus_im : ℝ := f_nucl_im + f_m_perp_zlab_im
  let f_minus_re : ℝ := f_nucl_re - f_m_perp_zlab_re
  let f_minus_im : ℝ := f_nucl_im - f_m_perp_zlab_im
  let f_plus_sq : ℝ := f_plus_re ^ 2 + f_plus_im ^ 2
  let f_minus_sq : ℝ := f_minus_re ^ 2 + f_minus_im ^ 2
  let chiral_term : ℝ := 2 * (axis_z 0 * (f_m_perp_im 1 * f_m_perp_re 2 - f_m_perp_re 1 * f_m_perp_im 2) + axis_z 1 * (f_m_perp_im 2 * f_m_perp_re 0 - f_m_perp_re 2 * f_m_perp_im 0) + axis_z 2 * (f_m_perp_im 0 * f_m_perp_re 1 - f_m_perp_re 0 * f_m_perp_im 1))
  (1 / 2) * (-1 * f_plus_sq + 1 * f_minus_sq - 2 * chiral_term) * 1 * (2 * flipper_efficiency - 1)

/-- `calc_iint`, output `dder_minus/flipper_efficiency`, A_functions_base/flip_ratio.py:5-335. -/
noncomputable def d_minus_none_e (beam_polarization : ℝ) (flipper_efficiency : ℝ) (f_nucl_re f_nucl_im : ℝ) (f_m_perp_re f_m_perp_im : Fin 3 → ℝ) (axis_z : Fin 3 → ℝ) : ℝ :=
  let f_m_perp_zlab_re : ℝ := f_m_perp_re 0 * axis_z 0 + f_m_perp_re 1 * axis_z 1 + f_m_perp_re 2 * axis_z 2
  let f_m_perp_zlab_im : ℝ := f_m_perp_im 0 * axis_z 0 + f_m_perp_im 1 * axis_z 1 + f_m_perp_im 2 * axis_z 2
  let f_plus_re : ℝ := f_nucl_re + f_m_perp_zlab_re
  let f_plus_im : ℝ := f_nucl_im + f_m_perp_zlab_im
  let f_minus_re : ℝ := f_nucl_re - f_m_perp_zlab_re
  let f_minus_im : ℝ := f_nucl_im - f_m_perp_zlab_im
  let f_plus_sq : ℝ := f_plus_re ^ 2 + f_plus_im ^ 2
  let f_minus_sq : ℝ := f_minus_re ^ 2 + f_minus_im ^ 2
  let chiral_term : ℝ := 2 * (axis_z 0 * (f_m_perp_im 1 * f_m_perp_re 2 - f_m_perp_re 1 * f_m_perp_im 2) + axis_z 1 * (f_m_perp_im 2 * f_m_perp_re 0 - f_m_perp_re 2 * f_m_perp_im 0) + axis_z 2 * (f_m_perp_im 0 * f_m_perp_re 1 - f_m_perp_re 0 * f_m_perp_im 1))
  beam_polarization * (-1 * f_plus_sq + 1 * f_minus_sq - 2 * chiral_term) * 1

/-- `calc_iint`, output `dder_plus/f_nucl_real`, A_functions_base/flip_ratio.py:5-335. -/
noncomputable def d_plus_none_f_nucl_real (beam_polarization : ℝ) (flipper_efficiency : ℝ) (f_nucl_re f_nucl_im : ℝ) (f_m_perp_re f_m_perp_im : Fin 3 → ℝ) (axis_z : Fin 3 → ℝ) : ℝ :=
  let f_m_perp_zlab_re : ℝ := f_m_perp_re 0 * axis_z 0 + f_m_perp_re 1 * axis_z 1 + f_m_perp_re 2 * axis_z 2
  let f_m_perp_zlab_im : ℝ := f_m_perp_im 0 * axis_z 0 + f_m_perp_im 1 * axis_z 1 + f_m_perp_im 2 * axis_z 2
  let f_plus_re : ℝ := f_nucl_re + f_m_perp_zlab_re
  let f_plus_im : ℝ := f_nucl_im + f_m_perp_zlab_im
  let f_minus_re : ℝ := f_nucl_re - f_m_perp_zlab_re
  let f_minus_im : ℝ := f_nucl_im - f_m_perp_zlab_im
  let f_plus_sq : ℝ := f_plus_re ^ 2 + f_plus_im ^ 2
  let f_minus_sq : ℝ := f_minus_re ^ 2 + f_minus_im ^ 2
  let f_plus_sq_f_n_real : ℝ := 2 * f_plus_re
  let f_minus_sq_f_n_real : ℝ := 2 * f_minus_re
  (1 / 2) * ((1 + beam_polarization) * (1 * f_plus_sq_f_n_real + 0 * f_plus_sq) + (1 - beam_polarization) * (1 * f_minus_sq_f_n_real + 0 * f_minus_sq))

/-- `calc_iint`, output `dder_minus/f_nucl_real`, A_functions_base/flip_ratio.py:5-335. -/
noncomputable def d_minus_none_f_nucl_real (beam_polarization : ℝ) (flipper_efficiency : ℝ) (f_nucl_re f_nucl_im : ℝ) (f_m_perp_re f_m_perp_im : Fin 3 → ℝ) (axis_z : Fin 3 → ℝ) : ℝ :=
  let p_d : ℝ := beam_polarization * (2 * flipper_efficiency - 1)
  let f_m_perp_zlab_re : ℝ := f_m_perp_re 0 * axis_z 0 + f_m_perp_re 1 * axis_z 1 + f_m_perp_re 2 * axis_z 2
  let f_m_perp_zlab_im : ℝ := f_m_perp_im 0 * axis_z 0 + f_m_perp_im 1 * axis_z 1 + f_m_perp_im 2 * axis_z 2
  let f_plus_re : ℝ := f_nucl_re + f_m_perp_zlab_re
  let f_plus_im : ℝ := f_nucl_im + f_m_perp_zlab_im
  let f_minus_re : ℝ := f_nucl_re - f_m_perp_zlab_re
  let f_minus_im : ℝ := f_nucl_im - f_m_perp_zlab_im
  let f_plus_sq : ℝ := f_plus_re ^ 2 + f_plus_im ^ 2
  let f_minus_sq : ℝ := f_minus_re ^ 2 + f_minus_im ^ 2
  let f_plus_sq_f_n_real : ℝ := 2 * f_plus_re
  let f_minus_sq_f_n_real : ℝ := 2 * f_minus_re
  (1 / 2) * ((1 - p_d) * (1 * f_plus_sq_f_n_real + 0 * f_plus_sq) + (1 + p_d) * (1 * f_minus_sq_f_n_real + 0 * f_minus_sq))

/-- `calc_iint`, output `dder_plus/f_nucl_imag`, A_functions_base/flip_ratio.py:5-335. -/
noncomputable def d_plus_none_f_nucl_imag (beam_polarization : ℝ) (flipper_efficiency : ℝ) (f_nucl_re f_nucl_im : ℝ) (f_m_perp_re f_m_perp_im : Fin 3 → ℝ) (axis_z : Fin 3 → ℝ) : ℝ :=
  let f_m_perp_zlab_re : ℝ := f_m_perp_re 0 * axis_z 0 + f_m_perp_re 1 * axis_z 1 + f_m_perp_re 2 * axis_z 2
  let f_m_perp_zlab_im : ℝ := f_m_perp_im 0 * axis_z 0 + f_m_perp_im 1 * axis_z 1 + f_m_perp_im 2 * axis_z 2
  let f_plus_re : ℝ := f_nucl_re + f_m_perp_zlab_re
  let f_plus_im : ℝ := f_nucl_im + f_m_perp_zlab_im
  let f_minus_re : ℝ := f_nucl_re - f_m_perp_zlab_re
  let f_minus_im : ℝ := f_nucl_im - f_m_perp_zlab_im
  let f_plus_sq : ℝ := f_plus_re ^ 2 + f_plus_im ^ 2
  let f_minus_sq : ℝ := f_minus_re ^ 2 + f_minus_im ^ 2
  let f_plus_sq_f_n_imag : ℝ := 2 * f_plus_im
  let f_minus_sq_f_n_imag : ℝ := 2 * f_minus_im
  (1 / 2) * ((1 + beam_polarization) * (1 * f_plus_sq_f_n_imag + 0 * f_plus_sq) + (1 - beam_polarization) * (1 * f_minus_sq_f_n_imag + 0 * f_minus_sq))

/-- `calc_iint`, output `dder_minus/f_nucl_imag`, A_functions_base/flip_ratio.py:5-335. -/
noncomputable def d_minus_none_f_nucl_imag (beam_polarization : ℝ) (flipper_efficiency : ℝ) (f_nucl_re f_nucl_im : ℝ) (f_m_perp_re f_m_perp_im : Fin 3 → ℝ) (axis_z : Fin 3 → ℝ) : ℝ :=
  let p_d : ℝ := beam_polarization * (2 * flipper_efficiency - 1)
  let f_m_perp_zlab_re : ℝ := f_m_perp_re 0 * axis_z 0 + f_m_perp_re 1 * axis_z 1 + f_m_perp_re 2 * axis_z 2
  let f_m_perp_zlab_im : ℝ := f_m_perp_im 0 * axis_z 0 + f_m_perp_im 1 * axis_z 1 + f_m_perp_im 2 * axis_z 2
  let f_plus_re : ℝ := f_nucl_re + f_m_perp_zlab_re
  let f_plus_im : ℝ := f_nucl_im + f_m_perp_zlab_im
  let f_minus_re : ℝ := f_nucl_re - f_m_perp_zlab_re
  let f_minus_im : ℝ := f_nucl_im - f_m_perp_zlab_im
  let f_plus_sq : ℝ := f_plus_re ^ 2 + f_plus_im ^ 2
  let f_minus_sq : ℝ := f_minus_re ^ 2 + f_minus_im ^ 2
  let f_plus_sq_f_n_imag : ℝ := 2 * f_plus_im
  let f_minus_sq_f_n_imag : ℝ := 2 * f_minus_im
  (1 / 2) * ((1 - p_d) * (1 * f_plus_sq_f_n_imag + 0 * f_plus_sq) + (1 + p_d) * (1 * f_minus_sq_f_n_imag + 0 * f_minus_sq))

/-- `calc_iint`, output `dder_plus/f_m_perp_real`, A_functions_base/flip_ratio.py:5-335. -/
noncomputable def d_plus_none_f_m_perp_real (beam_polarization : ℝ) (flipper_efficiency : ℝ) (f_nucl_re f_nucl_im : ℝ) (f_m_perp_re f_m_perp_im : Fin 3 → ℝ) (axis_z : Fin 3 → ℝ) : Fin 3 → ℝ :=
  let f_m_perp_sq : ℝ := f_m_perp_re 0 ^ 2 + f_m_perp_re 1 ^ 2 + f_m_perp_re 2 ^ 2 + (f_m_perp_im 0 ^ 2 + f_m_perp_im 1 ^ 2 + f_m_perp_im 2 ^ 2)
  let f_m_perp_zlab_re : ℝ := f_m_perp_re 0 * axis_z 0 + f_m_perp_re 1 * axis_z 1 + f_m_perp_re 2 * axis_z 2
  let f_m_perp_zlab_im : ℝ := f_m_perp_im 0 * axis_z 0 + f_m_perp_im 1 * axis_z 1 + f_m_perp_im 2 * axis_z 2
  let f_m_perp_zlab_sq : ℝ := f_m_perp_zlab_re ^ 2 + f_m_perp_zlab_im ^ 2
  let f_plus_re : ℝ := f_nucl_re + f_m_perp_zlab_re
  let f_plus_im : ℝ := f_nucl_im + f_m_perp_zlab_im
  let f_minus_re : ℝ := f_nucl_re - f_m_perp_zlab_re
  let f_minus_im : ℝ := f_nucl_im - f_m_perp_zlab_im
  let f_plus_sq : ℝ := f_plus_re ^ 2 + f_plus_im ^ 2
  let f_minus_sq : ℝ := f_minus_re ^ 2 + f_minus_im ^ 2
  let f_m_perp_xy_sq : ℝ := f_m_perp_sq - f_m_perp_zlab_sq
  let f_plus_sq_f_m_perp_x_real : ℝ := 2 * f_plus_re * axis_z 0
  let f_plus_sq_f_m_perp_y_real : ℝ := 2 * f_plus_re * axis_z 1
  let f_plus_sq_f_m_perp_z_real : ℝ := 2 * f_plus_re * axis_z 2
  let f_minus_sq_f_m_perp_x_real : ℝ := -2 * f_minus_re * axis_z 0
  let f_minus_sq_f_m_perp_y_real : ℝ := -2 * f_minus_re * axis_z 1
  let f_minus_sq_f_m_perp_z_real : ℝ := -2 * f_minus_re * axis_z 2
  let z_sq : Fin 3 → ℝ := ![axis_z 0 ^ 2, axis_z 1 ^ 2, axis_z 2 ^ 2]
  let f_m_perp_xy_sq_f_m_perp_x_real : ℝ := 2 * ((1 - z_sq 0) * f_m_perp_re 0 - axis_z 0 * (axis_z 1 * f_m_perp_re 1 + axis_z 2 * f_m_perp_re 2))
  let f_m_perp_xy_sq_f_m_perp_y_real : ℝ := 2 * ((1 - z_sq 1) * f_m_perp_re 1 - axis_z 1 * (axis_z 2 * f_m_perp_re 2 + axis_z 0 * f_m_perp_re 0))
  let f_m_perp_xy_sq_f_m_perp_z_real : ℝ := 2 * ((1 - z_sq 2) * f_m_perp_re 2 - axis_z 2 * (axis_z 0 * f_m_perp_re 0 + axis_z 1 * f_m_perp_re 1))
  let chiral_term_f_m_perp_x_real : ℝ := 2 * (axis_z 1 * f_m_perp_im 2 - axis_z 2 * f_m_perp_im 1)
  let chiral_term_f_m_perp_y_real : ℝ := -2 * (axis_z 0 * f_m_perp_im 2 - axis_z 2 * f_m_perp_im 0)
  let chiral_term_f_m_perp_z_real : ℝ := 2 * (axis_z 0 * f_m_perp_im 1 - axis_z 1 * f_m_perp_im 0)
  let dder_plus_f_m_perp_x_real : ℝ := (1 / 2) * ((1 + beam_polarization) * (1 * f_plus_sq_f_m_perp_x_real + 0 * f_plus_sq) + (1 - beam_polarization) * (1 * f_minus_sq_f_m_perp_x_real + 0 * f_minus_sq)) + 0 * f_m_perp_xy_sq + 1 * f_m_perp_xy_sq_f_m_perp_x_real + beam_polarization * chiral_term_f_m_perp_x_real
  let dder_plus_f_m_perp_y_real : ℝ := (1 / 2) * ((1 + beam_polarization) * (1 * f_plus_sq_f_m_perp_y_real + 0 * f_plus_sq) + (1 - beam_polarization) * (1 * f_minus_sq_f_m_perp_y_real + 0 * f_minus_sq)) + 0 * f_m_perp_xy_sq + 1 * f_m_perp_xy_sq_f_m_perp_y_real + beam_polarization * chiral_term_f_m_perp_y_real
  let dder_plus_f_m_perp_z_real : ℝ := (1 / 2) * ((1 + beam_polarization) * (1 * f_plus_sq_f_m_perp_z_real + 0 * f_plus_sq) + (1 - beam_polarization) * (1 * f_minus_sq_f_m_perp_z_real + 0 * f_minus_sq)) + 0 * f_m_perp_xy_sq + 1 * f_m_perp_xy_sq_f_m_perp_z_real + beam_polarization * chiral_term_f_m_perp_z_real
  ![dder_plus_f_m_perp_x_real, dder_plus_f_m_perp_y_real, dder_plus_f_m_perp_z_real]

/-- `calc_iint`, output `dder_minus/f_m_perp_real`, A_functions_base/flip_ratio.py:5-335. -/
noncomputable def d_minus_none_f_m_perp_real (beam_polarization : ℝ) (flipper_efficiency : ℝ) (f_nucl_re f_nucl_im : ℝ) (f_m_perp_re f_m_perp_im : Fin 3 → ℝ) (axis_z : Fin 3 → ℝ) : Fin 3 → ℝ :=
  let p_d : ℝ := beam_polarization * (2 * flipper_efficiency - 1)
  let f_m_perp_sq : ℝ := f_m_perp_re 0 ^ 2 + f_m_perp_re 1 ^ 2 + f_m_perp_re 2 ^ 2 + (f_m_perp_im 0 ^ 2 + f_m_perp_im 1 ^ 2 + f_m_perp_im 2 ^ 2)
  let f_m_perp_zlab_re : ℝ := f_m_perp_re 0 * axis_z 0 + f_m_perp_re 1 * axis_z 1 + f_m_perp_re 2 * axis_z 2
  let f_m_perp_zlab_im : ℝ := f_m_perp_im 0 * axis_z 0 + f_m_perp_im 1 * axis_z 1 + f_m_perp_im 2 * axis_z 2
  let f_m_perp_zlab_sq : ℝ := f_m_perp_zlab_re ^ 2 + f_m_perp_zlab_im ^ 2
  let f_plus_re : ℝ := f_nucl_re + f_m_perp_zlab_re
  let f_plus_im : ℝ := f_nucl_im + f_m_perp_zlab_im
  let f_minus_re : ℝ := f_nucl_re - f_m_perp_zlab_re
  let f_minus_im : ℝ := f_nucl_im - f_m_perp_zlab_im
  let f_plus_sq : ℝ := f_plus_re ^ 2 + f_plus_im ^ 2
  let f_minus_sq : ℝ := f_minus_re ^ 2 + f_minus_im ^ 2
  let f_m_perp_xy_sq : ℝ := f_m_perp_sq - f_m_perp_zlab_sq
  let f_plus_sq_f_m_perp_x_real : ℝ := 2 * f_plus_re * axis_z 0
  let f_plus_sq_f_m_perp_y_real : ℝ := 2 * f_plus_re * axis_z 1
  let f_plus_sq_f_m_perp_z_real : ℝ := 2 * f_plus_re * axis_z 2
  let f_minus_sq_f_m_perp_x_real : ℝ := -2 * f_minus_re * axis_z 0
  let f_minus_sq_f_m_perp_y_real : ℝ := -2 * f_minus_re * axis_z 1
  let f_minus_sq_f_m_perp_z_real : ℝ := -2 * f_minus_re * axis_z 2
  let z_sq : Fin 3 → ℝ := ![axis_z 0 ^ 2, axis_z 1 ^ 2, axis_z 2 ^ 2]
  let f_m_perp_xy_sq_f_m_perp_x_real : ℝ := 2 * ((1 - z_sq 0) * f_m_perp_re 0 - axis_z 0 * (axis_z 1 * f_m_perp_re 1 + axis_z 2 * f_m_perp_re 2))
  let f_m_perp_xy_sq_f_m_perp_y_real : ℝ := 2 * ((1 - z_sq 1) * f_m_perp_re 1 - axis_z 1 * (axis_z 2 * f_m_perp_re 2 + axis_z 0 * f_m_perp_re 0))
  let f_m_perp_xy_sq_f_m_perp_z_real : ℝ := 2 * ((1 - z_sq 2) * f_m_perp_re 2 - axis_z 2 * (axis_z 0 * f_m_perp_re 0 + axis_z 1 * f_m_perp_re 1))
  let chiral_term_f_m_perp_x_real : ℝ := 2 * (axis_z 1 * f_m_perp_im 2 - axis_z 2 * f_m_perp_im 1)
  let chiral_term_f_m_perp_y_real : ℝ := -2 * (axis_z 0 * f_m_perp_im 2 - axis_z 2 * f_m_perp_im 0)
  let chiral_term_f_m_perp_z_real : ℝ := 2 * (axis_z 0 * f_m_perp_im 1 - axis_z 1 * f_m_perp_im 0)
  let dder_minus_f_m_perp_x_real : ℝ := (1 / 2) * ((1 - p_d) * (1 * f_plus_sq_f_m_perp_x_real + 0 * f_plus_sq) + (1 + p_d) * (1 * f_minus_sq_f_m_perp_x_real + 0 * f_minus_sq)) + 0 * f_m_perp_xy_sq + 1 * f_m_perp_xy_sq_f_m_perp_x_real - p_d * chiral_term_f_m_perp_x_real
  let dder_minus_f_m_perp_y_real : ℝ := (1 / 2) * ((1 - p_d) * (1 * f_plus_sq_f_m_perp_y_real + 0 * f_plus_sq) + (1 + p_d) * (1 * f_minus_sq_f_m_perp_y_real + 0 * f_minus_sq)) + 0 * f_m_perp_xy_sq + 1 * f_m_perp_xy_sq_f_m_perp_y_real - p_d * chiral_term_f_m_perp_y_real
  let dder_minus_f_m_perp_z_real : ℝ := (1 / 2) * ((1 - p_d) * (1 * f_plus_sq_f_m_perp_z_real + 0 * f_plus_sq) + (1 + p_d) * (1 * f_minus_sq_f_m_perp_z_real + 0 * f_minus_sq)) + 0 * f_m_perp_xy_sq + 1 * f_m_perp_xy_sq_f_m_perp_z_real - p_d * chiral_term_f_m_perp_z_real
  ![dder_minus_f_m_perp_x_real, dder_minus_f_m_perp_y_real, dder_minus_f_m_perp_z_real]

/-- `calc_iint`, output `dder_plus/f_m_perp_imag`, A_functions_base/flip_ratio.py:5-335. -/
noncomputable def d_plus_none_f_m_perp_imag (beam_polarization : ℝ) (flipper_efficiency : ℝ) (f_nucl_re f_nucl_im : ℝ) (f_m_perp_re f_m_perp_im : Fin 3 → ℝ) (axis_z : Fin 3 → ℝ) : Fin 3 → ℝ :=
  let f_m_perp_sq : ℝ := f_m_perp_re 0 ^ 2 + f_m_perp_re 1 ^ 2 + f_m_perp_re 2 ^ 2 + (f_m_perp_im 0 ^ 2 + f_m_perp_im 1 ^ 2 + f_m_perp_im 2 ^ 2)
  let f_m_perp_zlab_re : ℝ := f_m_perp_re 0 * axis_z 0 + f_m_perp_re 1 * axis_z 1 + f_m_perp_re 2 * axis_z 2
  let f_m_perp_zlab_im : ℝ := f_m_perp_im 0 * axis_z 0 + f_m_perp_im 1 * axis_z 1 + f_m_perp_im 2 * axis_z 2
  let f_m_perp_zlab_sq : ℝ := f_m_perp_zlab_re ^ 2 + f_m_perp_zlab_im ^ 2
  let f_plus_re : ℝ := f_nucl_re + f_m_perp_zlab_re
  let f_plus_im : ℝ := f_nucl_im + f_m_perp_zlab_im
  let f_minus_re : ℝ := f_nucl_re - f_m_perp_zlab_re
  let f_minus_im : ℝ := f_nucl_im - f_m_perp_zlab_im
  let f_plus_sq : ℝ := f_plus_re ^ 2 + f_plus_im ^ 2
  let f_minus_sq : ℝ := f_minus_re ^ 2 + f_minus_im ^ 2
  let f_m_perp_xy_sq : ℝ := f_m_perp_sq - f_m_perp_zlab_sq
  let f_plus_sq_f_m_perp_x_imag : ℝ := 2 * f_plus_im * axis_z 0
  let f_plus_sq_f_m_perp_y_imag : ℝ := 2 * f_plus_im * axis_z 1
  let f_plus_sq_f_m_perp_z_imag : ℝ := 2 * f_plus_im * axis_z 2
  let f_minus_sq_f_m_perp_x_imag : ℝ := -2 * f_minus_im * axis_z 0
  let f_minus_sq_f_m_perp_y_imag : ℝ := -2 * f_minus_im * axis_z 1
  let f_minus_sq_f_m_perp_z_imag : ℝ := -2 * f_minus_im * axis_z 2
  let z_sq : Fin 3 → ℝ := ![axis_z 0 ^ 2, axis_z 1 ^ 2, axis_z 2 ^ 2]
  let f_m_perp_xy_sq_f_m_perp_x_imag : ℝ := 2 * ((1 - z_sq 0) * f_m_perp_im 0 - axis_z 0 * (axis_z 1 * f_m_perp_im 1 + axis_z 2 * f_m_perp_im 2))
  let f_m_perp_xy_sq_f_m_perp_y_imag : ℝ := 2 * ((1 - z_sq 1) * f_m_perp_im 1 - axis_z 1 * (axis_z 2 * f_m_perp_im 2 + axis_z 0 * f_m_perp_im 0))
  let f_m_perp_xy_sq_f_m_perp_z_imag : ℝ := 2 * ((1 - z_sq 2) * f_m_perp_im 2 - axis_z 2 * (axis_z 0 * f_m_perp_im 0 + axis_z 1 * f_m_perp_im 1))
  let chiral_term_f_m_perp_x_imag : ℝ := -2 * (axis_z 1 * f_m_perp_re 2 - axis_z 2 * f_m_perp_re 1)
  let chiral_term_f_m_perp_y_imag : ℝ := 2 * (axis_z 0 * f_m_perp_re 2 - axis_z 2 * f_m_perp_re 0)
  let chiral_term_f_m_perp_z_imag : ℝ := -2 * (axis_z 0 * f_m_perp_re 1 - axis_z 1 * f_m_perp_re 0)
  let dder_plus_f_m_perp_x_imag : ℝ := (1 / 2) * ((1 + beam_polarization) * (1 * f_plus_sq_f_m_perp_x_imag + 0 * f_plus_sq) + (1 - beam_polarization) * (1 * f_minus_sq_f_m_perp_x_imag + 0 * f_minus_sq)) + 0 * f_m_perp_xy_sq + 1 * f_m_perp_xy_sq_f_m_perp_x_imag + beam_polarization * chiral_term_f_m_perp_x_imag
  let dder_plus_f_m_perp_y_imag : ℝ := (1 / 2) * ((1 + beam_polarization) * (1 * f_plus_sq_f_m_perp_y_imag + 0 * f_plus_sq) + (1 - beam_polarization) * (1 * f_minus_sq_f_m_perp_y_imag + 0 * f_minus_sq)) + 0 * f_m_perp_xy_sq + 1 * f_m_perp_xy_sq_f_m_perp_y_imag + beam_polarization * chiral_term_f_m_perp_y_imag
  let dder_plus_f_m_perp_z_imag : ℝ := (1 / 2) * ((1 + beam_polarization) * (1 * f_plus_sq_f_m_perp_z_imag + 0 * f_plus_sq) + (1 - beam_polarization) * (1 * f_minus_sq_f_m_perp_z_imag + 0 * f_minus_sq)) + 0 * f_m_perp_xy_sq + 1 * f_m_perp_xy_sq_f_m_perp_z_imag + beam_polarization * chiral_term_f_m_perp_z_imag
  ![dder_plus_f_m_perp_x_imag, dder_plus_f_m_perp_y_imag, dder_plus_f_m_perp_z_imag]

/-- `calc_iint`, output `dder_minus/f_m_perp_imag`, A_functions_base/flip_ratio.py:5-335. -/
noncomputable def d_minus_none_f_m_perp_imag (beam_polarization : ℝ) (flipper_efficiency : ℝ) (f_nucl_re f_nucl_im : ℝ) (f_m_perp_re f_m_perp_im : Fin 3 → ℝ) (axis_z : Fin 3 → ℝ) : Fin 3 → ℝ :=
  let p_d : ℝ := beam_polarization * (2 * flipper_efficiency - 1)
  let f_m_perp_sq : ℝ := f_m_perp_re 0 ^ 2 + f_m_perp_re 1 ^ 2 + f_m_perp_re 2 ^ 2 + (f_m_perp_im 0 ^ 2 + f_m_perp_im 1 ^ 2 + f_m_perp_im 2 ^ 2)
  let f_m_perp_zlab_re : ℝ := f_m_perp_re 0 * axis_z 0 + f_m_perp_re 1 * axis_z 1 + f_m_perp_re 2 * axis_z 2
  let f_m_perp_zlab_im : ℝ := f_m_perp_im 0 * axis_z 0 + f_m_perp_im 1 * axis_z 1 + f_m_perp_im 2 * axis_z 2
  let f_m_perp_zlab_sq : ℝ := f_m_perp_zlab_re ^ 2 + f_m_perp_zlab_im ^ 2
  let f_plus_re : ℝ := f_nucl_re + f_m_perp_zlab_re
  let f_plus_im : ℝ := f_nucl_im + f_m_perp_zlab_im
  let f_minus_re : ℝ := f_nucl_re - f_m_perp_zlab_re
  let f_minus_im : ℝ := f_nucl_im - f_m_perp_zlab_im
  let f_plus_sq : ℝ := f_plus_re ^ 2 + f_plus_im ^ 2
  let f_minus_sq : ℝ := f_minus_re ^ 2 + f_minus_im ^ 2
  let f_m_perp_xy_sq : ℝ := f_m_perp_sq - f_m_perp_zlab_sq
  let f_plus_sq_f_m_perp_x_imag : ℝ := 2 * f_plus_im * axis_z 0
  let f_plus_sq_f_m_perp_y_imag : ℝ := 2 * f_plus_im * axis_z 1
  let f_plus_sq_f_m_perp_z_imag : ℝ := 2 * f_plus_im * axis_z 2
  let f_minus_sq_f_m_perp_x_imag : ℝ := -2 * f_minus_im * axis_z 0
  let f_minus_sq_f_m_perp_y_imag : ℝ := -2 * f_minus_im * axis_z 1
  let f_minus_sq_f_m_perp_z_imag : ℝ := -2 * f_minus_im * axis_z 2
  let z_sq : Fin 3 → ℝ := ![axis_z 0 ^ 2, axis_z 1 ^ 2, axis_z 2 ^ 2]
  let f_m_perp_xy_sq_f_m_perp_x_imag : ℝ := 2 * ((1 - z_sq 0) * f_m_perp_im 0 - axis_z 0 * (axis_z 1 * f_m_perp_im 1 + axis_z 2 * f_m_perp_im 2))
  let f_m_perp_xy_sq_f_m_perp_y_imag : ℝ := 2 * ((1 - z_sq 1) * f_m_perp_im 1 - axis_z 1 * (axis_z 2 * f_m_perp_im 2 + axis_z 0 * f_m_perp_im 0))
  let f_m_perp_xy_sq_f_m_perp_z_imag : ℝ := 2 * ((1 - z_sq 2) * f_m_perp_im 2 - axis_z 2 * (axis_z 0 * f_m_perp_im 0 + axis_z 1 * f_m_perp_im 1))
  let chiral_term_f_m_perp_x_imag : ℝ := -2 * (axis_z 1 * f_m_perp_re 2 - axis_z 2 * f_m_perp_re 1)
  let chiral_term_f_m_perp_y_imag : ℝ := 2 * (axis_z 0 * f_m_perp_re 2 - axis_z 2 * f_m_perp_re 0)
  let chiral_term_f_m_perp_z_imag : ℝ := -2 * (axis_z 0 * f_m_perp_re 1 - axis_z 1 * f_m_perp_re 0)
  let dder_minus_f_m_perp_x_imag : ℝ := (1 / 2) * ((1 - p_d) * (1 * f_plus_sq_f_m_perp_x_imag + 0 * f_plus_sq) + (1 + p_d) * (1 * f_minus_sq_f_m_perp_x_imag + 0 * f_minus_sq)) + 0 * f_m_perp_xy_sq + 1 * f_m_perp_xy_sq_f_m_perp_x_imag - p_d * chiral_term_f_m_perp_x_imag
  let dder_minus_f_m_perp_y_imag : ℝ := (1 / 2) * ((1 - p_d) * (1 * f_plus_sq_f_m_perp_y_imag + 0 * f_plus_sq) + (1 + p_d) * (1 * f_minus_sq_f_m_perp_y_imag + 0 * f_minus_sq)) + 0 * f_m_perp_xy_sq + 1 * f_m_perp_xy_sq_f_m_perp_y_imag - p_d * chiral_term_f_m_perp_y_imag
  let dder_minus_f_m_perp_z_imag : ℝ := (1 / 2) * ((1 - p_d) * (1 * f_plus_sq_f_m_perp_z_imag + 0 * f_plus_sq) + (1 + p_d) * (1 * f_minus_sq_f_m_perp_z_imag + 0 * f_minus_sq)) + 0 * f_m_perp_xy_sq + 1 * f_m_perp_xy_sq_f_m_perp_z_imag - p_d * chiral_term_f_m_perp_z_imag
  ![dder_minus_f_m_perp_x_imag, dder_minus_f_m_perp_y_imag, dder_minus_f_m_perp_z_imag]

/-- `calc_iint`, output `0`, A_functions_base/flip_ratio.py:5-335. -/
noncomputable def calc_iint_plus (y dy dk : ℝ → ℝ) (beam_polarization : ℝ) (flipper_efficiency : ℝ) (f_nucl_re f_nucl_im : ℝ) (f_m_perp_re f_m_perp_im : Fin 3 → ℝ) (axis_z : Fin 3 → ℝ) : ℝ :=
  let f_m_perp_sq : ℝ := f_m_perp_re 0 ^ 2 + f_m_perp_re 1 ^ 2 + f_m_perp_re 2 ^ 2 + (f_m_perp_im 0 ^ 2 + f_m_perp_im 1 ^ 2 + f_m_perp_im 2 ^ 2)
  let f_m_perp_zlab_re : ℝ := f_m_perp_re 0 * axis_z 0 + f_m_perp_re 1 * axis_z 1 + f_m_perp_re 2 * axis_z 2
  let f_m_perp_zlab_im : ℝ := f_m_perp_im 0 * axis_z 0 + f_m_perp_im 1 * axis_z 1 + f_m_perp_im 2 * axis_z 2
  let f_m_perp_zlab_sq : ℝ := f_m_perp_zlab_re ^ 2 + f_m_perp_zlab_im ^ 2
  let f_plus_re : ℝ := f_nucl_re + f_m_perp_zlab_re
  let f_plus_im : ℝ := f_nucl_im + f_m_perp_zlab_im
  let f_minus_re : ℝ := f_nucl_re - f_m_perp_zlab_re
  let f_minus_im : ℝ := f_nucl_im - f_m_perp_zlab_im
  let f_plus_sq : ℝ := f_plus_re ^ 2 + f_plus_im ^ 2
  let f_minus_sq : ℝ := f_minus_re ^ 2 + f_minus_im ^ 2
  let f_m_perp_xy_sq : ℝ := f_m_perp_sq - f_m_perp_zlab_sq
  let y_plus : ℝ := y f_plus_sq
  let y_minus : ℝ := y f_minus_sq
  let y_m_perp_xy : ℝ := y f_m_perp_xy_sq
  let chiral_term : ℝ := 2 * (axis_z 0 * (f_m_perp_im 1 * f_m_perp_re 2 - f_m_perp_re 1 * f_m_perp_im 2) + axis_z 1 * (f_m_perp_im 2 * f_m_perp_re 0 - f_m_perp_re 2 * f_m_perp_im 0) + axis_z 2 * (f_m_perp_im 0 * f_m_perp_re 1 - f_m_perp_re 0 * f_m_perp_im 1))
  let iint_plus : ℝ := (1 / 2) * ((1 + beam_polarization) * y_plus * f_plus_sq + (1 - beam_polarization) * y_minus * f_minus_sq) + y_m_perp_xy * f_m_perp_xy_sq + beam_polarization * chiral_term
  iint_plus

/-- `calc_iint`, output `1`, A_functions_base/flip_ratio.py:5-335. -/
noncomputable def calc_iint_minus (y dy dk : ℝ → ℝ) (beam_polarization : ℝ) (flipper_efficiency : ℝ) (f_nucl_re f_nucl_im : ℝ) (f_m_perp_re f_m_perp_im : Fin 3 → ℝ) (axis_z : Fin 3 → ℝ) : ℝ :=
  let p_d : ℝ := beam_polarization * (2 * flipper_efficiency - 1)
  let f_m_perp_sq : ℝ := f_m_perp_re 0 ^ 2 + f_m_perp_re 1 ^ 2 + f_m_perp_re 2 ^ 2 + (f_m_perp_im 0 ^ 2 + f_m_perp_im 1 ^ 2 + f_m_perp_im 2 ^ 2)
  let f_m_perp_zlab_re : ℝ := f_m_perp_re 0 * axis_z 0 + f_m_perp_re 1 * axis_z 1 + f_m_perp_re 2 * axis_z 2
  let f_m_perp_zlab_im : ℝ := f_m_perp_im 0 * axis_z 0 + f_m_perp_im 1 * axis_z 1 + f_m_perp_im 2 * axis_z 2
  let f_m_perp_zlab_sq : ℝ := f_m_perp_zlab_re ^ 2 + f_m_perp_zlab_im ^ 2
  let f_plus_re : ℝ := f_nucl_re + f_m_perp_zlab_re
  let f_plus_im : ℝ := f_nucl_im + f_m_perp_zlab_im
  let f_minus_re : ℝ := f_nucl_re - f_m_perp_zlab_re
  let f_minus_im : ℝ := f_nucl_im - f_m_perp_zlab_im
  let f_plus_sq : ℝ := f_plus_re ^ 2 + f_plus_im ^ 2
  let f_minus_sq : ℝ := f_minus_re ^ 2 + f_minus_im ^ 2
  let f_m_perp_xy_sq : ℝ := f_m_perp_sq - f_m_perp_zlab_sq
  let y_plus : ℝ := y f_plus_sq
  let y_minus : ℝ := y f_minus_sq
  let y_m_perp_xy : ℝ := y f_m_perp_xy_sq
  let chiral_term : ℝ := 2 * (axis_z 0 * (f_m_perp_im 1 * f_m_perp_re 2 - f_m_perp_re 1 * f_m_perp_im 2) + axis_z 1 * (f_m_perp_im 2 * f_m_perp_re 0 - f_m_perp_re 2 * f_m_perp_im 0) + axis_z 2 * (f_m_perp_im 0 * f_m_perp_re 1 - f_m_perp_re 0 * f_m_perp_im 1))
  let iint_minus : ℝ := (1 / 2) * ((1 - p_d) * y_plus * f_plus_sq + (1 + p_d) * y_minus * f_minus_sq) + y_m_perp_xy * f_m_perp_xy_sq - p_d * chiral_term
  iint_minus

/-- `calc_iint`, output `var:chiral_term`, A_functions_base/flip_ratio.py:5-335. -/
noncomputable def calc_chiral_term (y dy dk : ℝ → ℝ) (beam_polarization : ℝ) (flipper_efficiency : ℝ) (f_nucl_re f_nucl_im : ℝ) (f_m_perp_re f_m_perp_im : Fin 3 → ℝ) (axis_z : Fin 3 → ℝ) : ℝ :=
  let chiral_term : ℝ := 2 * (axis_z 0 * (f_m_perp_im 1 * f_m_perp_re 2 - f_m_perp_re 1 * f_m_perp_im 2) + axis_z 1 * (f_m_perp_im 2 * f_m_perp_re 0 - f_m_perp_re 2 * f_m_perp_im 0) + axis_z 2 * (f_m_perp_im 0 * f_m_perp_re 1 - f_m_perp_re 0 * f_m_perp_im 1))
  chiral_term

/-- `calc_iint`, output `dder_plus/beam_polarization`, A_functions_base/flip_ratio.py:5-335. -/
noncomputable def d_plus_P (y dy dk : ℝ → ℝ) (beam_polarization : ℝ) (flipper_efficiency : ℝ) (f_nucl_re f_nucl_im : ℝ) (f_m_perp_re f_m_perp_im : Fin 3 → ℝ) (axis_z : Fin 3 → ℝ) : ℝ :=
  let f_m_perp_zlab_re : ℝ := f_m_perp_re 0 * axis_z 0 + f_m_perp_re 1 * axis_z 1 + f_m_perp_re 2 * axis_z 2
  let f_m_perp_zlab_im : ℝ := f_m_perp_im 0 * axis_z 0 + f_m_perp_im 1 * axis_z 1 + f_m_perp_im 2 * axis_z 2
  let f_plus_re : ℝ := f_nucl_re + f_m_perp_zlab_re
  let f_plus_im : ℝ := f_nucl_im + f_m_perp_zlab_im
  let f_minus_re : ℝ := f_nucl_re - f_m_perp_zlab_re
  let f_minus_im : ℝ := f_nucl_im - f_m_perp_zlab_im
  let f_plus_sq : ℝ := f_plus_re ^ 2 + f_plus_im ^ 2
  let f_minus_sq : ℝ := f_minus_re ^ 2 + f_minus_im ^ 2
  let y_plus : ℝ := y f_plus_sq
  let y_minus : ℝ := y f_minus_sq
  let chiral_term : ℝ := 2 * (axis_z 0 * (f_m_perp_im 1 * f_m_perp_re 2 - f_m_perp_re 1 * f_m_perp_im 2) + axis_z 1 * (f_m_perp_im 2 * f_m_perp_re 0 - f_m_perp_re 2 * f_m_perp_im 0) + axis_z 2 * (f_m_perp_im 0 * f_m_perp_re 1 - f_m_perp_re 0 * f_m_perp_im 1))
  (1 / 2) * (y_plus * f_plus_sq - y_minus * f_minus_sq + 2 * chiral_term) * 1

/-- `calc_iint`, output `dder_minus/beam_polarization`, A_functions_base/flip_ratio.py:5-335. -/
noncomputable def d_minus_P (y dy dk : ℝ → ℝ) (beam_polarization : ℝ) (flipper_efficiency : ℝ) (f_nucl_re f_nucl_im : ℝ) (f_m_perp_re f_m_perp_im : Fin 3 → ℝ) (axis_z : Fin 3 → ℝ) : ℝ :=
  let f_m_perp_zlab_re : ℝ := f_m_perp_re 0 * axis_z 0 + f_m_perp_re 1 * axis_z 1 + f_m_perp_re 2 * axis_z 2
  let f_m_perp_zlab_im : ℝ := f_m_perp_im 0 * axis_z 0 + f_m_perp_im 1 * axis_z 1 + f_m_perp_im 2 * axis_z 2
  let f_plus_re : ℝ := f_nucl_re + f_m_perp_zlab_re
  let f_plus_im : ℝ := f_nucl_im + f_m_perp_zlab_im
  let f_minus_re : ℝ := f_nucl_re - f_m_perp_zlab_re
  let f_minus_im : ℝ := f_nucl_im - f_m_perp_zlab_im
  let f_plus_sq : ℝ := f_plus_re ^ 2 + f_plus_im ^ 2
  let f_minus_sq : ℝ := f_minus_re ^ 2 + f_minus_im ^ 2
  let y_plus : ℝ := y f_plus_sq
  let y_minus : ℝ := y f_minus_sq
  let chiral_term : ℝ := 2 * (axis_z 0 * (f_m_perp_im 1 * f_m_perp_re 2 - f_m_perp_re 1 * f_m_perp_im 2) + axis_z 1 * (f_m_perp_im 2 * f_m_perp_re 0 - f_m_perp_re 2 * f_m_perp_im 0) + axis_z 2 * (f_m_perp_im 0 * f_m_perp_re 1 - f_m_perp_re 0 * f_m_perp_im 1))
  (1 / 2) * (-y_plus * f_plus_sq + y_minus * f_minus_sq - 2 * chiral_term) * 1 * (2 * flipper_efficiency - 1)

/-- `calc_iint`, output `dder_minus/flipper_efficiency`, A_functions_base/flip_ratio.py:5-335. -/
noncomputable def d_minus_e (y dy dk : ℝ → ℝ) (beam_polarization : ℝ) (flipper_efficiency : ℝ) (f_nucl_re f_nucl_im : ℝ) (f_m_perp_re f_m_perp_im : Fin 3 → ℝ) (axis_z : Fin 3 → ℝ) : ℝ :=
  let f_m_perp_zlab_re : ℝ := f_m_perp_re 0 * axis_z 0 + f_m_perp_re 1 * axis_z 1 + f_m_perp_re 2 * axis_z 2
  let f_m_perp_zlab_im : ℝ := f_m_perp_im 0 * axis_z 0 + f_m_perp_im 1 * axis_z 1 + f_m_perp_im 2 * axis_z 2
  let f_plus_re : ℝ := f_nucl_re + f_m_perp_zlab_re
  let f_plus_im : ℝ := f_nucl_im + f_m_perp_zlab_im
  let f_minus_re : ℝ := f_nucl_re - f_m_perp_zlab_re
  let f_minus_im : ℝ := f_nucl_im - f_m_perp_zlab_im
  let f_plus_sq : ℝ := f_plus_re ^ 2 + f_plus_im ^ 2
  let f_minus_sq : ℝ := f_minus_re ^ 2 + f_minus_im ^ 2
  let y_plus : ℝ := y f_plus_sq
  let y_minus : ℝ := y f_minus_sq
  let chiral_term : ℝ := 2 * (axis_z 0 * (f_m_perp_im 1 * f_m_perp_re 2 - f_m_perp_re 1 * f_m_perp_im 2) + axis_z 1 * (f_m_perp_im 2 * f_m_perp_re 0 - f_m_perp_re 2 * f_m_perp_im 0) + axis_z 2 * (f_m_perp_im 0 * f_m_perp_re 1 - f_m_perp_re 0 * f_m_perp_im 1))
  beam_polarization * (-y_plus * f_plus_sq + y_minus * f_minus_sq - 2 * chiral_term) * 1

/-- `calc_iint`, output `dder_plus/f_nucl_real`, A_functions_base/flip_ratio.py:5-335. -/
noncomputable def d_plus_f_nucl_real (y dy dk : ℝ → ℝ) (beam_polarization : ℝ) (flipper_efficiency : ℝ) (f_nucl_re f_nucl_im : ℝ) (f_m_perp_re f_m_perp_im : Fin 3 → ℝ) (axis_z : Fin 3 → ℝ) : ℝ :=
  let f_m_perp_zlab_re : ℝ := f_m_perp_re 0 * axis_z 0 + f_m_perp_re 1 * axis_z 1 + f_m_perp_re 2 * axis_z 2
  let f_m_perp_zlab_im : ℝ := f_m_perp_im 0 * axis_z 0 + f_m_perp_im 1 * axis_z 1 + f_m_perp_im 2 * axis_z 2
  let f_plus_re : ℝ := f_nucl_re + f_m_perp_zlab_re
  let f_plus_im : ℝ := f_nucl_im + f_m_perp_zlab_im
  let f_minus_re : ℝ := f_nucl_re - f_m_perp_zlab_re
  let f_minus_im : ℝ := f_nucl_im - f_m_perp_zlab_im
  let f_plus_sq : ℝ := f_plus_re ^ 2 + f_plus_im ^ 2
  let f_minus_sq : ℝ := f_minus_re ^ 2 + f_minus_im ^ 2
  let y_plus : ℝ := y f_plus_sq
  let y_minus : ℝ := y f_minus_sq
  let f_plus_sq_f_n_real : ℝ := 2 * f_plus_re
  let f_minus_sq_f_n_real : ℝ := 2 * f_minus_re
  let y_plus_f_n_real : ℝ := dy f_plus_sq * f_plus_sq_f_n_real
  let y_minus_f_n_real : ℝ := dy f_minus_sq * f_minus_sq_f_n_real
  (1 / 2) * ((1 + beam_polarization) * (y_plus * f_plus_sq_f_n_real + y_plus_f_n_real * f_plus_sq) + (1 - beam_polarization) * (y_minus * f_minus_sq_f_n_real + y_minus_f_n_real * f_minus_sq))

/-- `calc_iint`, output `dder_minus/f_nucl_real`, A_functions_base/flip_ratio.py:5-335. -/
noncomputable def d_minus_f_nucl_real (y dy dk : ℝ → ℝ) (beam_polarization : ℝ) (flipper_efficiency : ℝ) (f_nucl_re f_nucl_im : ℝ) (f_m_perp_re f_m_perp_im : Fin 3 → ℝ) (axis_z : Fin 3 → ℝ) : ℝ :=
  let p_d : ℝ := beam_polarization * (2 * flipper_efficiency - 1)
  let f_m_perp_zlab_re : ℝ := f_m_perp_re 0 * axis_z 0 + f_m_perp_re 1 * axis_z 1 + f_m_perp_re 2 * axis_z 2
  let f_m_perp_zlab_im : ℝ := f_m_perp_im 0 * axis_z 0 + f_m_perp_im 1 * axis_z 1 + f_m_perp_im 2 * axis_z 2
  let f_plus_re : ℝ := f_nucl_re + f_m_perp_zlab_re
  let f_plus_im : ℝ := f_nucl_im + f_m_perp_zlab_im
  let f_minus_re : ℝ := f_nucl_re - f_m_perp_zlab_re
  let f_minus_im : ℝ := f_nucl_im - f_m_perp_zlab_im
  let f_plus_sq : ℝ := f_plus_re ^ 2 + f_plus_im ^ 2
  let f_minus_sq : ℝ := f_minus_re ^ 2 + f_minus_im ^ 2
  let y_plus : ℝ := y f_plus_sq
  let y_minus : ℝ := y f_minus_sq
  let f_plus_sq_f_n_real : ℝ := 2 * f_plus_re
  let f_minus_sq_f_n_real : ℝ := 2 * f_minus_re
  let y_plus_f_n_real : ℝ := dy f_plus_sq * f_plus_sq_f_n_real
  let y_minus_f_n_real : ℝ := dy f_minus_sq * f_minus_sq_f_n_real
  (1 / 2) * ((1 - p_d) * (y_plus * f_plus_sq_f_n_real + y_plus_f_n_real * f_plus_sq) + (1 + p_d) * (y_minus * f_minus_sq_f_n_real + y_minus_f_n_real * f_minus_sq))

/-- `calc_iint`, output `dder_plus/f_nucl_imag`, A_functions_base/flip_ratio.py:5-335. -/
noncomputable def d_plus_f_nucl_imag (y dy dk : ℝ → ℝ) (beam_polarization : ℝ) (flipper_efficiency : ℝ) (f_nucl_re f_nucl_im : ℝ) (f_m_perp_re f_m_perp_im : Fin 3 → ℝ) (axis_z : Fin 3 → ℝ) : ℝ :=
  let f_m_perp_zlab_re : ℝ := f_m_perp_re 0 * axis_z 0 + f_m_perp_re 1 * axis_z 1 + f_m_perp_re 2 * axis_z 2
  let f_m_perp_zlab_im : ℝ := f_m_perp_im 0 * axis_z 0 + f_m_perp_im 1 * axis_z 1 + f_m_perp_im 2 * axis_z 2
  let f_plus_re : ℝ := f_nucl_re + f_m_perp_zlab_re
  let f_plus_im : ℝ := f_nucl_im + f_m_perp_zlab_im
  let f_minus_re : ℝ := f_nucl_re - f_m_perp_zlab_re
  let f_minus_im : ℝ := f_nucl_im - f_m_perp_zlab_im
  let f_plus_sq : ℝ := f_plus_re ^ 2 + f_plus_im ^ 2
  let f_minus_sq : ℝ := f_minus_re ^ 2 + f_minus_im ^ 2
  let y_plus : ℝ := y f_plus_sq
  let y_minus : ℝ := y f_minus_sq
  let f_plus_sq_f_n_imag : ℝ := 2 * f_plus_im
  let f_minus_sq_f_n_imag : ℝ := 2 * f_minus_im
  let y_plus_f_n_imag : ℝ := dy f_plus_sq * f_plus_sq_f_n_imag
  let y_minus_f_n_imag : ℝ := dy f_minus_sq * f_minus_sq_f_n_imag
  (1 / 2) * ((1 + beam_polarization) * (y_plus * f_plus_sq_f_n_imag + y_plus_f_n_imag * f_plus_sq) + (1 - beam_polarization) * (y_minus * f_minus_sq_f_n_imag + y_minus_f_n_imag * f_minus_sq))

/-- `calc_iint`, output `dder_minus/f_nucl_imag`, A_functions_base/flip_ratio.py:5-335. -/
noncomputable def d_minus_f_nucl_imag (y dy dk : ℝ → ℝ) (beam_polarization : ℝ) (flipper_efficiency : ℝ) (f_nucl_re f_nucl_im : ℝ) (f_m_perp_re f_m_perp_im : Fin 3 → ℝ) (axis_z : Fin 3 → ℝ) : ℝ :=
  let p_d : ℝ := beam_polarization * (2 * flipper_efficiency - 1)
  let f_m_perp_zlab_re : ℝ := f_m_perp_re 0 * axis_z 0 + f_m_perp_re 1 * axis_z 1 + f_m_perp_re 2 * axis_z 2
  let f_m_perp_zlab_im : ℝ := f_m_perp_im 0 * axis_z 0 + f_m_perp_im 1 * axis_z 1 + f_m_perp_im 2 * axis_z 2
  let f_plus_re : ℝ := f_nucl_re + f_m_perp_zlab_re
  let f_plus_im : ℝ := f_nucl_im + f_m_perp_zlab_im
  let f_minus_re : ℝ := f_nucl_re - f_m_perp_zlab_re
  let f_minus_im : ℝ := f_nucl_im - f_m_perp_zlab_im
  let f_plus_sq : ℝ := f_plus_re ^ 2 + f_plus_im ^ 2
  let f_minus_sq : ℝ := f_minus_re ^ 2 + f_minus_im ^ 2
  let y_plus : ℝ := y f_plus_sq
  let y_minus : ℝ := y f_minus_sq
  let f_plus_sq_f_n_imag : ℝ := 2 * f_plus_im
  let f_minus_sq_f_n_imag : ℝ := 2 * f_minus_im
  let y_plus_f_n_imag : ℝ := dy f_plus_sq * f_plus_sq_f_n_imag
  let y_minus_f_n_imag : ℝ := dy f_minus_sq * f_minus_sq_f_n_imag
  (1 / 2) * ((1 - p_d) * (y_plus * f_plus_sq_f_n_imag + y_plus_f_n_imag * f_plus_sq) + (1 + p_d) * (y_minus * f_minus_sq_f_n_imag + y_minus_f_n_imag * f_minus_sq))

/-- `calc_iint`, output `dder_plus/f_m_perp_real`, A_functions_base/flip_ratio.py:5-335. -/
noncomputable def d_plus_f_m_perp_real (y dy dk : ℝ → ℝ) (beam_polarization : ℝ) (flipper_efficiency : ℝ) (f_nucl_re f_nucl_im : ℝ) (f_m_perp_re f_m_perp_im : Fin 3 → ℝ) (axis_z : Fin 3 → ℝ) : Fin 3 → ℝ :=
  let f_m_perp_sq : ℝ := f_m_perp_re 0 ^ 2 + f_m_perp_re 1 ^ 2 + f_m_perp_re 2 ^ 2 + (f_m_perp_im 0 ^ 2 + f_m_perp_im 1 ^ 2 + f_m_perp_im 2 ^ 2)
  let f_m_perp_zlab_re : ℝ := f_m_perp_re 0 * axis_z 0 + f_m_perp_re 1 * axis_z 1 + f_m_perp_re 2 * axis_z 2
  let f_m_perp_zlab_im : ℝ := f_m_perp_im 0 * axis_z 0 + f_m_perp_im 1 * axis_z 1 + f_m_perp_im 2 * axis_z 2
  let f_m_perp_zlab_sq : ℝ := f_m_perp_zlab_re ^ 2 + f_m_perp_zlab_im ^ 2
  let f_plus_re : ℝ := f_nucl_re + f_m_perp_zlab_re
  let f_plus_im : ℝ := f_nucl_im + f_m_perp_zlab_im
  let f_minus_re : ℝ := f_nucl_re - f_m_perp_zlab_re
  let f_minus_im : ℝ := f_nucl_im - f_m_perp_zlab_im
  let f_plus_sq : ℝ := f_plus_re ^ 2 + f_plus_im ^ 2
  let f_minus_sq : ℝ := f_minus_re ^ 2 + f_minus_im ^ 2
  let f_m_perp_xy_sq : ℝ := f_m_perp_sq - f_m_perp_zlab_sq
  let y_plus : ℝ := y f_plus_sq
  let y_minus : ℝ := y f_minus_sq
  let y_m_perp_xy : ℝ := y f_m_perp_xy_sq
  let f_plus_sq_f_m_perp_x_real : ℝ := 2 * f_plus_re * axis_z 0
  let f_plus_sq_f_m_perp_y_real : ℝ := 2 * f_plus_re * axis_z 1
  let f_plus_sq_f_m_perp_z_real : ℝ := 2 * f_plus_re * axis_z 2
  let f_minus_sq_f_m_perp_x_real : ℝ := -2 * f_minus_re * axis_z 0
  let f_minus_sq_f_m_perp_y_real : ℝ := -2 * f_minus_re * axis_z 1
  let f_minus_sq_f_m_perp_z_real : ℝ := -2 * f_minus_re * axis_z 2
  let z_sq : Fin 3 → ℝ := ![axis_z 0 ^ 2, axis_z 1 ^ 2, axis_z 2 ^ 2]
  let f_m_perp_xy_sq_f_m_perp_x_real : ℝ := 2 * ((1 - z_sq 0) * f_m_perp_re 0 - axis_z 0 * (axis_z 1 * f_m_perp_re 1 + axis_z 2 * f_m_perp_re 2))
  let f_m_perp_xy_sq_f_m_perp_y_real : ℝ := 2 * ((1 - z_sq 1) * f_m_perp_re 1 - axis_z 1 * (axis_z 2 * f_m_perp_re 2 + axis_z 0 * f_m_perp_re 0))
  let f_m_perp_xy_sq_f_m_perp_z_real : ℝ := 2 * ((1 - z_sq 2) * f_m_perp_re 2 - axis_z 2 * (axis_z 0 * f_m_perp_re 0 + axis_z 1 * f_m_perp_re 1))
  let chiral_term_f_m_perp_x_real : ℝ := 2 * (axis_z 1 * f_m_perp_im 2 - axis_z 2 * f_m_perp_im 1)
  let chiral_term_f_m_perp_y_real : ℝ := -2 * (axis_z 0 * f_m_perp_im 2 - axis_z 2 * f_m_perp_im 0)
  let chiral_term_f_m_perp_z_real : ℝ := 2 * (axis_z 0 * f_m_perp_im 1 - axis_z 1 * f_m_perp_im 0)
  let y_plus_f_m_perp_x_real : ℝ := dy f_plus_sq * f_plus_sq_f_m_perp_x_real
  let y_plus_f_m_perp_y_real : ℝ := dy f_plus_sq * f_plus_sq_f_m_perp_y_real
  let y_plus_f_m_perp_z_real : ℝ := dy f_plus_sq * f_plus_sq_f_m_perp_z_real
  let y_minus_f_m_perp_x_real : ℝ := dy f_minus_sq * f_minus_sq_f_m_perp_x_real
  let y_minus_f_m_perp_y_real : ℝ := dy f_minus_sq * f_minus_sq_f_m_perp_y_real
  let y_minus_f_m_perp_z_real : ℝ := dy f_minus_sq * f_minus_sq_f_m_perp_z_real
  let y_m_perp_xy_f_m_perp_x_real : ℝ := dy f_m_perp_xy_sq * f_m_perp_xy_sq_f_m_perp_x_real
  let y_m_perp_xy_f_m_perp_y_real : ℝ := dy f_m_perp_xy_sq * f_m_perp_xy_sq_f_m_perp_y_real
  let y_m_perp_xy_f_m_perp_z_real : ℝ := dy f_m_perp_xy_sq * f_m_perp_xy_sq_f_m_perp_z_real
  let dder_plus_f_m_perp_x_real : ℝ := (1 / 2) * ((1 + beam_polarization) * (y_plus * f_plus_sq_f_m_perp_x_real + y_plus_f_m_perp_x_real * f_plus_sq) + (1 - beam_polarization) * (y_minus * f_minus_sq_f_m_perp_x_real + y_minus_f_m_perp_x_real * f_minus_sq)) + y_m_perp_xy_f_m_perp_x_real * f_m_perp_xy_sq + y_m_perp_xy * f_m_perp_xy_sq_f_m_perp_x_real + beam_polarization * chiral_term_f_m_perp_x_real
  let dder_plus_f_m_perp_y_real : ℝ := (1 / 2) * ((1 + beam_polarization) * (y_plus * f_plus_sq_f_m_perp_y_real + y_plus_f_m_perp_y_real * f_plus_sq) + (1 - beam_polarization) * (y_minus * f_minus_sq_f_m_perp_y_real + y_minus_f_m_perp_y_real * f_minus_sq)) + y_m_perp_xy_f_m_perp_y_real * f_m_perp_xy_sq + y_m_perp_xy * f_m_perp_xy_sq_f_m_perp_y_real + beam_polarization * chiral_term_f_m_perp_y_real
  let dder_plus_f_m_perp_z_real : ℝ := (1 / 2) * ((1 + beam_polarization) * (y_plus * f_plus_sq_f_m_perp_z_real + y_plus_f_m_perp_z_real * f_plus_sq) + (1 - beam_polarization) * (y_minus * f_minus_sq_f_m_perp_z_real + y_minus_f_m_perp_z_real * f_minus_sq)) + y_m_perp_xy_f_m_perp_z_real * f_m_perp_xy_sq + y_m_perp_xy * f_m_perp_xy_sq_f_m_perp_z_real + beam_polarization * chiral_term_f_m_perp_z_real
  ![dder_plus_f_m_perp_x_real, dder_plus_f_m_perp_y_real, dder_plus_f_m_perp_z_real]

/-- `calc_iint`, output `dder_minus/f_m_perp_real`, A_functions_base/flip_ratio.py:5-335. -/
noncomputable def d_minus_f_m_perp_real (y dy dk : ℝ → ℝ) (beam_polarization : ℝ) (flipper_efficiency : ℝ) (f_nucl_re f_nucl_im : ℝ) (f_m_perp_re f_m_perp_im : Fin 3 → ℝ) (axis_z : Fin 3 → ℝ) : Fin 3 → ℝ :=
  let p_d : ℝ := beam_polarization * (2 * flipper_efficiency - 1)
  let f_m_perp_sq : ℝ := f_m_perp_re 0 ^ 2 + f_m_perp_re 1 ^ 2 + f_m_perp_re 2 ^ 2 + (f_m_perp_im 0 ^ 2 + f_m_perp_im 1 ^ 2 + f_m_perp_im 2 ^ 2)
  let f_m_perp_zlab_re : ℝ := f_m_perp_re 0 * axis_z 0 + f_m_perp_re 1 * axis_z 1 + f_m_perp_re 2 * axis_z 2
  let f_m_perp_zlab_im : ℝ := f_m_perp_im 0 * axis_z 0 + f_m_perp_im 1 * axis_z 1 + f_m_perp_im 2 * axis_z 2
  let f_m_perp_zlab_sq : ℝ := f_m_perp_zlab_re ^ 2 + f_m_perp_zlab_im ^ 2
  let f_plus_re : ℝ := f_nucl_re + f_m_perp_zlab_re
  let f_plus_im : ℝ := f_nucl_im + f_m_perp_zlab_im
  let f_minus_re : ℝ := f_nucl_re - f_m_perp_zlab_re
  let f_minus_im : ℝ := f_nucl_im - f_m_perp_zlab_im
  let f_plus_sq : ℝ := f_plus_re ^ 2 + f_plus_im ^ 2
  let f_minus_sq : ℝ := f_minus_re ^ 2 + f_minus_im ^ 2
  let f_m_perp_xy_sq : ℝ := f_m_perp_sq - f_m_perp_zlab_sq
  let y_plus : ℝ := y f_plus_sq
  let y_minus : ℝ := y f_minus_sq
  let y_m_perp_xy : ℝ := y f_m_perp_xy_sq
  let f_plus_sq_f_m_perp_x_real : ℝ := 2 * f_plus_re * axis_z 0
  let f_plus_sq_f_m_perp_y_real : ℝ := 2 * f_plus_re * axis_z 1
  let f_plus_sq_f_m_perp_z_real : ℝ := 2 * f_plus_re * axis_z 2
  let f_minus_sq_f_m_perp_x_real : ℝ := -2 * f_minus_re * axis_z 0
  let f_minus_sq_f_m_perp_y_real : ℝ := -2 * f_minus_re * axis_z 1
  let f_minus_sq_f_m_perp_z_real : ℝ := -2 * f_minus_re * axis_z 2
  let z_sq : Fin 3 → ℝ := ![axis_z 0 ^ 2, axis_z 1 ^ 2, axis_z 2 ^ 2]
  let f_m_perp_xy_sq_f_m_perp_x_real : ℝ := 2 * ((1 - z_sq 0) * f_m_perp_re 0 - axis_z 0 * (axis_z 1 * f_m_perp_re 1 + axis_z 2 * f_m_perp_re 2))
  let f_m_perp_xy_sq_f_m_perp_y_real : ℝ := 2 * ((1 - z_sq 1) * f_m_perp_re 1 - axis_z 1 * (axis_z 2 * f_m_perp_re 2 + axis_z 0 * f_m_perp_re 0))
  let f_m_perp_xy_sq_f_m_perp_z_real : ℝ := 2 * ((1 - z_sq 2) * f_m_perp_re 2 - axis_z 2 * (axis_z 0 * f_m_perp_re 0 + axis_z 1 * f_m_perp_re 1))
  let chiral_term_f_m_perp_x_real : ℝ := 2 * (axis_z 1 * f_m_perp_im 2 - axis_z 2 * f_m_perp_im 1)
  let chiral_term_f_m_perp_y_real : ℝ := -2 * (axis_z 0 * f_m_perp_im 2 - axis_z 2 * f_m_perp_im 0)
  let chiral_term_f_m_perp_z_real : ℝ := 2 * (axis_z 0 * f_m_perp_im 1 - axis_z 1 * f_m_perp_im 0)
  let y_plus_f_m_perp_x_real : ℝ := dy f_plus_sq * f_plus_sq_f_m_perp_x_real
  let y_plus_f_m_perp_y_real : ℝ := dy f_plus_sq * f_plus_sq_f_m_perp_y_real
  let y_plus_f_m_perp_z_real : ℝ := dy f_plus_sq * f_plus_sq_f_m_perp_z_real
  let y_minus_f_m_perp_x_real : ℝ := dy f_minus_sq * f_minus_sq_f_m_perp_x_real
  let y_minus_f_m_perp_y_real : ℝ := dy f_minus_sq * f_minus_sq_f_m_perp_y_real
  let y_minus_f_m_perp_z_real : ℝ := dy f_minus_sq * f_minus_sq_f_m_perp_z_real
  let y_m_perp_xy_f_m_perp_x_real : ℝ := dy f_m_perp_xy_sq * f_m_perp_xy_sq_f_m_perp_x_real
  let y_m_perp_xy_f_m_perp_y_real : ℝ := dy f_m_perp_xy_sq * f_m_perp_xy_sq_f_m_perp_y_real
  let y_m_perp_xy_f_m_perp_z_real : ℝ := dy f_m_perp_xy_sq * f_m_perp_xy_sq_f_m_perp_z_real
  let dder_minus_f_m_perp_x_real : ℝ := (1 / 2) * ((1 - p_d) * (y_plus * f_plus_sq_f_m_perp_x_real + y_plus_f_m_perp_x_real * f_plus_sq) + (1 + p_d) * (y_minus * f_minus_sq_f_m_perp_x_real + y_minus_f_m_perp_x_real * f_minus_sq)) + y_m_perp_xy_f_m_perp_x_real * f_m_perp_xy_sq + y_m_perp_xy * f_m_perp_xy_sq_f_m_perp_x_real - p_d * chiral_term_f_m_perp_x_real
  let dder_minus_f_m_perp_y_real : ℝ := (1 / 2) * ((1 - p_d) * (y_plus * f_plus_sq_f_m_perp_y_real + y_plus_f_m_perp_y_real * f_plus_sq) + (1 + p_d) * (y_minus * f_minus_sq_f_m_perp_y_real + y_minus_f_m_perp_y_real * f_minus_sq)) + y_m_perp_xy_f_m_perp_y_real * f_m_perp_xy_sq + y_m_perp_xy * f_m_perp_xy_sq_f_m_perp_y_real - p_d * chiral_term_f_m_perp_y_real
  let dder_minus_f_m_perp_z_real : ℝ := (1 / 2) * ((1 - p_d) * (y_plus * f_plus_sq_f_m_perp_z_real + y_plus_f_m_perp_z_real * f_plus_sq) + (1 + p_d) * (y_minus * f_minus_sq_f_m_perp_z_real + y_minus_f_m_perp_z_real * f_minus_sq)) + y_m_perp_xy_f_m_perp_z_real * f_m_perp_xy_sq + y_m_perp_xy * f_m_perp_xy_sq_f_m_perp_z_real - p_d * chiral_term_f_m_perp_z_real
  ![dder_minus_f_m_perp_x_real, dder_minus_f_m_perp_y_real, dder_minus_f_m_perp_z_real]

/-- `calc_iint`, output `dder_plus/f_m_perp_imag`, A_functions_base/flip_ratio.py:5-335. -/
noncomputable def d_plus_f_m_perp_imag (y dy dk : ℝ → ℝ) (beam_polarization : ℝ) (flipper_efficiency : ℝ) (f_nucl_re f_nucl_im : ℝ) (f_m_perp_re f_m_perp_im : Fin 3 → ℝ) (axis_z : Fin 3 → ℝ) : Fin 3 → ℝ :=
  let f_m_perp_sq : ℝ := f_m_perp_re 0 ^ 2 + f_m_perp_re 1 ^ 2 + f_m_perp_re 2 ^ 2 + (f_m_perp_im 0 ^ 2 + f_m_perp_im 1 ^ 2 + f_m_perp_im 2 ^ 2)
  let f_m_perp_zlab_re : ℝ := f_m_perp_re 0 * axis_z 0 + f_m_perp_re 1 * axis_z 1 + f_m_perp_re 2 * axis_z 2
  let f_m_perp_zlab_im : ℝ := f_m_perp_im 0 * axis_z 0 + f_m_perp_im 1 * axis_z 1 + f_m_perp_im 2 * axis_z 2
  let f_m_perp_zlab_sq : ℝ := f_m_perp_zlab_re ^ 2 + f_m_perp_zlab_im ^ 2
  let f_plus_re : ℝ := f_nucl_re + f_m_perp_zlab_re
  let f_plus_im : ℝ := f_nucl_im + f_m_perp_zlab_im
  let f_minus_re : ℝ := f_nucl_re - f_m_perp_zlab_re
  let f_minus_im : ℝ := f_nucl_im - f_m_perp_zlab_im
  let f_plus_sq : ℝ := f_plus_re ^ 2 + f_plus_im ^ 2
  let f_minus_sq : ℝ := f_minus_re ^ 2 + f_minus_im ^ 2
  let f_m_perp_xy_sq : ℝ := f_m_perp_sq - f_m_perp_zlab_sq
  let y_plus : ℝ := y f_plus_sq
  let y_minus : ℝ := y f_minus_sq
  let y_m_perp_xy : ℝ := y f_m_perp_xy_sq
  let f_plus_sq_f_m_perp_x_imag : ℝ := 2 * f_plus_im * axis_z 0
  let f_plus_sq_f_m_perp_y_imag : ℝ := 2 * f_plus_im * axis_z 1
  let f_plus_sq_f_m_perp_z_imag : ℝ := 2 * f_plus_im * axis_z 2
  let f_minus_sq_f_m_perp_x_imag : ℝ := -2 * f_minus_im * axis_z 0
  let f_minus_sq_f_m_perp_y_imag : ℝ := -2 * f_minus_im * axis_z 1
  let f_minus_sq_f_m_perp_z_imag : ℝ := -2 * f_minus_im * axis_z 2
  let z_sq : Fin 3 → ℝ := ![axis_z 0 ^ 2, axis_z 1 ^ 2, axis_z 2 ^ 2]
  let f_m_perp_xy_sq_f_m_perp_x_imag : ℝ := 2 * ((1 - z_sq 0) * f_m_perp_im 0 - axis_z 0 * (axis_z 1 * f_m_perp_im 1 + axis_z 2 * f_m_perp_im 2))
  let f_m_perp_xy_sq_f_m_perp_y_imag : ℝ := 2 * ((1 - z_sq 1) * f_m_perp_im 1 - axis_z 1 * (axis_z 2 * f_m_perp_im 2 + axis_z 0 * f_m_perp_im 0))
  let f_m_perp_xy_sq_f_m_perp_z_imag : ℝ := 2 * ((1 - z_sq 2) * f_m_perp_im 2 - axis_z 2 * (axis_z 0 * f_m_perp_im 0 + axis_z 1 * f_m_perp_im 1))
  let chiral_term_f_m_perp_x_imag : ℝ := -2 * (axis_z 1 * f_m_perp_re 2 - axis_z 2 * f_m_perp_re 1)
  let chiral_term_f_m_perp_y_imag : ℝ := 2 * (axis_z 0 * f_m_perp_re 2 - axis_z 2 * f_m_perp_re 0)
  let chiral_term_f_m_perp_z_imag : ℝ := -2 * (axis_z 0 * f_m_perp_re 1 - axis_z 1 * f_m_perp_re 0)
  let y_plus_f_m_perp_x_imag : ℝ := dy f_plus_sq * f_plus_sq_f_m_perp_x_imag
  let y_plus_f_m_perp_y_imag : ℝ := dy f_plus_sq * f_plus_sq_f_m_perp_y_imag
  let y_plus_f_m_perp_z_imag : ℝ := dy f_plus_sq * f_plus_sq_f_m_perp_z_imag
  let y_minus_f_m_perp_x_imag : ℝ := dy f_minus_sq * f_minus_sq_f_m_perp_x_imag
  let y_minus_f_m_perp_y_imag : ℝ := dy f_minus_sq * f_minus_sq_f_m_perp_y_imag
  let y_minus_f_m_perp_z_imag : ℝ := dy f_minus_sq * f_minus_sq_f_m_perp_z_imag
  let y_m_perp_xy_f_m_perp_x_imag : ℝ := dy f_m_perp_xy_sq * f_m_perp_xy_sq_f_m_perp_x_imag
  let y_m_perp_xy_f_m_perp_y_imag : ℝ := dy f_m_perp_xy_sq * f_m_perp_xy_sq_f_m_perp_y_imag
  let y_m_perp_xy_f_m_perp_z_imag : ℝ := dy f_m_perp_xy_sq * f_m_perp_xy_sq_f_m_perp_z_imag
  let dder_plus_f_m_perp_x_imag : ℝ := (1 / 2) * ((1 + beam_polarization) * (y_plus * f_plus_sq_f_m_perp_x_imag + y_plus_f_m_perp_x_imag * f_plus_sq) + (1 - beam_polarization) * (y_minus * f_minus_sq_f_m_perp_x_imag + y_minus_f_m_perp_x_imag * f_minus_sq)) + y_m_perp_xy_f_m_perp_x_imag * f_m_perp_xy_sq + y_m_perp_xy * f_m_perp_xy_sq_f_m_perp_x_imag + beam_polarization * chiral_term_f_m_perp_x_imag
  let dder_plus_f_m_perp_y_imag : ℝ := (1 / 2) * ((1 + beam_polarization) * (y_plus * f_plus_sq_f_m_perp_y_imag + y_plus_f_m_perp_y_imag * f_plus_sq) + (1 - beam_polarization) * (y_minus * f_minus_sq_f_m_perp_y_imag + y_minus_f_m_perp_y_imag * f_minus_sq)) + y_m_perp_xy_f_m_perp_y_imag * f_m_perp_xy_sq + y_m_perp_xy * f_m_perp_xy_sq_f_m_perp_y_imag + beam_polarization * chiral_term_f_m_perp_y_imag
  let dder_plus_f_m_perp_z_imag : ℝ := (1 / 2) * ((1 + beam_polarization) * (y_plus * f_plus_sq_f_m_perp_z_imag + y_plus_f_m_perp_z_imag * f_plus_sq) + (1 - beam_polarization) * (y_minus * f_minus_sq_f_m_perp_z_imag + y_minus_f_m_perp_z_imag * f_minus_sq)) + y_m_perp_xy_f_m_perp_z_imag * f_m_perp_xy_sq + y_m_perp_xy * f_m_perp_xy_sq_f_m_perp_z_imag + beam_polarization * chiral_term_f_m_perp_z_imag
  ![dder_plus_f_m_perp_x_imag, dder_plus_f_m_perp_y_imag, dder_plus_f_m_perp_z_imag]

/-- `calc_iint`, output `dder_minus/f_m_perp_imag`, A_functions_base/flip_ratio.py:5-335. -/
noncomputable def d_minus_f_m_perp_imag (y dy dk : ℝ → ℝ) (beam_polarization : ℝ) (flipper_efficiency : ℝ) (f_nucl_re f_nucl_im : ℝ) (f_m_perp_re f_m_perp_im : Fin 3 → ℝ) (axis_z : Fin 3 → ℝ) : Fin 3 → ℝ :=
  let p_d : ℝ := beam_polarization * (2 * flipper_efficiency - 1)
  let f_m_perp_sq : ℝ := f_m_perp_re 0 ^ 2 + f_m_perp_re 1 ^ 2 + f_m_perp_re 2 ^ 2 + (f_m_perp_im 0 ^ 2 + f_m_perp_im 1 ^ 2 + f_m_perp_im 2 ^ 2)
  let f_m_perp_zlab_re : ℝ := f_m_perp_re 0 * axis_z 0 + f_m_perp_re 1 * axis_z 1 + f_m_perp_re 2 * axis_z 2
  let f_m_perp_zlab_im : ℝ := f_m_perp_im 0 * axis_z 0 + f_m_perp_im 1 * axis_z 1 + f_m_perp_im 2 * axis_z 2
  let f_m_perp_zlab_sq : ℝ := f_m_perp_zlab_re ^ 2 + f_m_perp_zlab_im ^ 2
  let f_plus_re : ℝ := f_nucl_re + f_m_perp_zlab_re
  let f_plus_im : ℝ := f_nucl_im + f_m_perp_zlab_im
  let f_minus_re : ℝ := f_nucl_re - f_m_perp_zlab_re
  let f_minus_im : ℝ := f_nucl_im - f_m_perp_zlab_im
  let f_plus_sq : ℝ := f_plus_re ^ 2 + f_plus_im ^ 2
  let f_minus_sq : ℝ := f_minus_re ^ 2 + f_minus_im ^ 2
  let f_m_perp_xy_sq : ℝ := f_m_perp_sq - f_m_perp_zlab_sq
  let y_plus : ℝ := y f_plus_sq
  let y_minus : ℝ := y f_minus_sq
  let y_m_perp_xy : ℝ := y f_m_perp_xy_sq
  let f_plus_sq_f_m_perp_x_imag : ℝ := 2 * f_plus_im * axis_z 0
  let f_plus_sq_f_m_perp_y_imag : ℝ := 2 * f_plus_im * axis_z 1
  let f_plus_sq_f_m_perp_z_imag : ℝ := 2 * f_plus_im * axis_z 2
  let f_minus_sq_f_m_perp_x_imag : ℝ := -2 * f_minus_im * axis_z 0
  let f_minus_sq_f_m_perp_y_imag : ℝ := -2 * f_minus_im * axis_z 1
  let f_minus_sq_f_m_perp_z_imag : ℝ := -2 * f_minus_im * axis_z 2
  let z_sq : Fin 3 → ℝ := ![axis_z 0 ^ 2, axis_z 1 ^ 2, axis_z 2 ^ 2]
  let f_m_perp_xy_sq_f_m_perp_x_imag : ℝ := 2 * ((1 - z_sq 0) * f_m_perp_im 0 - axis_z 0 * (axis_z 1 * f_m_perp_im 1 + axis_z 2 * f_m_perp_im 2))
  let f_m_perp_xy_sq_f_m_perp_y_imag : ℝ := 2 * ((1 - z_sq 1) * f_m_perp_im 1 - axis_z 1 * (axis_z 2 * f_m_perp_im 2 + axis_z 0 * f_m_perp_im 0))
  let f_m_perp_xy_sq_f_m_perp_z_imag : ℝ := 2 * ((1 - z_sq 2) * f_m_perp_im 2 - axis_z 2 * (axis_z 0 * f_m_perp_im 0 + axis_z 1 * f_m_perp_im 1))
  let chiral_term_f_m_perp_x_imag : ℝ := -2 * (axis_z 1 * f_m_perp_re 2 - axis_z 2 * f_m_perp_re 1)
  let chiral_term_f_m_perp_y_imag : ℝ := 2 * (axis_z 0 * f_m_perp_re 2 - axis_z 2 * f_m_perp_re 0)
  let chiral_term_f_m_perp_z_imag : ℝ := -2 * (axis_z 0 * f_m_perp_re 1 - axis_z 1 * f_m_perp_re 0)
  let y_plus_f_m_perp_x_imag : ℝ := dy f_plus_sq * f_plus_sq_f_m_perp_x_imag
  let y_plus_f_m_perp_y_imag : ℝ := dy f_plus_sq * f_plus_sq_f_m_perp_y_imag
  let y_plus_f_m_perp_z_imag : ℝ := dy f_plus_sq * f_plus_sq_f_m_perp_z_imag
  let y_minus_f_m_perp_x_imag : ℝ := dy f_minus_sq * f_minus_sq_f_m_perp_x_imag
  let y_minus_f_m_perp_y_imag : ℝ := dy f_minus_sq * f_minus_sq_f_m_perp_y_imag
  let y_minus_f_m_perp_z_imag : ℝ := dy f_minus_sq * f_minus_sq_f_m_perp_z_imag
  let y_m_perp_xy_f_m_perp_x_imag : ℝ := dy f_m_perp_xy_sq * f_m_perp_xy_sq_f_m_perp_x_imag
  let y_m_perp_xy_f_m_perp_y_imag : ℝ := dy f_m_perp_xy_sq * f_m_perp_xy_sq_f_m_perp_y_imag
  let y_m_perp_xy_f_m_perp_z_imag : ℝ := dy f_m_perp_xy_sq * f_m_perp_xy_sq_f_m_perp_z_imag
  let dder_minus_f_m_perp_x_imag : ℝ := (1 / 2) * ((1 - p_d) * (y_plus * f_plus_sq_f_m_perp_x_imag + y_plus_f_m_perp_x_imag * f_plus_sq) + (1 + p_d) * (y_minus * f_minus_sq_f_m_perp_x_imag + y_minus_f_m_perp_x_imag * f_minus_sq)) + y_m_perp_xy_f_m_perp_x_imag * f_m_perp_xy_sq + y_m_perp_xy * f_m_perp_xy_sq_f_m_perp_x_imag - p_d * chiral_term_f_m_perp_x_imag
  let dder_minus_f_m_perp_y_imag : ℝ := (1 / 2) * ((1 - p_d) * (y_plus * f_plus_sq_f_m_perp_y_imag + y_plus_f_m_perp_y_imag * f_plus_sq) + (1 + p_d) * (y_minus * f_minus_sq_f_m_perp_y_imag + y_minus_f_m_perp_y_imag * f_minus_sq)) + y_m_perp_xy_f_m_perp_y_imag * f_m_perp_xy_sq + y_m_perp_xy * f_m_perp_xy_sq_f_m_perp_y_imag - p_d * chiral_term_f_m_perp_y_imag
  let dder_minus_f_m_perp_z_imag : ℝ := (1 / 2) * ((1 - p_d) * (y_plus * f_plus_sq_f_m_perp_z_imag + y_plus_f_m_perp_z_imag * f_plus_sq) + (1 + p_d) * (y_minus * f_minus_sq_f_m_perp_z_imag + y_minus_f_m_perp_z_imag * f_minus_sq)) + y_m_perp_xy_f_m_perp_z_imag * f_m_perp_xy_sq + y_m_perp_xy * f_m_perp_xy_sq_f_m_perp_z_imag - p_d * chiral_term_f_m_perp_z_imag
  ![dder_minus_f_m_perp_x_imag, dder_minus_f_m_perp_y_imag, dder_minus_f_m_perp_z_imag]

/-- `calc_iint`, output `dder_plus/ext`, A_functions_base/flip_ratio.py:5-335. -/
noncomputable def d_plus_ext (y dy dk : ℝ → ℝ) (beam_polarization : ℝ) (flipper_efficiency : ℝ) (f_nucl_re f_nucl_im : ℝ) (f_m_perp_re f_m_perp_im : Fin 3 → ℝ) (axis_z : Fin 3 → ℝ) : ℝ :=
  let f_m_perp_sq : ℝ := f_m_perp_re 0 ^ 2 + f_m_perp_re 1 ^ 2 + f_m_perp_re 2 ^ 2 + (f_m_perp_im 0 ^ 2 + f_m_perp_im 1 ^ 2 + f_m_perp_im 2 ^ 2)
  let f_m_perp_zlab_re : ℝ := f_m_perp_re 0 * axis_z 0 + f_m_perp_re 1 * axis_z 1 + f_m_perp_re 2 * axis_z 2
  let f_m_perp_zlab_im : ℝ := f_m_perp_im 0 * axis_z 0 + f_m_perp_im 1 * axis_z 1 + f_m_perp_im 2 * axis_z 2
  let f_m_perp_zlab_sq : ℝ := f_m_perp_zlab_re ^ 2 + f_m_perp_zlab_im ^ 2
  let f_plus_re : ℝ := f_nucl_re + f_m_perp_zlab_re
  let f_plus_im : ℝ := f_nucl_im + f_m_perp_zlab_im
  let f_minus_re : ℝ := f_nucl_re - f_m_perp_zlab_re
  let f_minus_im : ℝ := f_nucl_im - f_m_perp_zlab_im
  let f_plus_sq : ℝ := f_plus_re ^ 2 + f_plus_im ^ 2
  let f_minus_sq : ℝ := f_minus_re ^ 2 + f_minus_im ^ 2
  let f_m_perp_xy_sq : ℝ := f_m_perp_sq - f_m_perp_zlab_sq
  (1 / 2) * ((1 + beam_polarization) * f_plus_sq * dk f_plus_sq + (1 - beam_polarization) * f_minus_sq * dk f_minus_sq) + f_m_perp_xy_sq * dk f_m_perp_xy_sq

/-- `calc_iint`, output `dder_minus/ext`, A_functions_base/flip_ratio.py:5-335. -/
noncomputable def d_minus_ext (y dy dk : ℝ → ℝ) (beam_polarization : ℝ) (flipper_efficiency : ℝ) (f_nucl_re f_nucl_im : ℝ) (f_m_perp_re f_m_perp_im : Fin 3 → ℝ) (axis_z : Fin 3 → ℝ) : ℝ :=
  let p_d : ℝ := beam_polarization * (2 * flipper_efficiency - 1)
  let f_m_perp_sq : ℝ := f_m_perp_re 0 ^ 2 + f_m_perp_re 1 ^ 2 + f_m_perp_re 2 ^ 2 + (f_m_perp_im 0 ^ 2 + f_m_perp_im 1 ^ 2 + f_m_perp_im 2 ^ 2)
  let f_m_perp_zlab_re : ℝ := f_m_perp_re 0 * axis_z 0 + f_m_perp_re 1 * axis_z 1 + f_m_perp_re 2 * axis_z 2
  let f_m_perp_zlab_im : ℝ := f_m_perp_im 0 * axis_z 0 + f_m_perp_im 1 * axis_z 1 + f_m_perp_im 2 * axis_z 2
  let f_m_perp_zlab_sq : ℝ := f_m_perp_zlab_re ^ 2 + f_m_perp_zlab_im ^ 2
  let f_plus_re : ℝ := f_nucl_re + f_m_perp_zlab_re
  let f_plus_im : ℝ := f_nucl_im + f_m_perp_zlab_im
  let f_minus_re : ℝ := f_nucl_re - f_m_perp_zlab_re
  let f_minus_im : ℝ := f_nucl_im - f_m_perp_zlab_im
  let f_plus_sq : ℝ := f_plus_re ^ 2 + f_plus_im ^ 2
  let f_minus_sq : ℝ := f_minus_re ^ 2 + f_minus_im ^ 2
  let f_m_perp_xy_sq : ℝ := f_m_perp_sq - f_m_perp_zlab_sq
  (1 / 2) * ((1 - p_d) * f_plus_sq * dk f_plus_sq + (1 + p_d) * f_minus_sq * dk f_minus_sq) + f_m_perp_xy_sq * dk f_m_perp_xy_sq

/-- `calc_flip_ratio_by_iint`, output `0`, A_functions_base/flip_ratio.py:339-366. -/
noncomputable def flip_ratio (iint_plus : ℝ) (iint_minus : ℝ) : ℝ :=
  let flip_ratio : ℝ := iint_plus / iint_minus
  flip_ratio

/-- `calc_flip_ratio_by_iint`, output `iint_plus`, A_functions_base/flip_ratio.py:339-366. -/
noncomputable def d_flip_ratio_plus (iint_plus : ℝ) (iint_minus : ℝ) : ℝ :=
  1 / iint_minus

/-- `calc_flip_ratio_by_iint`, output `iint_minus`, A_functions_base/flip_ratio.py:339-366. -/
noncomputable def d_flip_ratio_minus (iint_plus : ℝ) (iint_minus : ℝ) : ℝ :=
  let flip_ratio : ℝ := iint_plus / iint_minus
  (-1 * flip_ratio * 1 / iint_minus)

/-- `calc_flip_ratio_by_iint`, output `0`, A_functions_base/flip_ratio.py:339-366. -/
noncomputable def flip_ratio2 (iint_plus : ℝ) (iint_minus : ℝ) (c_lambda2 : ℝ) (iint_2hkl : ℝ) : ℝ :=
  let signal_plus : ℝ := iint_plus + c_lambda2 * iint_2hkl
  let signal_minus : ℝ := iint_minus + c_lambda2 * iint_2hkl
  let flip_ratio : ℝ := signal_plus / signal_minus
  flip_ratio

/-- `calc_flip_ratio_by_iint`, output `iint_plus`, A_functions_base/flip_ratio.py:339-366. -/
noncomputable def d_flip_ratio2_iint_plus (iint_plus : ℝ) (iint_minus : ℝ) (c_lambda2 : ℝ) (iint_2hkl : ℝ) : ℝ :=
  let signal_minus : ℝ := iint_minus + c_lambda2 * iint_2hkl
  1 / signal_minus

/-- `calc_flip_ratio_by_iint`, output `iint_minus`, A_functions_base/flip_ratio.py:339-366. -/
noncomputable def d_flip_ratio2_iint_minus (iint_plus : ℝ) (iint_minus : ℝ) (c_lambda2 : ℝ) (iint_2hkl : ℝ) : ℝ :=
  let signal_plus : ℝ := iint_plus + c_lambda2 * iint_2hkl
  let signal_minus : ℝ := iint_minus + c_lambda2 * iint_2hkl
  let flip_ratio : ℝ := signal_plus / signal_minus
  (-1 * flip_ratio * 1 / signal_minus)

/-- `calc_flip_ratio_by_iint`, output `c_lambda2`, A_functions_base/flip_ratio.py:339-366. -/
noncomputable def d_flip_ratio2_c_lambda2 (iint_plus : ℝ) (iint_minus : ℝ) (c_lambda2 : ℝ) (iint_2hkl : ℝ) : ℝ :=
  let signal_plus : ℝ := iint_plus + c_lambda2 * iint_2hkl
  let signal_minus : ℝ := iint_minus + c_lambda2 * iint_2hkl
  let flip_ratio : ℝ := signal_plus / signal_minus
  1 * iint_2hkl / signal_minus - flip_ratio * 1 * iint_2hkl / signal_minus

/-- `calc_flip_ratio_by_iint`, output `iint_2hkl`, A_functions_base/flip_ratio.py:339-366. -/
noncomputable def d_flip_ratio2_iint_2hkl (iint_plus : ℝ) (iint_minus : ℝ) (c_lambda2 : ℝ) (iint_2hkl : ℝ) : ℝ :=
  let signal_plus : ℝ := iint_plus + c_lambda2 * iint_2hkl
  let signal_minus : ℝ := iint_minus + c_lambda2 * iint_2hkl
  let flip_ratio : ℝ := signal_plus / signal_minus
  1 * c_lambda2 / signal_minus - flip_ratio * 1 * c_lambda2 / signal_minus

/-- `calc_asymmetry_by_iint`, output `0`, A_functions_base/flip_ratio.py:369-397. -/
noncomputable def asymmetry (iint_plus : ℝ) (iint_minus : ℝ) : ℝ :=
  let denom : ℝ := iint_plus + iint_minus + 0
  let asymmetry : ℝ := (iint_plus - iint_minus) / denom
  asymmetry

/-- `calc_asymmetry_by_iint`, output `iint_plus`, A_functions_base/flip_ratio.py:369-397. -/
noncomputable def d_asymmetry_plus (iint_plus : ℝ) (iint_minus : ℝ) : ℝ :=
  let denom : ℝ := iint_plus + iint_minus + 0
  (1 / denom - (iint_plus - iint_minus) / denom ^ 2) * 1

/-- `calc_asymmetry_by_iint`, output `iint_minus`, A_functions_base/flip_ratio.py:369-397. -/
noncomputable def d_asymmetry_minus (iint_plus : ℝ) (iint_minus : ℝ) : ℝ :=
  let denom : ℝ := iint_plus + iint_minus + 0
  (-1 / denom - (iint_plus - iint_minus) / denom ^ 2) * 1

/-- `calc_asymmetry_by_iint`, output `0`, A_functions_base/flip_ratio.py:369-397. -/
noncomputable def asymmetry2 (iint_plus : ℝ) (iint_minus : ℝ) (c_lambda2 : ℝ) (iint_2hkl : ℝ) : ℝ :=
  let contamination : ℝ := 2 * c_lambda2 * iint_2hkl
  let denom : ℝ := iint_plus + iint_minus + contamination
  let asymmetry : ℝ := (iint_plus - iint_minus) / denom
  asymmetry

/-- `calc_asymmetry_by_iint`, output `iint_plus`, A_functions_base/flip_ratio.py:369-397. -/
noncomputable def d_asymmetry2_iint_plus (iint_plus : ℝ) (iint_minus : ℝ) (c_lambda2 : ℝ) (iint_2hkl : ℝ) : ℝ :=
  let contamination : ℝ := 2 * c_lambda2 * iint_2hkl
  let denom : ℝ := iint_plus + iint_minus + contamination
  (1 / denom - (iint_plus - iint_minus) / denom ^ 2) * 1

/-- `calc_asymmetry_by_iint`, output `iint_minus`, A_functions_base/flip_ratio.py:369-397. -/
noncomputable def d_asymmetry2_iint_minus (iint_plus : ℝ) (iint_minus : ℝ) (c_lambda2 : ℝ) (iint_2hkl : ℝ) : ℝ :=
  let contamination : ℝ := 2 * c_lambda2 * iint_2hkl
  let denom : ℝ := iint_plus + iint_minus + contamination
  (-1 / denom - (iint_plus - iint_minus) / denom ^ 2) * 1

/-- `calc_asymmetry_by_iint`, output `c_lambda2`, A_functions_base/flip_ratio.py:369-397. -/
noncomputable def d_asymmetry2_c_lambda2 (iint_plus : ℝ) (iint_minus : ℝ) (c_lambda2 : ℝ) (iint_2hkl : ℝ) : ℝ :=
  let contamination : ℝ := 2 * c_lambda2 * iint_2hkl
  let denom : ℝ := iint_plus + iint_minus + contamination
  2 * iint_2hkl * (-(iint_plus - iint_minus) / denom ^ 2) * 1

/-- `calc_asymmetry_by_iint`, output `iint_2hkl`, A_functions_base/flip_ratio.py:369-397. -/
noncomputable def d_asymmetry2_iint_2hkl (iint_plus : ℝ) (iint_minus : ℝ) (c_lambda2 : ℝ) (iint_2hkl : ℝ) : ℝ :=
  let contamination : ℝ := 2 * c_lambda2 * iint_2hkl
  let denom : ℝ := iint_plus + iint_minus + contamination
  2 * c_lambda2 * (-(iint_plus - iint_minus) / denom ^ 2) * 1

end Cryspy.Flip
