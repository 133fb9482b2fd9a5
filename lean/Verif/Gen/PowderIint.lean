import Mathlib.Analysis.SpecialFunctions.Trigonometric.Basic
import Mathlib.Data.Fin.VecNotation

/-!
# Model of A_functions_base/integrated_intensity_powder_diffraction.py

Generated from the source by tools/gen_iint.py (see tools/py2lean.py).  A complex argument is given by its real and imaginary
part.  Axes over reflections and detector points are dropped.  Numbers are reals.  Entries of the derivative dictionaries that
the program sets to `None`, and the branches `flag_flipper`, `flag_magnetic_field` of `calc_powder_iint_1d_mix` (they raise
`KeyError`), are not there.
-/

namespace Cryspy.PowInt

/-- `calc_m_sq_sin_sq_para`, output `0`, A_functions_base/integrated_intensity_powder_diffraction.py:6-33. -/
noncomputable def P1 (tensor_sigma_re tensor_sigma_im : Fin 9 → ℝ) : ℝ :=
  let p_1 : ℝ := (1 / 2) * (tensor_sigma_re 0 ^ 2 + tensor_sigma_im 0 ^ 2 + (tensor_sigma_re 4 ^ 2 + tensor_sigma_im 4 ^ 2)) + (tensor_sigma_re 1 ^ 2 + tensor_sigma_im 1 ^ 2)
  p_1

/-- `calc_m_sq_sin_sq_para`, output `tensor_sigma_real`, A_functions_base/integrated_intensity_powder_diffraction.py:6-33. -/
noncomputable def d_P1_tensor_sigma_real (tensor_sigma_re tensor_sigma_im : Fin 9 → ℝ) : Fin 9 → ℝ :=
  let dder_sigma_11_real : ℝ := tensor_sigma_re 0 * 1
  let dder_sigma_22_real : ℝ := tensor_sigma_re 4 * 1
  let dder_sigma_12_real : ℝ := 2 * tensor_sigma_re 1 * 1
  ![dder_sigma_11_real, dder_sigma_12_real, 0, 0, dder_sigma_22_real, 0, 0, 0, 0]

/-- `calc_m_sq_sin_sq_para`, output `tensor_sigma_imag`, A_functions_base/integrated_intensity_powder_diffraction.py:6-33. -/
noncomputable def d_P1_tensor_sigma_imag (tensor_sigma_re tensor_sigma_im : Fin 9 → ℝ) : Fin 9 → ℝ :=
  let dder_sigma_11_imag : ℝ := tensor_sigma_im 0 * 1
  let dder_sigma_22_imag : ℝ := tensor_sigma_im 4 * 1
  let dder_sigma_12_imag : ℝ := 2 * tensor_sigma_im 1 * 1
  ![dder_sigma_11_imag, dder_sigma_12_imag, 0, 0, dder_sigma_22_imag, 0, 0, 0, 0]

/-- `calc_m_sq_cos_sq_para`, output `0`, A_functions_base/integrated_intensity_powder_diffraction.py:36-59. -/
noncomputable def P2 (tensor_sigma_re tensor_sigma_im : Fin 9 → ℝ) : ℝ :=
  let p_2 : ℝ := tensor_sigma_re 2 ^ 2 + tensor_sigma_im 2 ^ 2 + (tensor_sigma_re 5 ^ 2 + tensor_sigma_im 5 ^ 2)
  p_2

/-- `calc_m_sq_cos_sq_para`, output `tensor_sigma_real`, A_functions_base/integrated_intensity_powder_diffraction.py:36-59. -/
noncomputable def d_P2_tensor_sigma_real (tensor_sigma_re tensor_sigma_im : Fin 9 → ℝ) : Fin 9 → ℝ :=
  let dder_sigma_13_real : ℝ := 2 * tensor_sigma_re 2 * 1
  let dder_sigma_23_real : ℝ := 2 * tensor_sigma_re 5 * 1
  ![0, 0, dder_sigma_13_real, 0, 0, dder_sigma_23_real, 0, 0, 0]

/-- `calc_m_sq_cos_sq_para`, output `tensor_sigma_imag`, A_functions_base/integrated_intensity_powder_diffraction.py:36-59. -/
noncomputable def d_P2_tensor_sigma_imag (tensor_sigma_re tensor_sigma_im : Fin 9 → ℝ) : Fin 9 → ℝ :=
  let dder_sigma_13_imag : ℝ := 2 * tensor_sigma_im 2 * 1
  let dder_sigma_23_imag : ℝ := 2 * tensor_sigma_im 5 * 1
  ![0, 0, dder_sigma_13_imag, 0, 0, dder_sigma_23_imag, 0, 0, 0]

/-- `calc_cross_term_para`, output `0`, A_functions_base/integrated_intensity_powder_diffraction.py:62-89. -/
noncomputable def P3 (f_nucl_re f_nucl_im : ℝ) (tensor_sigma_re tensor_sigma_im : Fin 9 → ℝ) : ℝ :=
  let p_3 : ℝ := f_nucl_re * (tensor_sigma_re 0 + tensor_sigma_re 4) + f_nucl_im * (tensor_sigma_im 0 + tensor_sigma_im 4)
  p_3

/-- `calc_cross_term_para`, output `f_nucl_real`, A_functions_base/integrated_intensity_powder_diffraction.py:62-89. -/
noncomputable def d_P3_f_nucl_real (f_nucl_re f_nucl_im : ℝ) (tensor_sigma_re tensor_sigma_im : Fin 9 → ℝ) : ℝ :=
  (tensor_sigma_re 0 + tensor_sigma_re 4) * 1

/-- `calc_cross_term_para`, output `f_nucl_imag`, A_functions_base/integrated_intensity_powder_diffraction.py:62-89. -/
noncomputable def d_P3_f_nucl_imag (f_nucl_re f_nucl_im : ℝ) (tensor_sigma_re tensor_sigma_im : Fin 9 → ℝ) : ℝ :=
  (tensor_sigma_im 0 + tensor_sigma_im 4) * 1

/-- `calc_cross_term_para`, output `tensor_sigma_real`, A_functions_base/integrated_intensity_powder_diffraction.py:62-89. -/
noncomputable def d_P3_tensor_sigma_real (f_nucl_re f_nucl_im : ℝ) (tensor_sigma_re tensor_sigma_im : Fin 9 → ℝ) : Fin 9 → ℝ :=
  let dder_sigma_11_real : ℝ := f_nucl_re * 1
  let dder_sigma_22_real : ℝ := f_nucl_re * 1
  ![dder_sigma_11_real, 0, 0, 0, dder_sigma_22_real, 0, 0, 0, 0]

/-- `calc_cross_term_para`, output `tensor_sigma_imag`, A_functions_base/integrated_intensity_powder_diffraction.py:62-89. -/
noncomputable def d_P3_tensor_sigma_imag (f_nucl_re f_nucl_im : ℝ) (tensor_sigma_re tensor_sigma_im : Fin 9 → ℝ) : Fin 9 → ℝ :=
  let dder_sigma_11_imag : ℝ := f_nucl_im * 1
  let dder_sigma_22_imag : ℝ := f_nucl_im * 1
  ![dder_sigma_11_imag, 0, 0, 0, dder_sigma_22_imag, 0, 0, 0, 0]

/-- `calc_chiral_term_cos_sin_sq_para`, output `0`, A_functions_base/integrated_intensity_powder_diffraction.py:92-122. -/
noncomputable def P4 (tensor_sigma_re tensor_sigma_im : Fin 9 → ℝ) : ℝ :=
  let p_4 : ℝ := tensor_sigma_re 3 * tensor_sigma_im 0 - tensor_sigma_im 3 * tensor_sigma_re 0 + tensor_sigma_re 4 * tensor_sigma_im 1 - tensor_sigma_im 4 * tensor_sigma_re 1
  p_4

/-- `calc_chiral_term_cos_sin_sq_para`, output `tensor_sigma_real`, A_functions_base/integrated_intensity_powder_diffraction.py:92-122. -/
noncomputable def d_P4_tensor_sigma_real (tensor_sigma_re tensor_sigma_im : Fin 9 → ℝ) : Fin 9 → ℝ :=
  let dder_sigma_11_real : ℝ := -tensor_sigma_im 3 * 1
  let dder_sigma_12_real : ℝ := -tensor_sigma_im 4 * 1
  let dder_sigma_21_real : ℝ := tensor_sigma_im 0 * 1
  let dder_sigma_22_real : ℝ := tensor_sigma_im 1 * 1
  ![dder_sigma_11_real, dder_sigma_12_real, 0, dder_sigma_21_real, dder_sigma_22_real, 0, 0, 0, 0]

/-- `calc_chiral_term_cos_sin_sq_para`, output `tensor_sigma_imag`, A_functions_base/integrated_intensity_powder_diffraction.py:92-122. -/
noncomputable def d_P4_tensor_sigma_imag (tensor_sigma_re tensor_sigma_im : Fin 9 → ℝ) : Fin 9 → ℝ :=
  let dder_sigma_11_imag : ℝ := tensor_sigma_re 3 * 1
  let dder_sigma_12_imag : ℝ := tensor_sigma_re 4 * 1
  let dder_sigma_21_imag : ℝ := -tensor_sigma_re 0 * 1
  let dder_sigma_22_imag : ℝ := -tensor_sigma_re 1 * 1
  ![dder_sigma_11_imag, dder_sigma_12_imag, 0, dder_sigma_21_imag, dder_sigma_22_imag, 0, 0, 0, 0]

/-- `calc_chiral_term_cos_cube_para`, output `0`, A_functions_base/integrated_intensity_powder_diffraction.py:125-148. -/
noncomputable def P5 (tensor_sigma_re tensor_sigma_im : Fin 9 → ℝ) : ℝ :=
  let p_5 : ℝ := 2 * (tensor_sigma_re 5 * tensor_sigma_im 2 - tensor_sigma_im 5 * tensor_sigma_re 2)
  p_5

/-- `calc_chiral_term_cos_cube_para`, output `tensor_sigma_real`, A_functions_base/integrated_intensity_powder_diffraction.py:125-148. -/
noncomputable def d_P5_tensor_sigma_real (tensor_sigma_re tensor_sigma_im : Fin 9 → ℝ) : Fin 9 → ℝ :=
  let dder_sigma_13_real : ℝ := -2 * tensor_sigma_im 5 * 1
  let dder_sigma_23_real : ℝ := 2 * tensor_sigma_im 2 * 1
  ![0, 0, dder_sigma_13_real, 0, 0, dder_sigma_23_real, 0, 0, 0]

/-- `calc_chiral_term_cos_cube_para`, output `tensor_sigma_imag`, A_functions_base/integrated_intensity_powder_diffraction.py:125-148. -/
noncomputable def d_P5_tensor_sigma_imag (tensor_sigma_re tensor_sigma_im : Fin 9 → ℝ) : Fin 9 → ℝ :=
  let dder_sigma_13_imag : ℝ := 2 * tensor_sigma_re 5 * 1
  let dder_sigma_23_imag : ℝ := -2 * tensor_sigma_re 2 * 1
  ![0, 0, dder_sigma_13_imag, 0, 0, dder_sigma_23_imag, 0, 0, 0]

/-- `calc_cross_term_ordered`, output `0`, A_functions_base/integrated_intensity_powder_diffraction.py:151-169. -/
noncomputable def O1 (f_nucl_re f_nucl_im : ℝ) (f_m_perp_re f_m_perp_im : Fin 3 → ℝ) : ℝ :=
  let o_1 : ℝ := 2 * (f_nucl_re * f_m_perp_re 2 + f_nucl_im * f_m_perp_im 2)
  o_1

/-- `calc_cross_term_ordered`, output `f_nucl_real`, A_functions_base/integrated_intensity_powder_diffraction.py:151-169. -/
noncomputable def d_O1_f_nucl_real (f_nucl_re f_nucl_im : ℝ) (f_m_perp_re f_m_perp_im : Fin 3 → ℝ) : ℝ :=
  2 * f_m_perp_re 2 * 1

/-- `calc_cross_term_ordered`, output `f_nucl_imag`, A_functions_base/integrated_intensity_powder_diffraction.py:151-169. -/
noncomputable def d_O1_f_nucl_imag (f_nucl_re f_nucl_im : ℝ) (f_m_perp_re f_m_perp_im : Fin 3 → ℝ) : ℝ :=
  2 * f_m_perp_im 2 * 1

/-- `calc_cross_term_ordered`, output `f_m_perp_real`, A_functions_base/integrated_intensity_powder_diffraction.py:151-169. -/
noncomputable def d_O1_f_m_perp_real (f_nucl_re f_nucl_im : ℝ) (f_m_perp_re f_m_perp_im : Fin 3 → ℝ) : Fin 3 → ℝ :=
  let dder_f_m_perp_z_real : ℝ := 2 * f_nucl_re * 1
  ![0, 0, dder_f_m_perp_z_real]

/-- `calc_cross_term_ordered`, output `f_m_perp_imag`, A_functions_base/integrated_intensity_powder_diffraction.py:151-169. -/
noncomputable def d_O1_f_m_perp_imag (f_nucl_re f_nucl_im : ℝ) (f_m_perp_re f_m_perp_im : Fin 3 → ℝ) : Fin 3 → ℝ :=
  let dder_f_m_perp_z_imag : ℝ := 2 * f_nucl_im * 1
  ![0, 0, dder_f_m_perp_z_imag]

/-- `calc_chiral_term_ordered`, output `0`, A_functions_base/integrated_intensity_powder_diffraction.py:172-190. -/
noncomputable def O2 (f_m_perp_re f_m_perp_im : Fin 3 → ℝ) : ℝ :=
  let o_2 : ℝ := 2 * (f_m_perp_re 1 * f_m_perp_im 0 - f_m_perp_im 1 * f_m_perp_re 0)
  o_2

/-- `calc_chiral_term_ordered`, output `f_m_perp_real`, A_functions_base/integrated_intensity_powder_diffraction.py:172-190. -/
noncomputable def d_O2_f_m_perp_real (f_m_perp_re f_m_perp_im : Fin 3 → ℝ) : Fin 3 → ℝ :=
  let dder_f_m_perp_x_real : ℝ := -2 * f_m_perp_im 1 * 1
  let dder_f_m_perp_y_real : ℝ := 2 * f_m_perp_im 0 * 1
  ![dder_f_m_perp_x_real, dder_f_m_perp_y_real, 0]

/-- `calc_chiral_term_ordered`, output `f_m_perp_imag`, A_functions_base/integrated_intensity_powder_diffraction.py:172-190. -/
noncomputable def d_O2_f_m_perp_imag (f_m_perp_re f_m_perp_im : Fin 3 → ℝ) : Fin 3 → ℝ :=
  let dder_f_m_perp_x_imag : ℝ := 2 * f_m_perp_re 1 * 1
  let dder_f_m_perp_y_imag : ℝ := -2 * f_m_perp_re 0 * 1
  ![dder_f_m_perp_x_imag, dder_f_m_perp_y_imag, 0]

/-- `calc_m_sq_mix`, output `0`, A_functions_base/integrated_intensity_powder_diffraction.py:193-231. -/
noncomputable def M1 (tensor_sigma_re tensor_sigma_im : Fin 9 → ℝ) (f_m_perp_re f_m_perp_im : Fin 3 → ℝ) : ℝ :=
  let m_1 : ℝ := 2 * (tensor_sigma_re 2 * f_m_perp_re 0 + tensor_sigma_im 2 * f_m_perp_im 0 + tensor_sigma_re 5 * f_m_perp_re 1 + tensor_sigma_im 5 * f_m_perp_im 1)
  m_1

/-- `calc_m_sq_mix`, output `tensor_sigma_real`, A_functions_base/integrated_intensity_powder_diffraction.py:193-231. -/
noncomputable def d_M1_tensor_sigma_real (tensor_sigma_re tensor_sigma_im : Fin 9 → ℝ) (f_m_perp_re f_m_perp_im : Fin 3 → ℝ) : Fin 9 → ℝ :=
  let dder_sigma_13_real : ℝ := 2 * f_m_perp_re 0 * 1
  let dder_sigma_23_real : ℝ := 2 * f_m_perp_re 1 * 1
  ![0, 0, dder_sigma_13_real, 0, 0, dder_sigma_23_real, 0, 0, 0]

/-- `calc_m_sq_mix`, output `tensor_sigma_imag`, A_functions_base/integrated_intensity_powder_diffraction.py:193-231. -/
noncomputable def d_M1_tensor_sigma_imag (tensor_sigma_re tensor_sigma_im : Fin 9 → ℝ) (f_m_perp_re f_m_perp_im : Fin 3 → ℝ) : Fin 9 → ℝ :=
  let dder_sigma_13_imag : ℝ := 2 * f_m_perp_im 0 * 1
  let dder_sigma_23_imag : ℝ := 2 * f_m_perp_im 1 * 1
  ![0, 0, dder_sigma_13_imag, 0, 0, dder_sigma_23_imag, 0, 0, 0]

/-- `calc_m_sq_mix`, output `f_m_perp_real`, A_functions_base/integrated_intensity_powder_diffraction.py:193-231. -/
noncomputable def d_M1_f_m_perp_real (tensor_sigma_re tensor_sigma_im : Fin 9 → ℝ) (f_m_perp_re f_m_perp_im : Fin 3 → ℝ) : Fin 3 → ℝ :=
  let dder_f_m_perp_x_real : ℝ := 2 * tensor_sigma_re 2 * 1
  let dder_f_m_perp_y_real : ℝ := 2 * tensor_sigma_re 5 * 1
  ![dder_f_m_perp_x_real, dder_f_m_perp_y_real, 0]

/-- `calc_m_sq_mix`, output `f_m_perp_imag`, A_functions_base/integrated_intensity_powder_diffraction.py:193-231. -/
noncomputable def d_M1_f_m_perp_imag (tensor_sigma_re tensor_sigma_im : Fin 9 → ℝ) (f_m_perp_re f_m_perp_im : Fin 3 → ℝ) : Fin 3 → ℝ :=
  let dder_f_m_perp_x_imag : ℝ := 2 * tensor_sigma_im 2 * 1
  let dder_f_m_perp_y_imag : ℝ := 2 * tensor_sigma_im 2 * 1
  ![dder_f_m_perp_x_imag, dder_f_m_perp_y_imag, 0]

/-- `calc_chiral_term_sin_sq_mix`, output `0`, A_functions_base/integrated_intensity_powder_diffraction.py:234-270. -/
noncomputable def M2 (tensor_sigma_re tensor_sigma_im : Fin 9 → ℝ) (f_m_perp_re f_m_perp_im : Fin 3 → ℝ) : ℝ :=
  let m_2 : ℝ := tensor_sigma_re 1 * f_m_perp_im 2 - tensor_sigma_im 1 * f_m_perp_re 2 + tensor_sigma_im 3 * f_m_perp_re 2 - tensor_sigma_re 3 * f_m_perp_im 2
  m_2

/-- `calc_chiral_term_sin_sq_mix`, output `tensor_sigma_real`, A_functions_base/integrated_intensity_powder_diffraction.py:234-270. -/
noncomputable def d_M2_tensor_sigma_real (tensor_sigma_re tensor_sigma_im : Fin 9 → ℝ) (f_m_perp_re f_m_perp_im : Fin 3 → ℝ) : Fin 9 → ℝ :=
  let dder_sigma_12_real : ℝ := f_m_perp_im 2 * 1
  let dder_sigma_21_real : ℝ := -f_m_perp_im 2 * 1
  ![0, dder_sigma_12_real, 0, dder_sigma_21_real, 0, 0, 0, 0, 0]

/-- `calc_chiral_term_sin_sq_mix`, output `tensor_sigma_imag`, A_functions_base/integrated_intensity_powder_diffraction.py:234-270. -/
noncomputable def d_M2_tensor_sigma_imag (tensor_sigma_re tensor_sigma_im : Fin 9 → ℝ) (f_m_perp_re f_m_perp_im : Fin 3 → ℝ) : Fin 9 → ℝ :=
  let dder_sigma_12_imag : ℝ := -f_m_perp_re 2 * 1
  let dder_sigma_21_imag : ℝ := f_m_perp_re 2 * 1
  ![0, dder_sigma_12_imag, 0, dder_sigma_21_imag, 0, 0, 0, 0, 0]

/-- `calc_chiral_term_sin_sq_mix`, output `f_m_perp_real`, A_functions_base/integrated_intensity_powder_diffraction.py:234-270. -/
noncomputable def d_M2_f_m_perp_real (tensor_sigma_re tensor_sigma_im : Fin 9 → ℝ) (f_m_perp_re f_m_perp_im : Fin 3 → ℝ) : Fin 3 → ℝ :=
  let dder_f_m_perp_z_real : ℝ := (-tensor_sigma_im 1 + tensor_sigma_im 3) * 1
  ![0, 0, dder_f_m_perp_z_real]

/-- `calc_chiral_term_sin_sq_mix`, output `f_m_perp_imag`, A_functions_base/integrated_intensity_powder_diffraction.py:234-270. -/
noncomputable def d_M2_f_m_perp_imag (tensor_sigma_re tensor_sigma_im : Fin 9 → ℝ) (f_m_perp_re f_m_perp_im : Fin 3 → ℝ) : Fin 3 → ℝ :=
  let dder_f_m_perp_z_imag : ℝ := (tensor_sigma_re 1 + tensor_sigma_re 3) * 1
  ![0, 0, dder_f_m_perp_z_imag]

/-- `calc_chiral_term_cos_sq_mix`, output `0`, A_functions_base/integrated_intensity_powder_diffraction.py:273-313. -/
noncomputable def M3 (tensor_sigma_re tensor_sigma_im : Fin 9 → ℝ) (f_m_perp_re f_m_perp_im : Fin 3 → ℝ) : ℝ :=
  let m_3 : ℝ := 2 * (tensor_sigma_re 5 * f_m_perp_im 0 - tensor_sigma_im 5 * f_m_perp_re 0 + tensor_sigma_im 2 * f_m_perp_re 1 - tensor_sigma_re 2 * f_m_perp_im 1)
  m_3

/-- `calc_chiral_term_cos_sq_mix`, output `tensor_sigma_real`, A_functions_base/integrated_intensity_powder_diffraction.py:273-313. -/
noncomputable def d_M3_tensor_sigma_real (tensor_sigma_re tensor_sigma_im : Fin 9 → ℝ) (f_m_perp_re f_m_perp_im : Fin 3 → ℝ) : Fin 9 → ℝ :=
  let dder_sigma_13_real : ℝ := -f_m_perp_im 1 * 1
  let dder_sigma_23_real : ℝ := f_m_perp_im 0 * 1
  ![0, 0, dder_sigma_13_real, 0, 0, dder_sigma_23_real, 0, 0, 0]

/-- `calc_chiral_term_cos_sq_mix`, output `tensor_sigma_imag`, A_functions_base/integrated_intensity_powder_diffraction.py:273-313. -/
noncomputable def d_M3_tensor_sigma_imag (tensor_sigma_re tensor_sigma_im : Fin 9 → ℝ) (f_m_perp_re f_m_perp_im : Fin 3 → ℝ) : Fin 9 → ℝ :=
  let dder_sigma_13_imag : ℝ := f_m_perp_re 1 * 1
  let dder_sigma_23_imag : ℝ := -f_m_perp_re 0 * 1
  ![0, 0, dder_sigma_13_imag, 0, 0, dder_sigma_23_imag, 0, 0, 0]

/-- `calc_chiral_term_cos_sq_mix`, output `f_m_perp_real`, A_functions_base/integrated_intensity_powder_diffraction.py:273-313. -/
noncomputable def d_M3_f_m_perp_real (tensor_sigma_re tensor_sigma_im : Fin 9 → ℝ) (f_m_perp_re f_m_perp_im : Fin 3 → ℝ) : Fin 3 → ℝ :=
  let dder_f_m_perp_x_real : ℝ := -2 * tensor_sigma_im 5 * 1
  let dder_f_m_perp_y_real : ℝ := 2 * tensor_sigma_im 2 * 1
  ![dder_f_m_perp_x_real, dder_f_m_perp_y_real, 0]

/-- `calc_chiral_term_cos_sq_mix`, output `f_m_perp_imag`, A_functions_base/integrated_intensity_powder_diffraction.py:273-313. -/
noncomputable def d_M3_f_m_perp_imag (tensor_sigma_re tensor_sigma_im : Fin 9 → ℝ) (f_m_perp_re f_m_perp_im : Fin 3 → ℝ) : Fin 3 → ℝ :=
  let dder_f_m_perp_x_imag : ℝ := 2 * tensor_sigma_re 5 * 1
  let dder_f_m_perp_y_imag : ℝ := -2 * tensor_sigma_re 2 * 1
  ![dder_f_m_perp_x_imag, dder_f_m_perp_y_imag, 0]

/-- `calc_powder_iint_1d_para`, output `0`, A_functions_base/integrated_intensity_powder_diffraction.py:316-352. -/
noncomputable def para_plus (f_nucl_re f_nucl_im : ℝ) (tensor_sigma_re tensor_sigma_im : Fin 9 → ℝ) (polarization : ℝ) (flipper : ℝ) (magnetic_field : ℝ) : ℝ :=
  let f_nucl_sq : ℝ := f_nucl_re ^ 2 + f_nucl_im ^ 2
  let p_1 : ℝ := P1 tensor_sigma_re tensor_sigma_im
  let p_3 : ℝ := P3 f_nucl_re f_nucl_im tensor_sigma_re tensor_sigma_im
  let magnetic_field_sq : ℝ := magnetic_field ^ 2
  let iint_plus : ℝ := f_nucl_sq + magnetic_field_sq * p_1 + polarization * magnetic_field * p_3
  iint_plus

/-- `calc_powder_iint_1d_para`, output `1`, A_functions_base/integrated_intensity_powder_diffraction.py:316-352. -/
noncomputable def para_minus (f_nucl_re f_nucl_im : ℝ) (tensor_sigma_re tensor_sigma_im : Fin 9 → ℝ) (polarization : ℝ) (flipper : ℝ) (magnetic_field : ℝ) : ℝ :=
  let p_d : ℝ := polarization * (2 * flipper - 1)
  let f_nucl_sq : ℝ := f_nucl_re ^ 2 + f_nucl_im ^ 2
  let p_1 : ℝ := P1 tensor_sigma_re tensor_sigma_im
  let p_3 : ℝ := P3 f_nucl_re f_nucl_im tensor_sigma_re tensor_sigma_im
  let magnetic_field_sq : ℝ := magnetic_field ^ 2
  let iint_minus : ℝ := f_nucl_sq + magnetic_field_sq * p_1 - p_d * magnetic_field * p_3
  iint_minus

/-- `calc_powder_iint_1d_para`, output `dder_plus/polarization`, A_functions_base/integrated_intensity_powder_diffraction.py:316-352. -/
noncomputable def d_para_plus_polarization (f_nucl_re f_nucl_im : ℝ) (tensor_sigma_re tensor_sigma_im : Fin 9 → ℝ) (polarization : ℝ) (flipper : ℝ) (magnetic_field : ℝ) : ℝ :=
  let p_3 : ℝ := P3 f_nucl_re f_nucl_im tensor_sigma_re tensor_sigma_im
  magnetic_field * p_3 * 1

/-- `calc_powder_iint_1d_para`, output `dder_minus/polarization`, A_functions_base/integrated_intensity_powder_diffraction.py:316-352. -/
noncomputable def d_para_minus_polarization (f_nucl_re f_nucl_im : ℝ) (tensor_sigma_re tensor_sigma_im : Fin 9 → ℝ) (polarization : ℝ) (flipper : ℝ) (magnetic_field : ℝ) : ℝ :=
  let p_3 : ℝ := P3 f_nucl_re f_nucl_im tensor_sigma_re tensor_sigma_im
  (-1 * magnetic_field * p_3 * (2 * flipper - 1) * 1)

/-- `calc_powder_iint_1d_para`, output `dder_plus/f_nucl_real`, A_functions_base/integrated_intensity_powder_diffraction.py:316-352. -/
noncomputable def d_para_plus_f_nucl_real (f_nucl_re f_nucl_im : ℝ) (tensor_sigma_re tensor_sigma_im : Fin 9 → ℝ) (polarization : ℝ) (flipper : ℝ) (magnetic_field : ℝ) : ℝ :=
  2 * f_nucl_re + polarization * magnetic_field * d_P3_f_nucl_real f_nucl_re f_nucl_im tensor_sigma_re tensor_sigma_im

/-- `calc_powder_iint_1d_para`, output `dder_minus/f_nucl_real`, A_functions_base/integrated_intensity_powder_diffraction.py:316-352. -/
noncomputable def d_para_minus_f_nucl_real (f_nucl_re f_nucl_im : ℝ) (tensor_sigma_re tensor_sigma_im : Fin 9 → ℝ) (polarization : ℝ) (flipper : ℝ) (magnetic_field : ℝ) : ℝ :=
  let p_d : ℝ := polarization * (2 * flipper - 1)
  2 * f_nucl_re - p_d * magnetic_field * d_P3_f_nucl_real f_nucl_re f_nucl_im tensor_sigma_re tensor_sigma_im

/-- `calc_powder_iint_1d_para`, output `dder_plus/f_nucl_imag`, A_functions_base/integrated_intensity_powder_diffraction.py:316-352. -/
noncomputable def d_para_plus_f_nucl_imag (f_nucl_re f_nucl_im : ℝ) (tensor_sigma_re tensor_sigma_im : Fin 9 → ℝ) (polarization : ℝ) (flipper : ℝ) (magnetic_field : ℝ) : ℝ :=
  2 * f_nucl_im + polarization * magnetic_field * d_P3_f_nucl_imag f_nucl_re f_nucl_im tensor_sigma_re tensor_sigma_im

/-- `calc_powder_iint_1d_para`, output `dder_minus/f_nucl_imag`, A_functions_base/integrated_intensity_powder_diffraction.py:316-352. -/
noncomputable def d_para_minus_f_nucl_imag (f_nucl_re f_nucl_im : ℝ) (tensor_sigma_re tensor_sigma_im : Fin 9 → ℝ) (polarization : ℝ) (flipper : ℝ) (magnetic_field : ℝ) : ℝ :=
  let p_d : ℝ := polarization * (2 * flipper - 1)
  2 * f_nucl_im - p_d * magnetic_field * d_P3_f_nucl_imag f_nucl_re f_nucl_im tensor_sigma_re tensor_sigma_im

/-- `calc_powder_iint_1d_para`, output `dder_plus/tensor_sigma_real`, A_functions_base/integrated_intensity_powder_diffraction.py:316-352. -/
noncomputable def d_para_plus_tensor_sigma_real (f_nucl_re f_nucl_im : ℝ) (tensor_sigma_re tensor_sigma_im : Fin 9 → ℝ) (polarization : ℝ) (flipper : ℝ) (magnetic_field : ℝ) : Fin 9 → ℝ :=
  let magnetic_field_sq : ℝ := magnetic_field ^ 2
  ![magnetic_field_sq * d_P1_tensor_sigma_real tensor_sigma_re tensor_sigma_im 0 + polarization * magnetic_field * d_P3_tensor_sigma_real f_nucl_re f_nucl_im tensor_sigma_re tensor_sigma_im 0,
   magnetic_field_sq * d_P1_tensor_sigma_real tensor_sigma_re tensor_sigma_im 1 + polarization * magnetic_field * d_P3_tensor_sigma_real f_nucl_re f_nucl_im tensor_sigma_re tensor_sigma_im 1,
   magnetic_field_sq * d_P1_tensor_sigma_real tensor_sigma_re tensor_sigma_im 2 + polarization * magnetic_field * d_P3_tensor_sigma_real f_nucl_re f_nucl_im tensor_sigma_re tensor_sigma_im 2,
   magnetic_field_sq * d_P1_tensor_sigma_real tensor_sigma_re tensor_sigma_im 3 + polarization * magnetic_field * d_P3_tensor_sigma_real f_nucl_re f_nucl_im tensor_sigma_re tensor_sigma_im 3,
   magnetic_field_sq * d_P1_tensor_sigma_real tensor_sigma_re tensor_sigma_im 4 + polarization * magnetic_field * d_P3_tensor_sigma_real f_nucl_re f_nucl_im tensor_sigma_re tensor_sigma_im 4,
   magnetic_field_sq * d_P1_tensor_sigma_real tensor_sigma_re tensor_sigma_im 5 + polarization * magnetic_field * d_P3_tensor_sigma_real f_nucl_re f_nucl_im tensor_sigma_re tensor_sigma_im 5,
   magnetic_field_sq * d_P1_tensor_sigma_real tensor_sigma_re tensor_sigma_im 6 + polarization * magnetic_field * d_P3_tensor_sigma_real f_nucl_re f_nucl_im tensor_sigma_re tensor_sigma_im 6,
   magnetic_field_sq * d_P1_tensor_sigma_real tensor_sigma_re tensor_sigma_im 7 + polarization * magnetic_field * d_P3_tensor_sigma_real f_nucl_re f_nucl_im tensor_sigma_re tensor_sigma_im 7,
   magnetic_field_sq * d_P1_tensor_sigma_real tensor_sigma_re tensor_sigma_im 8 + polarization * magnetic_field * d_P3_tensor_sigma_real f_nucl_re f_nucl_im tensor_sigma_re tensor_sigma_im 8]

/-- `calc_powder_iint_1d_para`, output `dder_minus/tensor_sigma_real`, A_functions_base/integrated_intensity_powder_diffraction.py:316-352. -/
noncomputable def d_para_minus_tensor_sigma_real (f_nucl_re f_nucl_im : ℝ) (tensor_sigma_re tensor_sigma_im : Fin 9 → ℝ) (polarization : ℝ) (flipper : ℝ) (magnetic_field : ℝ) : Fin 9 → ℝ :=
  let p_d : ℝ := polarization * (2 * flipper - 1)
  let magnetic_field_sq : ℝ := magnetic_field ^ 2
  ![magnetic_field_sq * d_P1_tensor_sigma_real tensor_sigma_re tensor_sigma_im 0 - p_d * magnetic_field * d_P3_tensor_sigma_real f_nucl_re f_nucl_im tensor_sigma_re tensor_sigma_im 0,
   magnetic_field_sq * d_P1_tensor_sigma_real tensor_sigma_re tensor_sigma_im 1 - p_d * magnetic_field * d_P3_tensor_sigma_real f_nucl_re f_nucl_im tensor_sigma_re tensor_sigma_im 1,
   magnetic_field_sq * d_P1_tensor_sigma_real tensor_sigma_re tensor_sigma_im 2 - p_d * magnetic_field * d_P3_tensor_sigma_real f_nucl_re f_nucl_im tensor_sigma_re tensor_sigma_im 2,
   magnetic_field_sq * d_P1_tensor_sigma_real tensor_sigma_re tensor_sigma_im 3 - p_d * magnetic_field * d_P3_tensor_sigma_real f_nucl_re f_nucl_im tensor_sigma_re tensor_sigma_im 3,
   magnetic_field_sq * d_P1_tensor_sigma_real tensor_sigma_re tensor_sigma_im 4 - p_d * magnetic_field * d_P3_tensor_sigma_real f_nucl_re f_nucl_im tensor_sigma_re tensor_sigma_im 4,
   magnetic_field_sq * d_P1_tensor_sigma_real tensor_sigma_re tensor_sigma_im 5 - p_d * magnetic_field * d_P3_tensor_sigma_real f_nucl_re f_nucl_im tensor_sigma_re tensor_sigma_im 5,
   magnetic_field_sq * d_P1_tensor_sigma_real tensor_sigma_re tensor_sigma_im 6 - p_d * magnetic_field * d_P3_tensor_sigma_real f_nucl_re f_nucl_im tensor_sigma_re tensor_sigma_im 6,
   magnetic_field_sq * d_P1_tensor_sigma_real tensor_sigma_re tensor_sigma_im 7 - p_d * magnetic_field * d_P3_tensor_sigma_real f_nucl_re f_nucl_im tensor_sigma_re tensor_sigma_im 7,
   magnetic_field_sq * d_P1_tensor_sigma_real tensor_sigma_re tensor_sigma_im 8 - p_d * magnetic_field * d_P3_tensor_sigma_real f_nucl_re f_nucl_im tensor_sigma_re tensor_sigma_im 8]

/-- `calc_powder_iint_1d_para`, output `dder_plus/tensor_sigma_imag`, A_functions_base/integrated_intensity_powder_diffraction.py:316-352. -/
noncomputable def d_para_plus_tensor_sigma_imag (f_nucl_re f_nucl_im : ℝ) (tensor_sigma_re tensor_sigma_im : Fin 9 → ℝ) (polarization : ℝ) (flipper : ℝ) (magnetic_field : ℝ) : Fin 9 → ℝ :=
  let magnetic_field_sq : ℝ := magnetic_field ^ 2
  ![magnetic_field_sq * d_P1_tensor_sigma_imag tensor_sigma_re tensor_sigma_im 0 + polarization * magnetic_field * d_P3_tensor_sigma_imag f_nucl_re f_nucl_im tensor_sigma_re tensor_sigma_im 0,
   magnetic_field_sq * d_P1_tensor_sigma_imag tensor_sigma_re tensor_sigma_im 1 + polarization * magnetic_field * d_P3_tensor_sigma_imag f_nucl_re f_nucl_im tensor_sigma_re tensor_sigma_im 1,
   magnetic_field_sq * d_P1_tensor_sigma_imag tensor_sigma_re tensor_sigma_im 2 + polarization * magnetic_field * d_P3_tensor_sigma_imag f_nucl_re f_nucl_im tensor_sigma_re tensor_sigma_im 2,
   magnetic_field_sq * d_P1_tensor_sigma_imag tensor_sigma_re tensor_sigma_im 3 + polarization * magnetic_field * d_P3_tensor_sigma_imag f_nucl_re f_nucl_im tensor_sigma_re tensor_sigma_im 3,
   magnetic_field_sq * d_P1_tensor_sigma_imag tensor_sigma_re tensor_sigma_im 4 + polarization * magnetic_field * d_P3_tensor_sigma_imag f_nucl_re f_nucl_im tensor_sigma_re tensor_sigma_im 4,
   magnetic_field_sq * d_P1_tensor_sigma_imag tensor_sigma_re tensor_sigma_im 5 + polarization * magnetic_field * d_P3_tensor_sigma_imag f_nucl_re f_nucl_im tensor_sigma_re tensor_sigma_im 5,
   magnetic_field_sq * d_P1_tensor_sigma_imag tensor_sigma_re tensor_sigma_im 6 + polarization * magnetic_field * d_P3_tensor_sigma_imag f_nucl_re f_nucl_im tensor_sigma_re tensor_sigma_im 6,
   magnetic_field_sq * d_P1_tensor_sigma_imag tensor_sigma_re tensor_sigma_im 7 + polarization * magnetic_field * d_P3_tensor_sigma_imag f_nucl_re f_nucl_im tensor_sigma_re tensor_sigma_im 7,
   magnetic_field_sq * d_P1_tensor_sigma_imag tensor_sigma_re tensor_sigma_im 8 + polarization * magnetic_field * d_P3_tensor_sigma_imag f_nucl_re f_nucl_im tensor_sigma_re tensor_sigma_im 8]

/-- `calc_powder_iint_1d_para`, output `dder_minus/tensor_sigma_imag`, A_functions_base/integrated_intensity_powder_diffraction.py:316-352. -/
noncomputable def d_para_minus_tensor_sigma_imag (f_nucl_re f_nucl_im : ℝ) (tensor_sigma_re tensor_sigma_im : Fin 9 → ℝ) (polarization : ℝ) (flipper : ℝ) (magnetic_field : ℝ) : Fin 9 → ℝ :=
  let p_d : ℝ := polarization * (2 * flipper - 1)
  let magnetic_field_sq : ℝ := magnetic_field ^ 2
  ![magnetic_field_sq * d_P1_tensor_sigma_imag tensor_sigma_re tensor_sigma_im 0 - p_d * magnetic_field * d_P3_tensor_sigma_imag f_nucl_re f_nucl_im tensor_sigma_re tensor_sigma_im 0,
   magnetic_field_sq * d_P1_tensor_sigma_imag tensor_sigma_re tensor_sigma_im 1 - p_d * magnetic_field * d_P3_tensor_sigma_imag f_nucl_re f_nucl_im tensor_sigma_re tensor_sigma_im 1,
   magnetic_field_sq * d_P1_tensor_sigma_imag tensor_sigma_re tensor_sigma_im 2 - p_d * magnetic_field * d_P3_tensor_sigma_imag f_nucl_re f_nucl_im tensor_sigma_re tensor_sigma_im 2,
   magnetic_field_sq * d_P1_tensor_sigma_imag tensor_sigma_re tensor_sigma_im 3 - p_d * magnetic_field * d_P3_tensor_sigma_imag f_nucl_re f_nucl_im tensor_sigma_re tensor_sigma_im 3,
   magnetic_field_sq * d_P1_tensor_sigma_imag tensor_sigma_re tensor_sigma_im 4 - p_d * magnetic_field * d_P3_tensor_sigma_imag f_nucl_re f_nucl_im tensor_sigma_re tensor_sigma_im 4,
   magnetic_field_sq * d_P1_tensor_sigma_imag tensor_sigma_re tensor_sigma_im 5 - p_d * magnetic_field * d_P3_tensor_sigma_imag f_nucl_re f_nucl_im tensor_sigma_re tensor_sigma_im 5,
   magnetic_field_sq * d_P1_tensor_sigma_imag tensor_sigma_re tensor_sigma_im 6 - p_d * magnetic_field * d_P3_tensor_sigma_imag f_nucl_re f_nucl_im tensor_sigma_re tensor_sigma_im 6,
   magnetic_field_sq * d_P1_tensor_sigma_imag tensor_sigma_re tensor_sigma_im 7 - p_d * magnetic_field * d_P3_tensor_sigma_imag f_nucl_re f_nucl_im tensor_sigma_re tensor_sigma_im 7,
   magnetic_field_sq * d_P1_tensor_sigma_imag tensor_sigma_re tensor_sigma_im 8 - p_d * magnetic_field * d_P3_tensor_sigma_imag f_nucl_re f_nucl_im tensor_sigma_re tensor_sigma_im 8]

/-- `calc_powder_iint_1d_para`, output `dder_minus/flipper`, A_functions_base/integrated_intensity_powder_diffraction.py:316-352. -/
noncomputable def d_para_minus_flipper (f_nucl_re f_nucl_im : ℝ) (tensor_sigma_re tensor_sigma_im : Fin 9 → ℝ) (polarization : ℝ) (flipper : ℝ) (magnetic_field : ℝ) : ℝ :=
  let p_3 : ℝ := P3 f_nucl_re f_nucl_im tensor_sigma_re tensor_sigma_im
  (-2 * magnetic_field * p_3 * polarization * 1)

/-- `calc_powder_iint_1d_ordered`, output `0`, A_functions_base/integrated_intensity_powder_diffraction.py:355-374. -/
noncomputable def ordered (f_nucl_re f_nucl_im : ℝ) (f_m_perp_re f_m_perp_im : Fin 3 → ℝ) : ℝ :=
  let f_nucl_sq : ℝ := f_nucl_re ^ 2 + f_nucl_im ^ 2
  let f_m_perp_sq : ℝ := f_m_perp_re 0 ^ 2 + f_m_perp_im 0 ^ 2 + (f_m_perp_re 1 ^ 2 + f_m_perp_im 1 ^ 2) + (f_m_perp_re 2 ^ 2 + f_m_perp_im 2 ^ 2)
  let iint : ℝ := f_nucl_sq + f_m_perp_sq
  iint

/-- `calc_powder_iint_1d_ordered`, output `f_nucl_real`, A_functions_base/integrated_intensity_powder_diffraction.py:355-374. -/
noncomputable def d_ordered_f_nucl_real (f_nucl_re f_nucl_im : ℝ) (f_m_perp_re f_m_perp_im : Fin 3 → ℝ) : ℝ :=
  2 * f_nucl_re

/-- `calc_powder_iint_1d_ordered`, output `f_nucl_imag`, A_functions_base/integrated_intensity_powder_diffraction.py:355-374. -/
noncomputable def d_ordered_f_nucl_imag (f_nucl_re f_nucl_im : ℝ) (f_m_perp_re f_m_perp_im : Fin 3 → ℝ) : ℝ :=
  2 * f_nucl_im

/-- `calc_powder_iint_1d_ordered`, output `f_m_perp_real`, A_functions_base/integrated_intensity_powder_diffraction.py:355-374. -/
noncomputable def d_ordered_f_m_perp_real (f_nucl_re f_nucl_im : ℝ) (f_m_perp_re f_m_perp_im : Fin 3 → ℝ) : Fin 3 → ℝ :=
  ![2 * f_m_perp_re 0, 2 * f_m_perp_re 1, 2 * f_m_perp_re 2]

/-- `calc_powder_iint_1d_ordered`, output `f_m_perp_imag`, A_functions_base/integrated_intensity_powder_diffraction.py:355-374. -/
noncomputable def d_ordered_f_m_perp_imag (f_nucl_re f_nucl_im : ℝ) (f_m_perp_re f_m_perp_im : Fin 3 → ℝ) : Fin 3 → ℝ :=
  ![2 * f_m_perp_im 0, 2 * f_m_perp_im 1, 2 * f_m_perp_im 2]

/-- `calc_powder_iint_1d_mix`, output `0`, A_functions_base/integrated_intensity_powder_diffraction.py:377-425. -/
noncomputable def mix_plus (f_nucl_re f_nucl_im : ℝ) (f_m_perp_re f_m_perp_im : Fin 3 → ℝ) (tensor_sigma_re tensor_sigma_im : Fin 9 → ℝ) (polarization : ℝ) (flipper : ℝ) (magnetic_field : ℝ) : ℝ :=
  let iint_plus_para : ℝ := para_plus f_nucl_re f_nucl_im tensor_sigma_re tensor_sigma_im polarization flipper magnetic_field
  let f_m_perp_sq : ℝ := f_m_perp_re 0 ^ 2 + f_m_perp_im 0 ^ 2 + (f_m_perp_re 1 ^ 2 + f_m_perp_im 1 ^ 2) + (f_m_perp_re 2 ^ 2 + f_m_perp_im 2 ^ 2)
  let m_2 : ℝ := M2 tensor_sigma_re tensor_sigma_im f_m_perp_re f_m_perp_im
  let iint_plus : ℝ := iint_plus_para + f_m_perp_sq + polarization * magnetic_field * m_2
  iint_plus

/-- `calc_powder_iint_1d_mix`, output `1`, A_functions_base/integrated_intensity_powder_diffraction.py:377-425. -/
noncomputable def mix_minus (f_nucl_re f_nucl_im : ℝ) (f_m_perp_re f_m_perp_im : Fin 3 → ℝ) (tensor_sigma_re tensor_sigma_im : Fin 9 → ℝ) (polarization : ℝ) (flipper : ℝ) (magnetic_field : ℝ) : ℝ :=
  let p_d : ℝ := polarization * (2 * flipper - 1)
  let iint_minus_para : ℝ := para_minus f_nucl_re f_nucl_im tensor_sigma_re tensor_sigma_im polarization flipper magnetic_field
  let f_m_perp_sq : ℝ := f_m_perp_re 0 ^ 2 + f_m_perp_im 0 ^ 2 + (f_m_perp_re 1 ^ 2 + f_m_perp_im 1 ^ 2) + (f_m_perp_re 2 ^ 2 + f_m_perp_im 2 ^ 2)
  let m_2 : ℝ := M2 tensor_sigma_re tensor_sigma_im f_m_perp_re f_m_perp_im
  let iint_minus : ℝ := iint_minus_para + f_m_perp_sq + p_d * magnetic_field * m_2
  iint_minus

/-- `calc_powder_iint_1d_mix`, output `dder_plus/polarization`, A_functions_base/integrated_intensity_powder_diffraction.py:377-425. -/
noncomputable def d_mix_plus_polarization (f_nucl_re f_nucl_im : ℝ) (f_m_perp_re f_m_perp_im : Fin 3 → ℝ) (tensor_sigma_re tensor_sigma_im : Fin 9 → ℝ) (polarization : ℝ) (flipper : ℝ) (magnetic_field : ℝ) : ℝ :=
  let m_2 : ℝ := M2 tensor_sigma_re tensor_sigma_im f_m_perp_re f_m_perp_im
  d_para_plus_polarization f_nucl_re f_nucl_im tensor_sigma_re tensor_sigma_im polarization flipper magnetic_field + magnetic_field * m_2 * 1

/-- `calc_powder_iint_1d_mix`, output `dder_minus/polarization`, A_functions_base/integrated_intensity_powder_diffraction.py:377-425. -/
noncomputable def d_mix_minus_polarization (f_nucl_re f_nucl_im : ℝ) (f_m_perp_re f_m_perp_im : Fin 3 → ℝ) (tensor_sigma_re tensor_sigma_im : Fin 9 → ℝ) (polarization : ℝ) (flipper : ℝ) (magnetic_field : ℝ) : ℝ :=
  let m_2 : ℝ := M2 tensor_sigma_re tensor_sigma_im f_m_perp_re f_m_perp_im
  d_para_minus_polarization f_nucl_re f_nucl_im tensor_sigma_re tensor_sigma_im polarization flipper magnetic_field + magnetic_field * m_2 * (2 * flipper - 1) * 1

/-- `calc_powder_iint_1d_mix`, output `dder_plus/f_nucl_real`, A_functions_base/integrated_intensity_powder_diffraction.py:377-425. -/
noncomputable def d_mix_plus_f_nucl_real (f_nucl_re f_nucl_im : ℝ) (f_m_perp_re f_m_perp_im : Fin 3 → ℝ) (tensor_sigma_re tensor_sigma_im : Fin 9 → ℝ) (polarization : ℝ) (flipper : ℝ) (magnetic_field : ℝ) : ℝ :=
  d_para_plus_f_nucl_real f_nucl_re f_nucl_im tensor_sigma_re tensor_sigma_im polarization flipper magnetic_field

/-- `calc_powder_iint_1d_mix`, output `dder_minus/f_nucl_real`, A_functions_base/integrated_intensity_powder_diffraction.py:377-425. -/
noncomputable def d_mix_minus_f_nucl_real (f_nucl_re f_nucl_im : ℝ) (f_m_perp_re f_m_perp_im : Fin 3 → ℝ) (tensor_sigma_re tensor_sigma_im : Fin 9 → ℝ) (polarization : ℝ) (flipper : ℝ) (magnetic_field : ℝ) : ℝ :=
  d_para_minus_f_nucl_real f_nucl_re f_nucl_im tensor_sigma_re tensor_sigma_im polarization flipper magnetic_field

/-- `calc_powder_iint_1d_mix`, output `dder_plus/f_m_perp_ordered_real`, A_functions_base/integrated_intensity_powder_diffraction.py:377-425. -/
noncomputable def d_mix_plus_f_m_perp_ordered_real (f_nucl_re f_nucl_im : ℝ) (f_m_perp_re f_m_perp_im : Fin 3 → ℝ) (tensor_sigma_re tensor_sigma_im : Fin 9 → ℝ) (polarization : ℝ) (flipper : ℝ) (magnetic_field : ℝ) : Fin 3 → ℝ :=
  ![2 * f_m_perp_re 0 + polarization * magnetic_field * d_M2_f_m_perp_real tensor_sigma_re tensor_sigma_im f_m_perp_re f_m_perp_im 0,
   2 * f_m_perp_re 1 + polarization * magnetic_field * d_M2_f_m_perp_real tensor_sigma_re tensor_sigma_im f_m_perp_re f_m_perp_im 1,
   2 * f_m_perp_re 2 + polarization * magnetic_field * d_M2_f_m_perp_real tensor_sigma_re tensor_sigma_im f_m_perp_re f_m_perp_im 2]

/-- `calc_powder_iint_1d_mix`, output `dder_minus/f_m_perp_ordered_real`, A_functions_base/integrated_intensity_powder_diffraction.py:377-425. -/
noncomputable def d_mix_minus_f_m_perp_ordered_real (f_nucl_re f_nucl_im : ℝ) (f_m_perp_re f_m_perp_im : Fin 3 → ℝ) (tensor_sigma_re tensor_sigma_im : Fin 9 → ℝ) (polarization : ℝ) (flipper : ℝ) (magnetic_field : ℝ) : Fin 3 → ℝ :=
  let p_d : ℝ := polarization * (2 * flipper - 1)
  ![2 * f_m_perp_re 0 + p_d * magnetic_field * d_M2_f_m_perp_real tensor_sigma_re tensor_sigma_im f_m_perp_re f_m_perp_im 0,
   2 * f_m_perp_re 1 + p_d * magnetic_field * d_M2_f_m_perp_real tensor_sigma_re tensor_sigma_im f_m_perp_re f_m_perp_im 1,
   2 * f_m_perp_re 2 + p_d * magnetic_field * d_M2_f_m_perp_real tensor_sigma_re tensor_sigma_im f_m_perp_re f_m_perp_im 2]

/-- `calc_powder_iint_1d_mix`, output `dder_plus/f_m_perp_ordered_imag`, A_functions_base/integrated_intensity_powder_diffraction.py:377-425. -/
noncomputable def d_mix_plus_f_m_perp_ordered_imag (f_nucl_re f_nucl_im : ℝ) (f_m_perp_re f_m_perp_im : Fin 3 → ℝ) (tensor_sigma_re tensor_sigma_im : Fin 9 → ℝ) (polarization : ℝ) (flipper : ℝ) (magnetic_field : ℝ) : Fin 3 → ℝ :=
  ![2 * f_m_perp_im 0 + polarization * magnetic_field * d_M2_f_m_perp_imag tensor_sigma_re tensor_sigma_im f_m_perp_re f_m_perp_im 0,
   2 * f_m_perp_im 1 + polarization * magnetic_field * d_M2_f_m_perp_imag tensor_sigma_re tensor_sigma_im f_m_perp_re f_m_perp_im 1,
   2 * f_m_perp_im 2 + polarization * magnetic_field * d_M2_f_m_perp_imag tensor_sigma_re tensor_sigma_im f_m_perp_re f_m_perp_im 2]

/-- `calc_powder_iint_1d_mix`, output `dder_minus/f_m_perp_ordered_imag`, A_functions_base/integrated_intensity_powder_diffraction.py:377-425. -/
noncomputable def d_mix_minus_f_m_perp_ordered_imag (f_nucl_re f_nucl_im : ℝ) (f_m_perp_re f_m_perp_im : Fin 3 → ℝ) (tensor_sigma_re tensor_sigma_im : Fin 9 → ℝ) (polarization : ℝ) (flipper : ℝ) (magnetic_field : ℝ) : Fin 3 → ℝ :=
  let p_d : ℝ := polarization * (2 * flipper - 1)
  ![2 * f_m_perp_im 0 + p_d * magnetic_field * d_M2_f_m_perp_imag tensor_sigma_re tensor_sigma_im f_m_perp_re f_m_perp_im 0,
   2 * f_m_perp_im 1 + p_d * magnetic_field * d_M2_f_m_perp_imag tensor_sigma_re tensor_sigma_im f_m_perp_re f_m_perp_im 1,
   2 * f_m_perp_im 2 + p_d * magnetic_field * d_M2_f_m_perp_imag tensor_sigma_re tensor_sigma_im f_m_perp_re f_m_perp_im 2]

/-- `calc_powder_iint_1d_mix`, output `dder_plus/tensor_sigma_real`, A_functions_base/integrated_intensity_powder_diffraction.py:377-425. -/
noncomputable def d_mix_plus_tensor_sigma_real (f_nucl_re f_nucl_im : ℝ) (f_m_perp_re f_m_perp_im : Fin 3 → ℝ) (tensor_sigma_re tensor_sigma_im : Fin 9 → ℝ) (polarization : ℝ) (flipper : ℝ) (magnetic_field : ℝ) : Fin 9 → ℝ :=
  ![d_para_plus_tensor_sigma_real f_nucl_re f_nucl_im tensor_sigma_re tensor_sigma_im polarization flipper magnetic_field 0 + polarization * magnetic_field * d_M2_tensor_sigma_real tensor_sigma_re tensor_sigma_im f_m_perp_re f_m_perp_im 0,
   d_para_plus_tensor_sigma_real f_nucl_re f_nucl_im tensor_sigma_re tensor_sigma_im polarization flipper magnetic_field 1 + polarization * magnetic_field * d_M2_tensor_sigma_real tensor_sigma_re tensor_sigma_im f_m_perp_re f_m_perp_im 1,
   d_para_plus_tensor_sigma_real f_nucl_re f_nucl_im tensor_sigma_re tensor_sigma_im polarization flipper magnetic_field 2 + polarization * magnetic_field * d_M2_tensor_sigma_real tensor_sigma_re tensor_sigma_im f_m_perp_re f_m_perp_im 2,
   d_para_plus_tensor_sigma_real f_nucl_re f_nucl_im tensor_sigma_re tensor_sigma_im polarization flipper magnetic_field 3 + polarization * magnetic_field * d_M2_tensor_sigma_real tensor_sigma_re tensor_sigma_im f_m_perp_re f_m_perp_im 3,
   d_para_plus_tensor_sigma_real f_nucl_re f_nucl_im tensor_sigma_re tensor_sigma_im polarization flipper magnetic_field 4 + polarization * magnetic_field * d_M2_tensor_sigma_real tensor_sigma_re tensor_sigma_im f_m_perp_re f_m_perp_im 4,
   d_para_plus_tensor_sigma_real f_nucl_re f_nucl_im tensor_sigma_re tensor_sigma_im polarization flipper magnetic_field 5 + polarization * magnetic_field * d_M2_tensor_sigma_real tensor_sigma_re tensor_sigma_im f_m_perp_re f_m_perp_im 5,
   d_para_plus_tensor_sigma_real f_nucl_re f_nucl_im tensor_sigma_re tensor_sigma_im polarization flipper magnetic_field 6 + polarization * magnetic_field * d_M2_tensor_sigma_real tensor_sigma_re tensor_sigma_im f_m_perp_re f_m_perp_im 6,
   d_para_plus_tensor_sigma_real f_nucl_re f_nucl_im tensor_sigma_re tensor_sigma_im polarization flipper magnetic_field 7 + polarization * magnetic_field * d_M2_tensor_sigma_real tensor_sigma_re tensor_sigma_im f_m_perp_re f_m_perp_im 7,
   d_para_plus_tensor_sigma_real f_nucl_re f_nucl_im tensor_sigma_re tensor_sigma_im polarization flipper magnetic_field 8 + polarization * magnetic_field * d_M2_tensor_sigma_real tensor_sigma_re tensor_sigma_im f_m_perp_re f_m_perp_im 8]

/-- `calc_powder_iint_1d_mix`, output `dder_minus/tensor_sigma_real`, A_functions_base/integrated_intensity_powder_diffraction.py:377-425. -/
noncomputable def d_mix_minus_tensor_sigma_real (f_nucl_re f_nucl_im : ℝ) (f_m_perp_re f_m_perp_im : Fin 3 → ℝ) (tensor_sigma_re tensor_sigma_im : Fin 9 → ℝ) (polarization : ℝ) (flipper : ℝ) (magnetic_field : ℝ) : Fin 9 → ℝ :=
  let p_d : ℝ := polarization * (2 * flipper - 1)
  ![d_para_minus_tensor_sigma_real f_nucl_re f_nucl_im tensor_sigma_re tensor_sigma_im polarization flipper magnetic_field 0 + p_d * magnetic_field * d_M2_tensor_sigma_real tensor_sigma_re tensor_sigma_im f_m_perp_re f_m_perp_im 0,
   d_para_minus_tensor_sigma_real f_nucl_re f_nucl_im tensor_sigma_re tensor_sigma_im polarization flipper magnetic_field 1 + p_d * magnetic_field * d_M2_tensor_sigma_real tensor_sigma_re tensor_sigma_im f_m_perp_re f_m_perp_im 1,
   d_para_minus_tensor_sigma_real f_nucl_re f_nucl_im tensor_sigma_re tensor_sigma_im polarization flipper magnetic_field 2 + p_d * magnetic_field * d_M2_tensor_sigma_real tensor_sigma_re tensor_sigma_im f_m_perp_re f_m_perp_im 2,
   d_para_minus_tensor_sigma_real f_nucl_re f_nucl_im tensor_sigma_re tensor_sigma_im polarization flipper magnetic_field 3 + p_d * magnetic_field * d_M2_tensor_sigma_real tensor_sigma_re tensor_sigma_im f_m_perp_re f_m_perp_im 3,
   d_para_minus_tensor_sigma_real f_nucl_re f_nucl_im tensor_sigma_re tensor_sigma_im polarization flipper magnetic_field 4 + p_d * magnetic_field * d_M2_tensor_sigma_real tensor_sigma_re tensor_sigma_im f_m_perp_re f_m_perp_im 4,
   d_para_minus_tensor_sigma_real f_nucl_re f_nucl_im tensor_sigma_re tensor_sigma_im polarization flipper magnetic_field 5 + p_d * magnetic_field * d_M2_tensor_sigma_real tensor_sigma_re tensor_sigma_im f_m_perp_re f_m_perp_im 5,
   d_para_minus_tensor_sigma_real f_nucl_re f_nucl_im tensor_sigma_re tensor_sigma_im polarization flipper magnetic_field 6 + p_d * magnetic_field * d_M2_tensor_sigma_real tensor_sigma_re tensor_sigma_im f_m_perp_re f_m_perp_im 6,
   d_para_minus_tensor_sigma_real f_nucl_re f_nucl_im tensor_sigma_re tensor_sigma_im polarization flipper magnetic_field 7 + p_d * magnetic_field * d_M2_tensor_sigma_real tensor_sigma_re tensor_sigma_im f_m_perp_re f_m_perp_im 7,
   d_para_minus_tensor_sigma_real f_nucl_re f_nucl_im tensor_sigma_re tensor_sigma_im polarization flipper magnetic_field 8 + p_d * magnetic_field * d_M2_tensor_sigma_real tensor_sigma_re tensor_sigma_im f_m_perp_re f_m_perp_im 8]

/-- `calc_powder_iint_1d_mix`, output `dder_plus/tensor_sigma_imag`, A_functions_base/integrated_intensity_powder_diffraction.py:377-425. -/
noncomputable def d_mix_plus_tensor_sigma_imag (f_nucl_re f_nucl_im : ℝ) (f_m_perp_re f_m_perp_im : Fin 3 → ℝ) (tensor_sigma_re tensor_sigma_im : Fin 9 → ℝ) (polarization : ℝ) (flipper : ℝ) (magnetic_field : ℝ) : Fin 9 → ℝ :=
  ![d_para_plus_tensor_sigma_imag f_nucl_re f_nucl_im tensor_sigma_re tensor_sigma_im polarization flipper magnetic_field 0 + polarization * magnetic_field * d_M2_tensor_sigma_imag tensor_sigma_re tensor_sigma_im f_m_perp_re f_m_perp_im 0,
   d_para_plus_tensor_sigma_imag f_nucl_re f_nucl_im tensor_sigma_re tensor_sigma_im polarization flipper magnetic_field 1 + polarization * magnetic_field * d_M2_tensor_sigma_imag tensor_sigma_re tensor_sigma_im f_m_perp_re f_m_perp_im 1,
   d_para_plus_tensor_sigma_imag f_nucl_re f_nucl_im tensor_sigma_re tensor_sigma_im polarization flipper magnetic_field 2 + polarization * magnetic_field * d_M2_tensor_sigma_imag tensor_sigma_re tensor_sigma_im f_m_perp_re f_m_perp_im 2,
   d_para_plus_tensor_sigma_imag f_nucl_re f_nucl_im tensor_sigma_re tensor_sigma_im polarization flipper magnetic_field 3 + polarization * magnetic_field * d_M2_tensor_sigma_imag tensor_sigma_re tensor_sigma_im f_m_perp_re f_m_perp_im 3,
   d_para_plus_tensor_sigma_imag f_nucl_re f_nucl_im tensor_sigma_re tensor_sigma_im polarization flipper magnetic_field 4 + polarization * magnetic_field * d_M2_tensor_sigma_imag tensor_sigma_re tensor_sigma_im f_m_perp_re f_m_perp_im 4,
   d_para_plus_tensor_sigma_imag f_nucl_re f_nucl_im tensor_sigma_re tensor_sigma_im polarization flipper magnetic_field 5 + polarization * magnetic_field * d_M2_tensor_sigma_imag tensor_sigma_re tensor_sigma_im f_m_perp_re f_m_perp_im 5,
   d_para_plus_tensor_sigma_imag f_nucl_re f_nucl_im tensor_sigma_re tensor_sigma_im polarization flipper magnetic_field 6 + polarization * magnetic_field * d_M2_tensor_sigma_imag tensor_sigma_re tensor_sigma_im f_m_perp_re f_m_perp_im 6,
   d_para_plus_tensor_sigma_imag f_nucl_re f_nucl_im tensor_sigma_re tensor_sigma_im polarization flipper magnetic_field 7 + polarization * magnetic_field * d_M2_tensor_sigma_imag tensor_sigma_re tensor_sigma_im f_m_perp_re f_m_perp_im 7,
   d_para_plus_tensor_sigma_imag f_nucl_re f_nucl_im tensor_sigma_re tensor_sigma_im polarization flipper magnetic_field 8 + polarization * magnetic_field * d_M2_tensor_sigma_imag tensor_sigma_re tensor_sigma_im f_m_perp_re f_m_perp_im 8]

/-- `calc_powder_iint_1d_mix`, output `dder_minus/tensor_sigma_imag`, A_functions_base/integrated_intensity_powder_diffraction.py:377-425. -/
noncomputable def d_mix_minus_tensor_sigma_imag (f_nucl_re f_nucl_im : ℝ) (f_m_perp_re f_m_perp_im : Fin 3 → ℝ) (tensor_sigma_re tensor_sigma_im : Fin 9 → ℝ) (polarization : ℝ) (flipper : ℝ) (magnetic_field : ℝ) : Fin 9 → ℝ :=
  let p_d : ℝ := polarization * (2 * flipper - 1)
  ![d_para_minus_tensor_sigma_imag f_nucl_re f_nucl_im tensor_sigma_re tensor_sigma_im polarization flipper magnetic_field 0 + p_d * magnetic_field * d_M2_tensor_sigma_imag tensor_sigma_re tensor_sigma_im f_m_perp_re f_m_perp_im 0,
   d_para_minus_tensor_sigma_imag f_nucl_re f_nucl_im tensor_sigma_re tensor_sigma_im polarization flipper magnetic_field 1 + p_d * magnetic_field * d_M2_tensor_sigma_imag tensor_sigma_re tensor_sigma_im f_m_perp_re f_m_perp_im 1,
   d_para_minus_tensor_sigma_imag f_nucl_re f_nucl_im tensor_sigma_re tensor_sigma_im polarization flipper magnetic_field 2 + p_d * magnetic_field * d_M2_tensor_sigma_imag tensor_sigma_re tensor_sigma_im f_m_perp_re f_m_perp_im 2,
   d_para_minus_tensor_sigma_imag f_nucl_re f_nucl_im tensor_sigma_re tensor_sigma_im polarization flipper magnetic_field 3 + p_d * magnetic_field * d_M2_tensor_sigma_imag tensor_sigma_re tensor_sigma_im f_m_perp_re f_m_perp_im 3,
   d_para_minus_tensor_sigma_imag f_nucl_re f_nucl_im tensor_sigma_re tensor_sigma_im polarization flipper magnetic_field 4 + p_d * magnetic_field * d_M2_tensor_sigma_imag tensor_sigma_re tensor_sigma_im f_m_perp_re f_m_perp_im 4,
   d_para_minus_tensor_sigma_imag f_nucl_re f_nucl_im tensor_sigma_re tensor_sigma_im polarization flipper magnetic_field 5 + p_d * magnetic_field * d_M2_tensor_sigma_imag tensor_sigma_re tensor_sigma_im f_m_perp_re f_m_perp_im 5,
   d_para_minus_tensor_sigma_imag f_nucl_re f_nucl_im tensor_sigma_re tensor_sigma_im polarization flipper magnetic_field 6 + p_d * magnetic_field * d_M2_tensor_sigma_imag tensor_sigma_re tensor_sigma_im f_m_perp_re f_m_perp_im 6,
   d_para_minus_tensor_sigma_imag f_nucl_re f_nucl_im tensor_sigma_re tensor_sigma_im polarization flipper magnetic_field 7 + p_d * magnetic_field * d_M2_tensor_sigma_imag tensor_sigma_re tensor_sigma_im f_m_perp_re f_m_perp_im 7,
   d_para_minus_tensor_sigma_imag f_nucl_re f_nucl_im tensor_sigma_re tensor_sigma_im polarization flipper magnetic_field 8 + p_d * magnetic_field * d_M2_tensor_sigma_imag tensor_sigma_re tensor_sigma_im f_m_perp_re f_m_perp_im 8]

/-- `calc_powder_iint_2d_para`, output `0`, A_functions_base/integrated_intensity_powder_diffraction.py:428-481. -/
noncomputable def para2_plus (f_nucl_re f_nucl_im : ℝ) (tensor_sigma_re tensor_sigma_im : Fin 9 → ℝ) (beam_polarization : ℝ) (flipper_efficiency : ℝ) (magnetic_field : ℝ) (alpha_det : ℝ) : ℝ :=
  let s_a_sq : ℝ := Real.sin alpha_det ^ 2
  let c_a : ℝ := Real.cos alpha_det
  let f_nucl_sq : ℝ := f_nucl_re ^ 2 + f_nucl_im ^ 2
  let p_1 : ℝ := P1 tensor_sigma_re tensor_sigma_im
  let p_2 : ℝ := P2 tensor_sigma_re tensor_sigma_im
  let p_3 : ℝ := P3 f_nucl_re f_nucl_im tensor_sigma_re tensor_sigma_im
  let p_4 : ℝ := P4 tensor_sigma_re tensor_sigma_im
  let p_5 : ℝ := P5 tensor_sigma_re tensor_sigma_im
  let magnetic_field_sq : ℝ := magnetic_field ^ 2
  let iint_plus : ℝ := f_nucl_sq + magnetic_field_sq * p_2 + (magnetic_field_sq * p_1 - magnetic_field_sq * p_2 + beam_polarization * magnetic_field * p_3) * s_a_sq + beam_polarization * magnetic_field_sq * ((p_4 - p_5) * s_a_sq + p_5) * c_a
  iint_plus

/-- `calc_powder_iint_2d_para`, output `1`, A_functions_base/integrated_intensity_powder_diffraction.py:428-481. -/
noncomputable def para2_minus (f_nucl_re f_nucl_im : ℝ) (tensor_sigma_re tensor_sigma_im : Fin 9 → ℝ) (beam_polarization : ℝ) (flipper_efficiency : ℝ) (magnetic_field : ℝ) (alpha_det : ℝ) : ℝ :=
  let p_d : ℝ := beam_polarization * (2 * flipper_efficiency - 1)
  let s_a_sq : ℝ := Real.sin alpha_det ^ 2
  let c_a : ℝ := Real.cos alpha_det
  let f_nucl_sq : ℝ := f_nucl_re ^ 2 + f_nucl_im ^ 2
  let p_1 : ℝ := P1 tensor_sigma_re tensor_sigma_im
  let p_2 : ℝ := P2 tensor_sigma_re tensor_sigma_im
  let p_3 : ℝ := P3 f_nucl_re f_nucl_im tensor_sigma_re tensor_sigma_im
  let p_4 : ℝ := P4 tensor_sigma_re tensor_sigma_im
  let p_5 : ℝ := P5 tensor_sigma_re tensor_sigma_im
  let magnetic_field_sq : ℝ := magnetic_field ^ 2
  let iint_minus : ℝ := f_nucl_sq + magnetic_field_sq * p_2 + (magnetic_field_sq * p_1 - magnetic_field_sq * p_2 - p_d * magnetic_field * p_3) * s_a_sq - p_d * magnetic_field_sq * ((p_4 - p_5) * s_a_sq + p_5) * c_a
  iint_minus

/-- `calc_powder_iint_2d_para`, output `dder_plus/beam_polarization`, A_functions_base/integrated_intensity_powder_diffraction.py:428-481. -/
noncomputable def d_para2_plus_beam_polarization (f_nucl_re f_nucl_im : ℝ) (tensor_sigma_re tensor_sigma_im : Fin 9 → ℝ) (beam_polarization : ℝ) (flipper_efficiency : ℝ) (magnetic_field : ℝ) (alpha_det : ℝ) : ℝ :=
  let s_a_sq : ℝ := Real.sin alpha_det ^ 2
  let c_a : ℝ := Real.cos alpha_det
  let p_3 : ℝ := P3 f_nucl_re f_nucl_im tensor_sigma_re tensor_sigma_im
  let p_4 : ℝ := P4 tensor_sigma_re tensor_sigma_im
  let p_5 : ℝ := P5 tensor_sigma_re tensor_sigma_im
  let magnetic_field_sq : ℝ := magnetic_field ^ 2
  magnetic_field * p_3 * s_a_sq + magnetic_field_sq * ((p_4 - p_5) * s_a_sq + p_5) * c_a

/-- `calc_powder_iint_2d_para`, output `dder_minus/beam_polarization`, A_functions_base/integrated_intensity_powder_diffraction.py:428-481. -/
noncomputable def d_para2_minus_beam_polarization (f_nucl_re f_nucl_im : ℝ) (tensor_sigma_re tensor_sigma_im : Fin 9 → ℝ) (beam_polarization : ℝ) (flipper_efficiency : ℝ) (magnetic_field : ℝ) (alpha_det : ℝ) : ℝ :=
  let s_a_sq : ℝ := Real.sin alpha_det ^ 2
  let c_a : ℝ := Real.cos alpha_det
  let p_3 : ℝ := P3 f_nucl_re f_nucl_im tensor_sigma_re tensor_sigma_im
  let p_4 : ℝ := P4 tensor_sigma_re tensor_sigma_im
  let p_5 : ℝ := P5 tensor_sigma_re tensor_sigma_im
  let magnetic_field_sq : ℝ := magnetic_field ^ 2
  (-(2 * flipper_efficiency - 1) * (magnetic_field * p_3 * s_a_sq + magnetic_field_sq * ((p_4 - p_5) * s_a_sq + p_5) * c_a))

/-- `calc_powder_iint_2d_para`, output `dder_plus/f_nucl_real`, A_functions_base/integrated_intensity_powder_diffraction.py:428-481. -/
noncomputable def d_para2_plus_f_nucl_real (f_nucl_re f_nucl_im : ℝ) (tensor_sigma_re tensor_sigma_im : Fin 9 → ℝ) (beam_polarization : ℝ) (flipper_efficiency : ℝ) (magnetic_field : ℝ) (alpha_det : ℝ) : ℝ :=
  let s_a_sq : ℝ := Real.sin alpha_det ^ 2
  2 * f_nucl_re + beam_polarization * magnetic_field * s_a_sq * d_P3_f_nucl_real f_nucl_re f_nucl_im tensor_sigma_re tensor_sigma_im

/-- `calc_powder_iint_2d_para`, output `dder_minus/f_nucl_real`, A_functions_base/integrated_intensity_powder_diffraction.py:428-481. -/
noncomputable def d_para2_minus_f_nucl_real (f_nucl_re f_nucl_im : ℝ) (tensor_sigma_re tensor_sigma_im : Fin 9 → ℝ) (beam_polarization : ℝ) (flipper_efficiency : ℝ) (magnetic_field : ℝ) (alpha_det : ℝ) : ℝ :=
  let p_d : ℝ := beam_polarization * (2 * flipper_efficiency - 1)
  let s_a_sq : ℝ := Real.sin alpha_det ^ 2
  2 * f_nucl_re - p_d * magnetic_field * s_a_sq * d_P3_f_nucl_real f_nucl_re f_nucl_im tensor_sigma_re tensor_sigma_im

/-- `calc_powder_iint_2d_para`, output `dder_plus/f_nucl_imag`, A_functions_base/integrated_intensity_powder_diffraction.py:428-481. -/
noncomputable def d_para2_plus_f_nucl_imag (f_nucl_re f_nucl_im : ℝ) (tensor_sigma_re tensor_sigma_im : Fin 9 → ℝ) (beam_polarization : ℝ) (flipper_efficiency : ℝ) (magnetic_field : ℝ) (alpha_det : ℝ) : ℝ :=
  let s_a_sq : ℝ := Real.sin alpha_det ^ 2
  2 * f_nucl_im + beam_polarization * magnetic_field * s_a_sq * d_P3_f_nucl_imag f_nucl_re f_nucl_im tensor_sigma_re tensor_sigma_im

/-- `calc_powder_iint_2d_para`, output `dder_minus/f_nucl_imag`, A_functions_base/integrated_intensity_powder_diffraction.py:428-481. -/
noncomputable def d_para2_minus_f_nucl_imag (f_nucl_re f_nucl_im : ℝ) (tensor_sigma_re tensor_sigma_im : Fin 9 → ℝ) (beam_polarization : ℝ) (flipper_efficiency : ℝ) (magnetic_field : ℝ) (alpha_det : ℝ) : ℝ :=
  let p_d : ℝ := beam_polarization * (2 * flipper_efficiency - 1)
  let s_a_sq : ℝ := Real.sin alpha_det ^ 2
  2 * f_nucl_im - p_d * magnetic_field * s_a_sq * d_P3_f_nucl_imag f_nucl_re f_nucl_im tensor_sigma_re tensor_sigma_im

/-- `calc_powder_iint_2d_para`, output `dder_minus/flipper_efficiency`, A_functions_base/integrated_intensity_powder_diffraction.py:428-481. -/
noncomputable def d_para2_minus_flipper_efficiency (f_nucl_re f_nucl_im : ℝ) (tensor_sigma_re tensor_sigma_im : Fin 9 → ℝ) (beam_polarization : ℝ) (flipper_efficiency : ℝ) (magnetic_field : ℝ) (alpha_det : ℝ) : ℝ :=
  let s_a_sq : ℝ := Real.sin alpha_det ^ 2
  let c_a : ℝ := Real.cos alpha_det
  let p_3 : ℝ := P3 f_nucl_re f_nucl_im tensor_sigma_re tensor_sigma_im
  let p_4 : ℝ := P4 tensor_sigma_re tensor_sigma_im
  let p_5 : ℝ := P5 tensor_sigma_re tensor_sigma_im
  let magnetic_field_sq : ℝ := magnetic_field ^ 2
  (-2 * beam_polarization * (magnetic_field * p_3 * s_a_sq + magnetic_field_sq * ((p_4 - p_5) * s_a_sq + p_5) * c_a))

/-- `calc_powder_iint_2d_ordered`, output `0`, A_functions_base/integrated_intensity_powder_diffraction.py:484-526. -/
noncomputable def ordered2_plus (f_nucl_re f_nucl_im : ℝ) (f_m_perp_re f_m_perp_im : Fin 3 → ℝ) (beam_polarization : ℝ) (flipper_efficiency : ℝ) (alpha_det : ℝ) : ℝ :=
  let c_a : ℝ := Real.cos alpha_det
  let f_nucl_sq : ℝ := f_nucl_re ^ 2 + f_nucl_im ^ 2
  let f_m_perp_sq : ℝ := f_m_perp_re 0 * f_m_perp_re 0 - f_m_perp_im 0 * -f_m_perp_im 0 + (f_m_perp_re 1 * f_m_perp_re 1 - f_m_perp_im 1 * -f_m_perp_im 1) + (f_m_perp_re 2 * f_m_perp_re 2 - f_m_perp_im 2 * -f_m_perp_im 2)
  let o_1 : ℝ := O1 f_nucl_re f_nucl_im f_m_perp_re f_m_perp_im
  let o_2 : ℝ := O2 f_m_perp_re f_m_perp_im
  let iint_plus : ℝ := f_nucl_sq + f_m_perp_sq + beam_polarization * (o_1 + o_2) * c_a
  iint_plus

/-- `calc_powder_iint_2d_ordered`, output `1`, A_functions_base/integrated_intensity_powder_diffraction.py:484-526. -/
noncomputable def ordered2_minus (f_nucl_re f_nucl_im : ℝ) (f_m_perp_re f_m_perp_im : Fin 3 → ℝ) (beam_polarization : ℝ) (flipper_efficiency : ℝ) (alpha_det : ℝ) : ℝ :=
  let p_d : ℝ := beam_polarization * (2 * flipper_efficiency - 1)
  let c_a : ℝ := Real.cos alpha_det
  let f_nucl_sq : ℝ := f_nucl_re ^ 2 + f_nucl_im ^ 2
  let f_m_perp_sq : ℝ := f_m_perp_re 0 * f_m_perp_re 0 - f_m_perp_im 0 * -f_m_perp_im 0 + (f_m_perp_re 1 * f_m_perp_re 1 - f_m_perp_im 1 * -f_m_perp_im 1) + (f_m_perp_re 2 * f_m_perp_re 2 - f_m_perp_im 2 * -f_m_perp_im 2)
  let o_1 : ℝ := O1 f_nucl_re f_nucl_im f_m_perp_re f_m_perp_im
  let o_2 : ℝ := O2 f_m_perp_re f_m_perp_im
  let iint_minus : ℝ := f_nucl_sq + f_m_perp_sq - p_d * (o_1 + o_2) * c_a
  iint_minus

/-- `calc_powder_iint_2d_ordered`, output `dder_plus/beam_polarization`, A_functions_base/integrated_intensity_powder_diffraction.py:484-526. -/
noncomputable def d_ordered2_plus_beam_polarization (f_nucl_re f_nucl_im : ℝ) (f_m_perp_re f_m_perp_im : Fin 3 → ℝ) (beam_polarization : ℝ) (flipper_efficiency : ℝ) (alpha_det : ℝ) : ℝ :=
  let c_a : ℝ := Real.cos alpha_det
  let o_1 : ℝ := O1 f_nucl_re f_nucl_im f_m_perp_re f_m_perp_im
  let o_2 : ℝ := O2 f_m_perp_re f_m_perp_im
  (o_1 + o_2) * c_a

/-- `calc_powder_iint_2d_ordered`, output `dder_minus/beam_polarization`, A_functions_base/integrated_intensity_powder_diffraction.py:484-526. -/
noncomputable def d_ordered2_minus_beam_polarization (f_nucl_re f_nucl_im : ℝ) (f_m_perp_re f_m_perp_im : Fin 3 → ℝ) (beam_polarization : ℝ) (flipper_efficiency : ℝ) (alpha_det : ℝ) : ℝ :=
  let c_a : ℝ := Real.cos alpha_det
  let o_1 : ℝ := O1 f_nucl_re f_nucl_im f_m_perp_re f_m_perp_im
  let o_2 : ℝ := O2 f_m_perp_re f_m_perp_im
  (-(2 * flipper_efficiency - 1) * ((o_1 + o_2) * c_a))

/-- `calc_powder_iint_2d_ordered`, output `dder_plus/f_nucl_real`, A_functions_base/integrated_intensity_powder_diffraction.py:484-526. -/
noncomputable def d_ordered2_plus_f_nucl_real (f_nucl_re f_nucl_im : ℝ) (f_m_perp_re f_m_perp_im : Fin 3 → ℝ) (beam_polarization : ℝ) (flipper_efficiency : ℝ) (alpha_det : ℝ) : ℝ :=
  2 * f_nucl_re

/-- `calc_powder_iint_2d_ordered`, output `dder_minus/f_nucl_real`, A_functions_base/integrated_intensity_powder_diffraction.py:484-526. -/
noncomputable def d_ordered2_minus_f_nucl_real (f_nucl_re f_nucl_im : ℝ) (f_m_perp_re f_m_perp_im : Fin 3 → ℝ) (beam_polarization : ℝ) (flipper_efficiency : ℝ) (alpha_det : ℝ) : ℝ :=
  2 * f_nucl_re

/-- `calc_powder_iint_2d_ordered`, output `dder_plus/f_nucl_imag`, A_functions_base/integrated_intensity_powder_diffraction.py:484-526. -/
noncomputable def d_ordered2_plus_f_nucl_imag (f_nucl_re f_nucl_im : ℝ) (f_m_perp_re f_m_perp_im : Fin 3 → ℝ) (beam_polarization : ℝ) (flipper_efficiency : ℝ) (alpha_det : ℝ) : ℝ :=
  2 * f_nucl_im

/-- `calc_powder_iint_2d_ordered`, output `dder_minus/f_nucl_imag`, A_functions_base/integrated_intensity_powder_diffraction.py:484-526. -/
noncomputable def d_ordered2_minus_f_nucl_imag (f_nucl_re f_nucl_im : ℝ) (f_m_perp_re f_m_perp_im : Fin 3 → ℝ) (beam_polarization : ℝ) (flipper_efficiency : ℝ) (alpha_det : ℝ) : ℝ :=
  2 * f_nucl_im

/-- `calc_powder_iint_2d_ordered`, output `dder_minus/flipper_efficiency`, A_functions_base/integrated_intensity_powder_diffraction.py:484-526. -/
noncomputable def d_ordered2_minus_flipper_efficiency (f_nucl_re f_nucl_im : ℝ) (f_m_perp_re f_m_perp_im : Fin 3 → ℝ) (beam_polarization : ℝ) (flipper_efficiency : ℝ) (alpha_det : ℝ) : ℝ :=
  let c_a : ℝ := Real.cos alpha_det
  let o_1 : ℝ := O1 f_nucl_re f_nucl_im f_m_perp_re f_m_perp_im
  let o_2 : ℝ := O2 f_m_perp_re f_m_perp_im
  (-beam_polarization * (o_1 + o_2) * c_a)

/-- `calc_powder_iint_2d_mix`, output `0`, A_functions_base/integrated_intensity_powder_diffraction.py:530-587. -/
noncomputable def mix2_plus (f_nucl_re f_nucl_im : ℝ) (tensor_sigma_re tensor_sigma_im : Fin 9 → ℝ) (f_m_perp_ordered_re f_m_perp_ordered_im : Fin 3 → ℝ) (beam_polarization : ℝ) (flipper_efficiency : ℝ) (magnetic_field : ℝ) (alpha_det : ℝ) : ℝ :=
  let s_a_sq : ℝ := Real.sin alpha_det ^ 2
  let c_a : ℝ := Real.cos alpha_det
  let f_nucl_sq : ℝ := f_nucl_re ^ 2 + f_nucl_im ^ 2
  let p_1 : ℝ := P1 tensor_sigma_re tensor_sigma_im
  let p_2 : ℝ := P2 tensor_sigma_re tensor_sigma_im
  let p_3 : ℝ := P3 f_nucl_re f_nucl_im tensor_sigma_re tensor_sigma_im
  let p_4 : ℝ := P4 tensor_sigma_re tensor_sigma_im
  let p_5 : ℝ := P5 tensor_sigma_re tensor_sigma_im
  let magnetic_field_sq : ℝ := magnetic_field ^ 2
  let f_m_perp_sq : ℝ := f_m_perp_ordered_re 0 * f_m_perp_ordered_re 0 - f_m_perp_ordered_im 0 * -f_m_perp_ordered_im 0 + (f_m_perp_ordered_re 1 * f_m_perp_ordered_re 1 - f_m_perp_ordered_im 1 * -f_m_perp_ordered_im 1) + (f_m_perp_ordered_re 2 * f_m_perp_ordered_re 2 - f_m_perp_ordered_im 2 * -f_m_perp_ordered_im 2)
  let o_1 : ℝ := O1 f_nucl_re f_nucl_im f_m_perp_ordered_re f_m_perp_ordered_im
  let o_2 : ℝ := O2 f_m_perp_ordered_re f_m_perp_ordered_im
  let m_1 : ℝ := M1 tensor_sigma_re tensor_sigma_im f_m_perp_ordered_re f_m_perp_ordered_im
  let m_2 : ℝ := M2 tensor_sigma_re tensor_sigma_im f_m_perp_ordered_re f_m_perp_ordered_im
  let m_3 : ℝ := M3 tensor_sigma_re tensor_sigma_im f_m_perp_ordered_re f_m_perp_ordered_im
  let iint_plus : ℝ := f_nucl_sq + magnetic_field_sq * p_2 + f_m_perp_sq + beam_polarization * magnetic_field * m_3 + (magnetic_field_sq * p_1 - magnetic_field_sq * p_2 + beam_polarization * magnetic_field * p_3 + beam_polarization * magnetic_field * m_2 - beam_polarization * magnetic_field * m_3) * s_a_sq + beam_polarization * magnetic_field_sq * ((p_4 - p_5) * s_a_sq + p_5) * c_a + (beam_polarization * o_1 + beam_polarization * o_2 + magnetic_field * m_1) * c_a
  iint_plus

/-- `calc_powder_iint_2d_mix`, output `1`, A_functions_base/integrated_intensity_powder_diffraction.py:530-587. -/
noncomputable def mix2_minus (f_nucl_re f_nucl_im : ℝ) (tensor_sigma_re tensor_sigma_im : Fin 9 → ℝ) (f_m_perp_ordered_re f_m_perp_ordered_im : Fin 3 → ℝ) (beam_polarization : ℝ) (flipper_efficiency : ℝ) (magnetic_field : ℝ) (alpha_det : ℝ) : ℝ :=
  let p_d : ℝ := beam_polarization * (2 * flipper_efficiency - 1)
  let s_a_sq : ℝ := Real.sin alpha_det ^ 2
  let c_a : ℝ := Real.cos alpha_det
  let f_nucl_sq : ℝ := f_nucl_re ^ 2 + f_nucl_im ^ 2
  let p_1 : ℝ := P1 tensor_sigma_re tensor_sigma_im
  let p_2 : ℝ := P2 tensor_sigma_re tensor_sigma_im
  let p_3 : ℝ := P3 f_nucl_re f_nucl_im tensor_sigma_re tensor_sigma_im
  let p_4 : ℝ := P4 tensor_sigma_re tensor_sigma_im
  let p_5 : ℝ := P5 tensor_sigma_re tensor_sigma_im
  let magnetic_field_sq : ℝ := magnetic_field ^ 2
  let f_m_perp_sq : ℝ := f_m_perp_ordered_re 0 * f_m_perp_ordered_re 0 - f_m_perp_ordered_im 0 * -f_m_perp_ordered_im 0 + (f_m_perp_ordered_re 1 * f_m_perp_ordered_re 1 - f_m_perp_ordered_im 1 * -f_m_perp_ordered_im 1) + (f_m_perp_ordered_re 2 * f_m_perp_ordered_re 2 - f_m_perp_ordered_im 2 * -f_m_perp_ordered_im 2)
  let o_1 : ℝ := O1 f_nucl_re f_nucl_im f_m_perp_ordered_re f_m_perp_ordered_im
  let o_2 : ℝ := O2 f_m_perp_ordered_re f_m_perp_ordered_im
  let m_1 : ℝ := M1 tensor_sigma_re tensor_sigma_im f_m_perp_ordered_re f_m_perp_ordered_im
  let m_2 : ℝ := M2 tensor_sigma_re tensor_sigma_im f_m_perp_ordered_re f_m_perp_ordered_im
  let m_3 : ℝ := M3 tensor_sigma_re tensor_sigma_im f_m_perp_ordered_re f_m_perp_ordered_im
  let iint_minus : ℝ := f_nucl_sq + magnetic_field_sq * p_2 + f_m_perp_sq - p_d * magnetic_field * m_3 + (magnetic_field_sq * p_1 - magnetic_field_sq * p_2 - p_d * magnetic_field * p_3 - p_d * magnetic_field * m_2 - p_d * magnetic_field * m_3) * s_a_sq - p_d * magnetic_field_sq * ((p_4 - p_5) * s_a_sq + p_5) * c_a + (-p_d * o_1 - p_d * o_2 + magnetic_field * m_1) * c_a
  iint_minus

end Cryspy.PowInt
