import Mathlib.Analysis.SpecialFunctions.Complex.Arg
import Mathlib.Analysis.SpecialFunctions.Pow.Real

/-!
# Model of A_functions_base/powder_diffraction_const_wavelength.py and preferred_orientation.py

Generated from the source by tools/gen_powder.py (see tools/py2lean.py).  Numbers are reals; the axes over points, reflections
and detector pixels are dropped, because every operation is elementwise in them.  A masked assignment `x[x>c]=v` becomes an `if`.
The preferred-orientation functions take the cosine between texture axis and reflection here; Verif/Powder/Model.lean adds its computation.
-/

namespace Cryspy.Powder

/-- `numpy.arctan2(y, x)`; signed zeros are not distinguished. -/
noncomputable def arctan2 (y x : ℝ) : ℝ := Complex.arg ⟨x, y⟩

/-- `calc_preferred_orientation_pd`, output `0`, A_functions_base/preferred_orientation.py:19-48. -/
noncomputable def po_pd_cos (cos_alpha_ax : ℝ) (texture_g1 : ℝ) (texture_g2 : ℝ) : ℝ :=
  let sin_alpha_ax_sq : ℝ := |1 - cos_alpha_ax ^ 2|
  let hh : ℝ := 1 / texture_g1 + (texture_g1 ^ 2 - 1 / texture_g1) * sin_alpha_ax_sq
  let preferred_orientation : ℝ := texture_g2 + (1 - texture_g2) * Real.rpow hh (-(3 / 2))
  preferred_orientation

/-- `calc_preferred_orientation_pd`, output `texture_g1`, A_functions_base/preferred_orientation.py:19-48. -/
noncomputable def d_po_pd_g1_cos (cos_alpha_ax : ℝ) (texture_g1 : ℝ) (texture_g2 : ℝ) : ℝ :=
  let sin_alpha_ax_sq : ℝ := |1 - cos_alpha_ax ^ 2|
  let hh : ℝ := 1 / texture_g1 + (texture_g1 ^ 2 - 1 / texture_g1) * sin_alpha_ax_sq
  (-(3 / 2) * (1 - texture_g2) * Real.rpow hh (-(5 / 2)) * (-(1 - sin_alpha_ax_sq) / texture_g1 ^ 2 + 2 * sin_alpha_ax_sq * texture_g1))

/-- `calc_preferred_orientation_pd`, output `texture_g2`, A_functions_base/preferred_orientation.py:19-48. -/
noncomputable def d_po_pd_g2_cos (cos_alpha_ax : ℝ) (texture_g1 : ℝ) (texture_g2 : ℝ) : ℝ :=
  let sin_alpha_ax_sq : ℝ := |1 - cos_alpha_ax ^ 2|
  let hh : ℝ := 1 / texture_g1 + (texture_g1 ^ 2 - 1 / texture_g1) * sin_alpha_ax_sq
  1 - Real.rpow hh (-(3 / 2))

/-- `calc_preferred_orientation_pd2d`, output `0`, A_functions_base/preferred_orientation.py:51-88. -/
noncomputable def po_pd2d_cos (alpha_det : ℝ) (cos_alpha_ax : ℝ) (texture_g1 : ℝ) (texture_g2 : ℝ) : ℝ :=
  let cos_alpha_ax : ℝ := if cos_alpha_ax > 1 then 1 else cos_alpha_ax
  let c_help : ℝ := 1 - cos_alpha_ax ^ 2
  let c_help₁ : ℝ := if c_help < 0 then 0 else c_help
  let sin_alpha_ax : ℝ := Real.sqrt c_help₁
  let cos_alpha_det : ℝ := Real.cos alpha_det
  let sin_alpha_det : ℝ := Real.sin alpha_det
  let cos_alpha : ℝ := cos_alpha_ax * cos_alpha_det + sin_alpha_ax * sin_alpha_det
  let cos_alpha_sq : ℝ := cos_alpha ^ 2
  let hh : ℝ := 1 / texture_g1 + (texture_g1 ^ 2 - 1 / texture_g1) * cos_alpha_sq
  let preferred_orientation : ℝ := texture_g2 + (1 - texture_g2) * Real.rpow hh (-(3 / 2))
  preferred_orientation

/-- `calc_preferred_orientation_pd2d`, output `texture_g1`, A_functions_base/preferred_orientation.py:51-88. -/
noncomputable def d_po_pd2d_g1_cos (alpha_det : ℝ) (cos_alpha_ax : ℝ) (texture_g1 : ℝ) (texture_g2 : ℝ) : ℝ :=
  let cos_alpha_ax : ℝ := if cos_alpha_ax > 1 then 1 else cos_alpha_ax
  let c_help : ℝ := 1 - cos_alpha_ax ^ 2
  let c_help₁ : ℝ := if c_help < 0 then 0 else c_help
  let sin_alpha_ax : ℝ := Real.sqrt c_help₁
  let cos_alpha_det : ℝ := Real.cos alpha_det
  let sin_alpha_det : ℝ := Real.sin alpha_det
  let cos_alpha : ℝ := cos_alpha_ax * cos_alpha_det + sin_alpha_ax * sin_alpha_det
  let cos_alpha_sq : ℝ := cos_alpha ^ 2
  let hh : ℝ := 1 / texture_g1 + (texture_g1 ^ 2 - 1 / texture_g1) * cos_alpha_sq
  (-(3 / 2) * (1 - texture_g2) * Real.rpow hh (-(5 / 2)) * (-(1 - cos_alpha_sq) / texture_g1 ^ 2 + 2 * cos_alpha_sq * texture_g1))

/-- `calc_preferred_orientation_pd2d`, output `texture_g2`, A_functions_base/preferred_orientation.py:51-88. -/
noncomputable def d_po_pd2d_g2_cos (alpha_det : ℝ) (cos_alpha_ax : ℝ) (texture_g1 : ℝ) (texture_g2 : ℝ) : ℝ :=
  let cos_alpha_ax : ℝ := if cos_alpha_ax > 1 then 1 else cos_alpha_ax
  let c_help : ℝ := 1 - cos_alpha_ax ^ 2
  let c_help₁ : ℝ := if c_help < 0 then 0 else c_help
  let sin_alpha_ax : ℝ := Real.sqrt c_help₁
  let cos_alpha_det : ℝ := Real.cos alpha_det
  let sin_alpha_det : ℝ := Real.sin alpha_det
  let cos_alpha : ℝ := cos_alpha_ax * cos_alpha_det + sin_alpha_ax * sin_alpha_det
  let cos_alpha_sq : ℝ := cos_alpha ^ 2
  let hh : ℝ := 1 / texture_g1 + (texture_g1 ^ 2 - 1 / texture_g1) * cos_alpha_sq
  1 - Real.rpow hh (-(3 / 2))

/-- `calc_lorentz_factor`, output `0`, A_functions_base/powder_diffraction_const_wavelength.py:6-21. -/
noncomputable def lorentz_factor (ttheta : ℝ) (k : ℝ) (cthm : ℝ) : ℝ :=
  let hh : ℝ := 1 - k + k * cthm * Real.cos ttheta ^ 2
  let res : ℝ := hh / (Real.sin ((1 / 2) * ttheta) * Real.sin ttheta)
  res

/-- `calc_lorentz_factor`, output `ttheta`, A_functions_base/powder_diffraction_const_wavelength.py:6-21. -/
noncomputable def d_lorentz_factor (ttheta : ℝ) (k : ℝ) (cthm : ℝ) : ℝ :=
  let hh : ℝ := 1 - k + k * cthm * Real.cos ttheta ^ 2
  let res : ℝ := hh / (Real.sin ((1 / 2) * ttheta) * Real.sin ttheta)
  (-res ^ 2 * ((1 / 2) * Real.cos ((1 / 2) * ttheta) * Real.sin ttheta + Real.sin ((1 / 2) * ttheta) * Real.cos ttheta))

/-- `func_asymmetry_f_a`, output `0`, A_functions_base/powder_diffraction_const_wavelength.py:24-31. -/
noncomputable def f_a (z : ℝ) : ℝ :=
  let res : ℝ := 2 * z * Real.exp (-z ^ 2)
  res

/-- `func_asymmetry_f_a`, output `z`, A_functions_base/powder_diffraction_const_wavelength.py:24-31. -/
noncomputable def d_f_a (z : ℝ) : ℝ :=
  2 * (1 - 2 * z ^ 2) * Real.exp (-z ^ 2)

/-- `func_asymmetry_f_b`, output `0`, A_functions_base/powder_diffraction_const_wavelength.py:34-42. -/
noncomputable def f_b (z : ℝ) : ℝ :=
  let f_a : ℝ := f_a z
  let res : ℝ := 2 * (2 * z ^ 2 - 3) * f_a
  res

/-- `func_asymmetry_f_b`, output `z`, A_functions_base/powder_diffraction_const_wavelength.py:34-42. -/
noncomputable def d_f_b (z : ℝ) : ℝ :=
  let f_a : ℝ := f_a z
  8 * z * f_a + 2 * (2 * z ^ 2 - 3) * d_f_a z

/-- `calc_asymmetry_factor`, output `0`, A_functions_base/powder_diffraction_const_wavelength.py:45-71. -/
noncomputable def asymmetry_factor (z : ℝ) (ttheta : ℝ) (p_1 : ℝ) (p_2 : ℝ) (p_3 : ℝ) (p_4 : ℝ) : ℝ :=
  let f_a : ℝ := f_a z
  let f_b : ℝ := f_b z
  let inv_tan_th : ℝ := 1 / Real.tan ((1 / 2) * ttheta)
  let inv_tan_tth : ℝ := 1 / Real.tan ttheta
  let res : ℝ := 1 + (p_1 * f_a + p_2 * f_b) * inv_tan_th + (p_3 * f_a + p_4 * f_b) * inv_tan_tth
  res

/-- `calc_asymmetry_factor`, output `z`, A_functions_base/powder_diffraction_const_wavelength.py:45-71. -/
noncomputable def d_asymmetry_z (z : ℝ) (ttheta : ℝ) (p_1 : ℝ) (p_2 : ℝ) (p_3 : ℝ) (p_4 : ℝ) : ℝ :=
  let inv_tan_th : ℝ := 1 / Real.tan ((1 / 2) * ttheta)
  let inv_tan_tth : ℝ := 1 / Real.tan ttheta
  (p_1 * d_f_a z + p_2 * d_f_b z) * inv_tan_th + (p_3 * d_f_a z + p_4 * d_f_b z) * inv_tan_tth

/-- `calc_asymmetry_factor`, output `p_1`, A_functions_base/powder_diffraction_const_wavelength.py:45-71. -/
noncomputable def d_asymmetry_p_1 (z : ℝ) (ttheta : ℝ) (p_1 : ℝ) (p_2 : ℝ) (p_3 : ℝ) (p_4 : ℝ) : ℝ :=
  let f_a : ℝ := f_a z
  let inv_tan_th : ℝ := 1 / Real.tan ((1 / 2) * ttheta)
  f_a * inv_tan_th

/-- `calc_asymmetry_factor`, output `p_2`, A_functions_base/powder_diffraction_const_wavelength.py:45-71. -/
noncomputable def d_asymmetry_p_2 (z : ℝ) (ttheta : ℝ) (p_1 : ℝ) (p_2 : ℝ) (p_3 : ℝ) (p_4 : ℝ) : ℝ :=
  let f_b : ℝ := f_b z
  let inv_tan_th : ℝ := 1 / Real.tan ((1 / 2) * ttheta)
  f_b * inv_tan_th

/-- `calc_asymmetry_factor`, output `p_3`, A_functions_base/powder_diffraction_const_wavelength.py:45-71. -/
noncomputable def d_asymmetry_p_3 (z : ℝ) (ttheta : ℝ) (p_1 : ℝ) (p_2 : ℝ) (p_3 : ℝ) (p_4 : ℝ) : ℝ :=
  let f_a : ℝ := f_a z
  let inv_tan_tth : ℝ := 1 / Real.tan ttheta
  f_a * inv_tan_tth

/-- `calc_asymmetry_factor`, output `p_4`, A_functions_base/powder_diffraction_const_wavelength.py:45-71. -/
noncomputable def d_asymmetry_p_4 (z : ℝ) (ttheta : ℝ) (p_1 : ℝ) (p_2 : ℝ) (p_3 : ℝ) (p_4 : ℝ) : ℝ :=
  let f_b : ℝ := f_b z
  let inv_tan_tth : ℝ := 1 / Real.tan ttheta
  f_b * inv_tan_tth

/-- `func_gauss_by_h_pv`, output `0`, A_functions_base/powder_diffraction_const_wavelength.py:74-89. -/
noncomputable def gauss (z : ℝ) (h_pv : ℝ) : ℝ :=
  let inv_h_pv : ℝ := 1 / h_pv
  let inv_h_pv_sq : ℝ := inv_h_pv ^ 2
  let z_deg : ℝ := z * 180 / Real.pi
  let z_deg_sq : ℝ := z_deg ^ 2
  let a_g : ℝ := 2 * inv_h_pv * Real.sqrt (Real.log 2 / Real.pi)
  let b_g : ℝ := 4 * Real.log 2 * inv_h_pv_sq
  let res : ℝ := a_g * Real.exp (-b_g * z_deg_sq)
  res

/-- `func_gauss_by_h_pv`, output `z`, A_functions_base/powder_diffraction_const_wavelength.py:74-89. -/
noncomputable def d_gauss_z (z : ℝ) (h_pv : ℝ) : ℝ :=
  let inv_h_pv : ℝ := 1 / h_pv
  let inv_h_pv_sq : ℝ := inv_h_pv ^ 2
  let z_deg : ℝ := z * 180 / Real.pi
  let z_deg_sq : ℝ := z_deg ^ 2
  let a_g : ℝ := 2 * inv_h_pv * Real.sqrt (Real.log 2 / Real.pi)
  let b_g : ℝ := 4 * Real.log 2 * inv_h_pv_sq
  let res : ℝ := a_g * Real.exp (-b_g * z_deg_sq)
  (-2 * z_deg * res * 180 / Real.pi)

/-- `func_gauss_by_h_pv`, output `h_pv`, A_functions_base/powder_diffraction_const_wavelength.py:74-89. -/
noncomputable def d_gauss_h_pv (z : ℝ) (h_pv : ℝ) : ℝ :=
  let inv_h_pv : ℝ := 1 / h_pv
  let inv_h_pv_sq : ℝ := inv_h_pv ^ 2
  let z_deg : ℝ := z * 180 / Real.pi
  let z_deg_sq : ℝ := z_deg ^ 2
  let a_g : ℝ := 2 * inv_h_pv * Real.sqrt (Real.log 2 / Real.pi)
  let b_g : ℝ := 4 * Real.log 2 * inv_h_pv_sq
  let res : ℝ := a_g * Real.exp (-b_g * z_deg_sq)
  (-1 + 2 * b_g * z_deg_sq) * res * inv_h_pv

/-- `func_lorentz_by_h_pv`, output `0`, A_functions_base/powder_diffraction_const_wavelength.py:92-109. -/
noncomputable def lorentz (z : ℝ) (h_pv : ℝ) : ℝ :=
  let inv_h_pv : ℝ := 1 / h_pv
  let inv_h_pv_sq : ℝ := inv_h_pv ^ 2
  let z_deg : ℝ := z * 180 / Real.pi
  let c_a : ℝ := 2 / Real.pi
  let a_l : ℝ := c_a * inv_h_pv
  let b_l : ℝ := 4 * inv_h_pv_sq
  let z_deg_sq : ℝ := z_deg ^ 2
  let res : ℝ := a_l / (1 + b_l * z_deg_sq)
  res

/-- `func_lorentz_by_h_pv`, output `z`, A_functions_base/powder_diffraction_const_wavelength.py:92-109. -/
noncomputable def d_lorentz_z (z : ℝ) (h_pv : ℝ) : ℝ :=
  let inv_h_pv : ℝ := 1 / h_pv
  let inv_h_pv_sq : ℝ := inv_h_pv ^ 2
  let z_deg : ℝ := z * 180 / Real.pi
  let c_a : ℝ := 2 / Real.pi
  let a_l : ℝ := c_a * inv_h_pv
  let b_l : ℝ := 4 * inv_h_pv_sq
  let z_deg_sq : ℝ := z_deg ^ 2
  let res : ℝ := a_l / (1 + b_l * z_deg_sq)
  (-2 * z_deg * b_l * res / (1 + b_l * z_deg_sq) * 180 / Real.pi)

/-- `func_lorentz_by_h_pv`, output `h_pv`, A_functions_base/powder_diffraction_const_wavelength.py:92-109. -/
noncomputable def d_lorentz_h_pv (z : ℝ) (h_pv : ℝ) : ℝ :=
  let z_deg : ℝ := z * 180 / Real.pi
  let c_a : ℝ := 2 / Real.pi
  let z_deg_sq : ℝ := z_deg ^ 2
  (c_a * (h_pv + 4 * z_deg_sq) - c_a * h_pv) / (h_pv + 4 * z_deg_sq) ^ 2

/-- `calc_h_g`, output `0`, A_functions_base/powder_diffraction_const_wavelength.py:112-132. -/
noncomputable def h_g (u : ℝ) (v : ℝ) (w : ℝ) (i_g : ℝ) (ttheta : ℝ) : ℝ :=
  let tan_th : ℝ := Real.tan ((1 / 2) * ttheta)
  let tan_th_sq : ℝ := tan_th ^ 2
  let inv_c_th_sq : ℝ := 1 / Real.cos ((1 / 2) * ttheta) ^ 2
  let hh : ℝ := u * tan_th_sq + v * tan_th + w + i_g * inv_c_th_sq
  let hh₁ : ℝ := if hh < (1 / 4503599627370496) then (1 / 4503599627370496) else hh
  let res : ℝ := Real.sqrt hh₁
  res

/-- `calc_h_g`, output `u`, A_functions_base/powder_diffraction_const_wavelength.py:112-132. -/
noncomputable def d_h_g_u (u : ℝ) (v : ℝ) (w : ℝ) (i_g : ℝ) (ttheta : ℝ) : ℝ :=
  let tan_th : ℝ := Real.tan ((1 / 2) * ttheta)
  let tan_th_sq : ℝ := tan_th ^ 2
  let inv_c_th_sq : ℝ := 1 / Real.cos ((1 / 2) * ttheta) ^ 2
  let hh : ℝ := u * tan_th_sq + v * tan_th + w + i_g * inv_c_th_sq
  let hh₁ : ℝ := if hh < (1 / 4503599627370496) then (1 / 4503599627370496) else hh
  let res : ℝ := Real.sqrt hh₁
  (1 / 2) * tan_th_sq / res

/-- `calc_h_g`, output `v`, A_functions_base/powder_diffraction_const_wavelength.py:112-132. -/
noncomputable def d_h_g_v (u : ℝ) (v : ℝ) (w : ℝ) (i_g : ℝ) (ttheta : ℝ) : ℝ :=
  let tan_th : ℝ := Real.tan ((1 / 2) * ttheta)
  let tan_th_sq : ℝ := tan_th ^ 2
  let inv_c_th_sq : ℝ := 1 / Real.cos ((1 / 2) * ttheta) ^ 2
  let hh : ℝ := u * tan_th_sq + v * tan_th + w + i_g * inv_c_th_sq
  let hh₁ : ℝ := if hh < (1 / 4503599627370496) then (1 / 4503599627370496) else hh
  let res : ℝ := Real.sqrt hh₁
  (1 / 2) * tan_th / res

/-- `calc_h_g`, output `w`, A_functions_base/powder_diffraction_const_wavelength.py:112-132. -/
noncomputable def d_h_g_w (u : ℝ) (v : ℝ) (w : ℝ) (i_g : ℝ) (ttheta : ℝ) : ℝ :=
  let tan_th : ℝ := Real.tan ((1 / 2) * ttheta)
  let tan_th_sq : ℝ := tan_th ^ 2
  let inv_c_th_sq : ℝ := 1 / Real.cos ((1 / 2) * ttheta) ^ 2
  let hh : ℝ := u * tan_th_sq + v * tan_th + w + i_g * inv_c_th_sq
  let hh₁ : ℝ := if hh < (1 / 4503599627370496) then (1 / 4503599627370496) else hh
  let res : ℝ := Real.sqrt hh₁
  (1 / 2) / res

/-- `calc_h_g`, output `i_g`, A_functions_base/powder_diffraction_const_wavelength.py:112-132. -/
noncomputable def d_h_g_i_g (u : ℝ) (v : ℝ) (w : ℝ) (i_g : ℝ) (ttheta : ℝ) : ℝ :=
  let tan_th : ℝ := Real.tan ((1 / 2) * ttheta)
  let tan_th_sq : ℝ := tan_th ^ 2
  let inv_c_th_sq : ℝ := 1 / Real.cos ((1 / 2) * ttheta) ^ 2
  let hh : ℝ := u * tan_th_sq + v * tan_th + w + i_g * inv_c_th_sq
  let hh₁ : ℝ := if hh < (1 / 4503599627370496) then (1 / 4503599627370496) else hh
  let res : ℝ := Real.sqrt hh₁
  (1 / 2) * inv_c_th_sq / res

/-- `calc_h_l`, output `0`, A_functions_base/powder_diffraction_const_wavelength.py:135-147. -/
noncomputable def h_l (x : ℝ) (y : ℝ) (ttheta : ℝ) : ℝ :=
  let tan_th : ℝ := Real.tan ((1 / 2) * ttheta)
  let inv_c_th : ℝ := 1 / Real.cos ((1 / 2) * ttheta)
  let res : ℝ := x * tan_th + y * inv_c_th
  res

/-- `calc_h_l`, output `x`, A_functions_base/powder_diffraction_const_wavelength.py:135-147. -/
noncomputable def d_h_l_x (x : ℝ) (y : ℝ) (ttheta : ℝ) : ℝ :=
  let tan_th : ℝ := Real.tan ((1 / 2) * ttheta)
  tan_th

/-- `calc_h_l`, output `y`, A_functions_base/powder_diffraction_const_wavelength.py:135-147. -/
noncomputable def d_h_l_y (x : ℝ) (y : ℝ) (ttheta : ℝ) : ℝ :=
  let inv_c_th : ℝ := 1 / Real.cos ((1 / 2) * ttheta)
  inv_c_th

/-- `calc_h_pv`, output `0`, A_functions_base/powder_diffraction_const_wavelength.py:150-170. -/
noncomputable def h_pv (h_g : ℝ) (h_l : ℝ) : ℝ :=
  let h_g_2 : ℝ := h_g ^ 2
  let h_l_2 : ℝ := h_l ^ 2
  let h_g_3 : ℝ := h_g_2 * h_g
  let h_l_3 : ℝ := h_l_2 * h_l
  let h_g_4 : ℝ := h_g_2 ^ 2
  let h_l_4 : ℝ := h_l_2 ^ 2
  let h_g_5 : ℝ := h_g_4 * h_g
  let h_l_5 : ℝ := h_l_4 * h_l
  let c_2 : ℝ := (269269 / 100000)
  let c_3 : ℝ := (242843 / 100000)
  let c_4 : ℝ := (447163 / 100000)
  let c_5 : ℝ := (3921 / 50000)
  let hh : ℝ := h_g_5 + c_2 * h_g_4 * h_l + c_3 * h_g_3 * h_l_2 + c_4 * h_g_2 * h_l_3 + c_5 * h_g * h_l_4 + h_l_5
  let res : ℝ := Real.rpow hh (1 / 5)
  res

/-- `calc_h_pv`, output `h_g`, A_functions_base/powder_diffraction_const_wavelength.py:150-170. -/
noncomputable def d_h_pv_h_g (h_g : ℝ) (h_l : ℝ) : ℝ :=
  let h_g_2 : ℝ := h_g ^ 2
  let h_l_2 : ℝ := h_l ^ 2
  let h_g_3 : ℝ := h_g_2 * h_g
  let h_l_3 : ℝ := h_l_2 * h_l
  let h_g_4 : ℝ := h_g_2 ^ 2
  let h_l_4 : ℝ := h_l_2 ^ 2
  let h_g_5 : ℝ := h_g_4 * h_g
  let h_l_5 : ℝ := h_l_4 * h_l
  let c_2 : ℝ := (269269 / 100000)
  let c_3 : ℝ := (242843 / 100000)
  let c_4 : ℝ := (447163 / 100000)
  let c_5 : ℝ := (3921 / 50000)
  let hh : ℝ := h_g_5 + c_2 * h_g_4 * h_l + c_3 * h_g_3 * h_l_2 + c_4 * h_g_2 * h_l_3 + c_5 * h_g * h_l_4 + h_l_5
  let c_help : ℝ := -(1 / 5) * Real.rpow hh (-(4 / 5))
  c_help * (5 * h_g_4 + 4 * c_2 * h_g_3 * h_l + 3 * c_3 * h_g_2 * h_l_2 + 2 * c_4 * h_g * h_l_3 + c_5 * h_l_4)

/-- `calc_h_pv`, output `h_l`, A_functions_base/powder_diffraction_const_wavelength.py:150-170. -/
noncomputable def d_h_pv_h_l (h_g : ℝ) (h_l : ℝ) : ℝ :=
  let h_g_2 : ℝ := h_g ^ 2
  let h_l_2 : ℝ := h_l ^ 2
  let h_g_3 : ℝ := h_g_2 * h_g
  let h_l_3 : ℝ := h_l_2 * h_l
  let h_g_4 : ℝ := h_g_2 ^ 2
  let h_l_4 : ℝ := h_l_2 ^ 2
  let h_g_5 : ℝ := h_g_4 * h_g
  let h_l_5 : ℝ := h_l_4 * h_l
  let c_2 : ℝ := (269269 / 100000)
  let c_3 : ℝ := (242843 / 100000)
  let c_4 : ℝ := (447163 / 100000)
  let c_5 : ℝ := (3921 / 50000)
  let hh : ℝ := h_g_5 + c_2 * h_g_4 * h_l + c_3 * h_g_3 * h_l_2 + c_4 * h_g_2 * h_l_3 + c_5 * h_g * h_l_4 + h_l_5
  let c_help : ℝ := -(1 / 5) * Real.rpow hh (-(4 / 5))
  c_help * (c_2 * h_g_4 + 2 * c_3 * h_g_3 * h_l + 3 * c_4 * h_g_2 * h_l_2 + 4 * c_5 * h_g * h_l_3 + 5 * h_l_4)

/-- `calc_eta`, output `0`, A_functions_base/powder_diffraction_const_wavelength.py:173-192. -/
noncomputable def eta (h_l : ℝ) (h_pv : ℝ) : ℝ :=
  let c_1 : ℝ := (136603 / 100000)
  let c_2 : ℝ := -(47719 / 100000)
  let c_3 : ℝ := (2779 / 25000)
  let rel : ℝ := h_l / h_pv
  let rel_sq : ℝ := rel ^ 2
  let res : ℝ := c_1 * rel + c_2 * rel_sq + c_3 * rel_sq * rel
  res

/-- `calc_eta`, output `h_pv`, A_functions_base/powder_diffraction_const_wavelength.py:173-192. -/
noncomputable def d_eta_h_pv (h_l : ℝ) (h_pv : ℝ) : ℝ :=
  let c_1 : ℝ := (136603 / 100000)
  let c_2 : ℝ := -(47719 / 100000)
  let c_3 : ℝ := (2779 / 25000)
  let rel : ℝ := h_l / h_pv
  let rel_sq : ℝ := rel ^ 2
  let c_help : ℝ := c_1 + 2 * c_2 * rel + 3 * c_3 * rel_sq
  (-1 * c_help * rel / h_pv)

/-- `calc_eta`, output `h_l`, A_functions_base/powder_diffraction_const_wavelength.py:173-192. -/
noncomputable def d_eta_h_l (h_l : ℝ) (h_pv : ℝ) : ℝ :=
  let c_1 : ℝ := (136603 / 100000)
  let c_2 : ℝ := -(47719 / 100000)
  let c_3 : ℝ := (2779 / 25000)
  let rel : ℝ := h_l / h_pv
  let rel_sq : ℝ := rel ^ 2
  let c_help : ℝ := c_1 + 2 * c_2 * rel + 3 * c_3 * rel_sq
  c_help / h_pv

/-- `calc_coeff_phi`, output `0`, A_functions_base/powder_diffraction_const_wavelength.py:311-316. -/
noncomputable def coeff_phi (phi : ℝ) (p_phi : ℝ) : ℝ :=
  let res : ℝ := (1 / 2) * (p_phi + 1) - Real.cos phi * (p_phi - 1) * (1 / 2)
  res

/-- `calc_coeff_phi`, output `p_phi`, A_functions_base/powder_diffraction_const_wavelength.py:311-316. -/
noncomputable def d_coeff_phi (phi : ℝ) (p_phi : ℝ) : ℝ :=
  (1 / 2) - (1 / 2) * Real.cos phi

/-- `calc_profile_pseudo_voight`, output `0`, A_functions_base/powder_diffraction_const_wavelength.py:195-235. -/
noncomputable def profile (ttheta : ℝ) (ttheta_hkl : ℝ) (u : ℝ) (v : ℝ) (w : ℝ) (i_g : ℝ) (x : ℝ) (y : ℝ) (p_1 : ℝ) (p_2 : ℝ) (p_3 : ℝ) (p_4 : ℝ) : ℝ :=
  let delta_angle : ℝ := ttheta - ttheta_hkl
  let h_g : ℝ := h_g u v w i_g ttheta
  let h_l : ℝ := h_l x y ttheta
  let h_pv : ℝ := h_pv h_g h_l
  let eta : ℝ := eta h_l h_pv
  let z : ℝ := delta_angle * 180 / Real.pi / h_pv
  let af : ℝ := asymmetry_factor z ttheta p_1 p_2 p_3 p_4
  let profile_l : ℝ := lorentz delta_angle h_pv
  let profile_g : ℝ := gauss delta_angle h_pv
  let res : ℝ := (eta * profile_l + (1 - eta) * profile_g) * af
  res

/-- `calc_profile_pseudo_voight_2d`, output `0`, A_functions_base/powder_diffraction_const_wavelength.py:266-308. -/
noncomputable def profile_2d (ttheta : ℝ) (phi : ℝ) (ttheta_hkl : ℝ) (u : ℝ) (v : ℝ) (w : ℝ) (i_g : ℝ) (x : ℝ) (y : ℝ) (p_1 : ℝ) (p_2 : ℝ) (p_3 : ℝ) (p_4 : ℝ) (p_phi : ℝ) : ℝ :=
  let delta_ttheta : ℝ := ttheta - ttheta_hkl
  let h_g : ℝ := h_g u v w i_g ttheta
  let h_l : ℝ := h_l x y ttheta
  let h_pv : ℝ := h_pv h_g h_l
  let eta : ℝ := eta h_l h_pv
  let coeff_phi : ℝ := coeff_phi phi p_phi
  let h_pv_phi : ℝ := h_pv * coeff_phi
  let z : ℝ := delta_ttheta * 180 / Real.pi / h_pv_phi
  let af : ℝ := asymmetry_factor z ttheta p_1 p_2 p_3 p_4
  let profile_l : ℝ := lorentz delta_ttheta h_pv_phi
  let profile_g : ℝ := gauss delta_ttheta h_pv_phi
  let res : ℝ := (eta * profile_l + (1 - eta) * profile_g) * af
  res

/-- `calc_gamma_nu_by_ttheta_phi`, output `0`, A_functions_base/powder_diffraction_const_wavelength.py:238-249. -/
noncomputable def gamma_by (ttheta : ℝ) (phi : ℝ) : ℝ :=
  let s_tth : ℝ := Real.sin ttheta
  let c_tth : ℝ := Real.cos ttheta
  let c_phi : ℝ := Real.cos phi
  let gamma : ℝ := arctan2 (s_tth * c_phi) c_tth
  gamma

/-- `calc_gamma_nu_by_ttheta_phi`, output `1`, A_functions_base/powder_diffraction_const_wavelength.py:238-249. -/
noncomputable def nu_by (ttheta : ℝ) (phi : ℝ) : ℝ :=
  let s_tth : ℝ := Real.sin ttheta
  let s_phi : ℝ := Real.sin phi
  let nu : ℝ := Real.arcsin (s_tth * s_phi)
  nu

/-- `calc_ttheta_phi_by_gamma_nu`, output `0`, A_functions_base/powder_diffraction_const_wavelength.py:252-263. -/
noncomputable def ttheta_by (gamma : ℝ) (nu : ℝ) : ℝ :=
  let c_ga : ℝ := Real.cos gamma
  let c_nu : ℝ := Real.cos nu
  let ttheta : ℝ := Real.arccos (c_nu * c_ga)
  ttheta

/-- `calc_ttheta_phi_by_gamma_nu`, output `1`, A_functions_base/powder_diffraction_const_wavelength.py:252-263. -/
noncomputable def phi_by (gamma : ℝ) (nu : ℝ) : ℝ :=
  let s_ga : ℝ := Real.sin gamma
  let s_nu : ℝ := Real.sin nu
  let c_nu : ℝ := Real.cos nu
  let phi : ℝ := arctan2 s_nu (s_ga * c_nu)
  phi

end Cryspy.Powder
