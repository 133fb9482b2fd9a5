import Mathlib.Analysis.SpecialFunctions.Gaussian.GaussianIntegral

/-!
# Model of A_functions_base/powder_diffraction_tof.py

Generated from the source by tools/gen_tof.py (see tools/py2lean.py).  Numbers are reals; the axes over points and reflections are
dropped.  `d_by_time_neg/pos/zero` are the three branches of `calc_d_by_time_for_thermal_neutrons` (Verif/Tof/Model.lean puts them
together).  The statements that replace an infinite exponential by 1e200 are left out: a real exponential is finite.
-/

set_option linter.unusedVariables false

namespace Cryspy.Tof

/-- `scipy.special.erfc`: the complementary error function. -/
noncomputable def erfc (x : ℝ) : ℝ := 2 / Real.sqrt Real.pi * ∫ t in Set.Ioi x, Real.exp (-t ^ 2)

/-- `calc_time_for_epithermal_neutrons_by_d`, A_functions_base/powder_diffraction_tof.py:38-43. -/
noncomputable def time_epithermal (d : ℝ) (zero : ℝ) (dtt1 : ℝ) (zerot : ℝ) (dtt1t : ℝ) (dtt2t : ℝ) (width : ℝ) (x_cross : ℝ) : ℝ :=
  let time_e : ℝ := zero + dtt1 * d
  let time_t : ℝ := zerot + dtt1t * d - dtt2t / d
  let n_cross : ℝ := (1 / 2) * erfc (width * (x_cross - 1 / d))
  let time : ℝ := n_cross * time_e + (1 - n_cross) * time_t
  time

/-- `calc_time_for_thermal_neutrons_by_d`, A_functions_base/powder_diffraction_tof.py:46-48. -/
noncomputable def time_thermal (d : ℝ) (zero : ℝ) (dtt1 : ℝ) (dtt2 : ℝ) : ℝ :=
  let time : ℝ := zero + dtt1 * d + dtt2 * d ^ 2
  time

/-- `calc_d_by_time_for_thermal_neutrons`, A_functions_base/powder_diffraction_tof.py:51-59. -/
noncomputable def d_by_time_neg (time : ℝ) (zero : ℝ) (dtt1 : ℝ) (dtt2 : ℝ) : ℝ :=
  let det : ℝ := Real.sqrt (dtt1 ^ 2 - 4 * (zero - time) * dtt2)
  let d : ℝ := (det - dtt1) / (2 * dtt2)
  d

/-- `calc_d_by_time_for_thermal_neutrons`, A_functions_base/powder_diffraction_tof.py:51-59. -/
noncomputable def d_by_time_pos (time : ℝ) (zero : ℝ) (dtt1 : ℝ) (dtt2 : ℝ) : ℝ :=
  let det : ℝ := Real.sqrt (dtt1 ^ 2 - 4 * (zero - time) * dtt2)
  let d : ℝ := (-det - dtt1) / (2 * dtt2)
  d

/-- `calc_d_by_time_for_thermal_neutrons`, A_functions_base/powder_diffraction_tof.py:51-59. -/
noncomputable def d_by_time_zero (time : ℝ) (zero : ℝ) (dtt1 : ℝ) (dtt2 : ℝ) : ℝ :=
  let d : ℝ := (time - zero) / dtt1
  d

/-- `calc_hpv_eta`, output `0`, A_functions_base/powder_diffraction_tof.py:82-96. -/
noncomputable def tof_h_pv (h_g : ℝ) (h_l : ℝ) : ℝ :=
  let h_g_2 : ℝ := h_g ^ 2
  let h_l_2 : ℝ := h_l ^ 2
  let h_g_3 : ℝ := h_g_2 * h_g
  let h_l_3 : ℝ := h_l_2 * h_l
  let h_g_4 : ℝ := h_g_3 * h_g
  let h_l_4 : ℝ := h_l_3 * h_l
  let h_g_5 : ℝ := h_g_4 * h_g
  let h_l_5 : ℝ := h_l_4 * h_l
  let c_2 : ℝ := (269269 / 100000)
  let c_3 : ℝ := (242843 / 100000)
  let c_4 : ℝ := (447163 / 100000)
  let c_5 : ℝ := (3921 / 50000)
  let h_pv : ℝ := Real.rpow (h_g_5 + c_2 * h_g_4 * h_l + c_3 * h_g_3 * h_l_2 + c_4 * h_g_2 * h_l_3 + c_5 * h_g * h_l_4 + h_l_5) (1 / 5)
  h_pv

/-- `calc_hpv_eta`, output `1`, A_functions_base/powder_diffraction_tof.py:82-96. -/
noncomputable def tof_eta (h_g : ℝ) (h_l : ℝ) : ℝ :=
  let h_g_2 : ℝ := h_g ^ 2
  let h_l_2 : ℝ := h_l ^ 2
  let h_g_3 : ℝ := h_g_2 * h_g
  let h_l_3 : ℝ := h_l_2 * h_l
  let h_g_4 : ℝ := h_g_3 * h_g
  let h_l_4 : ℝ := h_l_3 * h_l
  let h_g_5 : ℝ := h_g_4 * h_g
  let h_l_5 : ℝ := h_l_4 * h_l
  let c_2 : ℝ := (269269 / 100000)
  let c_3 : ℝ := (242843 / 100000)
  let c_4 : ℝ := (447163 / 100000)
  let c_5 : ℝ := (3921 / 50000)
  let h_pv : ℝ := Real.rpow (h_g_5 + c_2 * h_g_4 * h_l + c_3 * h_g_3 * h_l_2 + c_4 * h_g_2 * h_l_3 + c_5 * h_g * h_l_4 + h_l_5) (1 / 5)
  let hh : ℝ := h_l * 1 / h_pv
  let eta : ℝ := (136603 / 100000) * hh - (47719 / 100000) * hh ^ 2 + (2779 / 25000) * hh ^ 3
  eta

/-- `calc_alpha`, A_functions_base/powder_diffraction_tof.py:165-168. -/
noncomputable def calc_alpha (alpha0 : ℝ) (alpha1 : ℝ) (d : ℝ) : ℝ :=
  alpha0 + alpha1 / d

/-- `calc_sigma`, A_functions_base/powder_diffraction_tof.py:177-185. -/
noncomputable def calc_sigma (d : ℝ) (sigma0 : ℝ) (sigma1 : ℝ) (sigma2 : ℝ) (size_g : ℝ) (strain_g : ℝ) : ℝ :=
  let d_sq : ℝ := d ^ 2
  let d_sq_sq : ℝ := d_sq ^ 2
  let h_g_sq : ℝ := |(sigma2 + size_g) * d_sq_sq + (sigma1 + strain_g) * d_sq + sigma0|
  let h_g : ℝ := Real.sqrt h_g_sq
  h_g

/-- `calc_sigma_gamma`, output `0`, A_functions_base/powder_diffraction_tof.py:188-200. -/
noncomputable def sg_sigma (d : ℝ) (sigma0 : ℝ) (sigma1 : ℝ) (sigma2 : ℝ) (gamma0 : ℝ) (gamma1 : ℝ) (gamma2 : ℝ) (size_g : ℝ) (size_l : ℝ) (strain_g : ℝ) (strain_l : ℝ) : ℝ :=
  let h_g : ℝ := calc_sigma d sigma0 sigma1 sigma2 size_g strain_g
  h_g

/-- `calc_sigma_gamma`, output `1`, A_functions_base/powder_diffraction_tof.py:188-200. -/
noncomputable def sg_gamma (d : ℝ) (sigma0 : ℝ) (sigma1 : ℝ) (sigma2 : ℝ) (gamma0 : ℝ) (gamma1 : ℝ) (gamma2 : ℝ) (size_g : ℝ) (size_l : ℝ) (strain_g : ℝ) (strain_l : ℝ) : ℝ :=
  let d_sq : ℝ := d ^ 2
  let h_l : ℝ := (gamma2 + size_l) * d_sq + (gamma1 + strain_l) * d + gamma0
  h_l

/-- `calc_y_z_u_v`, output `0`, A_functions_base/powder_diffraction_tof.py:203-218. -/
noncomputable def jy (alpha : ℝ) (beta : ℝ) (sigma : ℝ) (delta_2d : ℝ) : ℝ :=
  let y : ℝ := alpha * sigma / Real.rpow 2 (1 / 2) + delta_2d / (sigma * Real.rpow 2 (1 / 2))
  y

/-- `calc_y_z_u_v`, output `1`, A_functions_base/powder_diffraction_tof.py:203-218. -/
noncomputable def jz (alpha : ℝ) (beta : ℝ) (sigma : ℝ) (delta_2d : ℝ) : ℝ :=
  let z : ℝ := beta * sigma / Real.rpow 2 (1 / 2) - delta_2d / (sigma * Real.rpow 2 (1 / 2))
  z

/-- `calc_y_z_u_v`, output `2`, A_functions_base/powder_diffraction_tof.py:203-218. -/
noncomputable def ju (alpha : ℝ) (beta : ℝ) (sigma : ℝ) (delta_2d : ℝ) : ℝ :=
  let sigma_sq : ℝ := sigma ^ 2
  let u : ℝ := (1 / 2) * alpha ^ 2 * sigma_sq + delta_2d * alpha
  u

/-- `calc_y_z_u_v`, output `3`, A_functions_base/powder_diffraction_tof.py:203-218. -/
noncomputable def jv (alpha : ℝ) (beta : ℝ) (sigma : ℝ) (delta_2d : ℝ) : ℝ :=
  let sigma_sq : ℝ := sigma ^ 2
  let v : ℝ := (1 / 2) * beta ^ 2 * sigma_sq - delta_2d * beta
  v

/-- `tof_Jorgensen`, A_functions_base/powder_diffraction_tof.py:99-111. -/
noncomputable def jorgensen (alpha : ℝ) (beta : ℝ) (sigma : ℝ) (time_2d : ℝ) (time_hkl_2d : ℝ) : ℝ :=
  let norm : ℝ := (1 / 2) * alpha * beta / (alpha + beta)
  let delta_2d : ℝ := time_2d - time_hkl_2d
  let y : ℝ := jy alpha beta sigma delta_2d
  let z : ℝ := jz alpha beta sigma delta_2d
  let u : ℝ := ju alpha beta sigma delta_2d
  let v : ℝ := jv alpha beta sigma delta_2d
  let exp_u : ℝ := Real.exp u
  let exp_v : ℝ := Real.exp v
  let profile_g_2d : ℝ := norm * (exp_u * erfc y + exp_v * erfc z)
  profile_g_2d

/-- `calc_spectrum`, output `0`, A_functions_base/powder_diffraction_tof.py:9-35. -/
noncomputable def spectrum_exponents (time : ℝ) (spectrum_parameters : Fin 9 → ℝ) : ℝ :=
  let time_sq : ℝ := time ^ 2
  let time_4 : ℝ := time_sq ^ 2
  let res : ℝ := spectrum_parameters 0 + spectrum_parameters 1 * Real.exp (-spectrum_parameters 2 * time) + spectrum_parameters 3 * Real.exp (-spectrum_parameters 4 * time_sq) + spectrum_parameters 5 * Real.exp (-spectrum_parameters 6 * time * time_sq) + spectrum_parameters 7 * Real.exp (-spectrum_parameters 8 * time_4)
  res

/-- `calc_spectrum`, output `0`, A_functions_base/powder_diffraction_tof.py:9-35. -/
noncomputable def spectrum_maxwell (time : ℝ) (spectrum_parameters : Fin 9 → ℝ) : ℝ :=
  let time_sq : ℝ := time ^ 2
  let time_4 : ℝ := time_sq ^ 2
  let res : ℝ := spectrum_parameters 0 + spectrum_parameters 1 * Real.exp (-spectrum_parameters 2 * time_sq) / (time * time_4) + spectrum_parameters 3 * Real.exp (-spectrum_parameters 4 * time_sq) + spectrum_parameters 5 * Real.exp (-spectrum_parameters 6 * time * time_sq) + spectrum_parameters 7 * Real.exp (-spectrum_parameters 8 * time_sq ^ 2)
  res

end Cryspy.Tof
