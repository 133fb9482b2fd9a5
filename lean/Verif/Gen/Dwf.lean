import Mathlib.Analysis.SpecialFunctions.Trigonometric.Basic
import Mathlib.Data.Fin.VecNotation

/-!
# Model of A_functions_base/debye_waller_factor.py

Generated from the source by tools/gen_dwf.py (see tools/py2lean.py).  Axes over reflections, atoms and symmetry operations
are dropped.  Numbers are reals.
-/

namespace Cryspy.Adp

open Real

/-- `calc_beta_by_u_ij`, output `0`, A_functions_base/debye_waller_factor.py:14-50. -/
noncomputable def beta_by_u (u_ij : Fin 6 → ℝ) (reciprocal_unit_cell_parameters : Fin 6 → ℝ) : Fin 6 → ℝ :=
  let beta_11 : ℝ := 2 * Real.pi ^ 2 * u_ij 0 * reciprocal_unit_cell_parameters 0 ^ 2
  let beta_22 : ℝ := 2 * Real.pi ^ 2 * u_ij 1 * reciprocal_unit_cell_parameters 1 ^ 2
  let beta_33 : ℝ := 2 * Real.pi ^ 2 * u_ij 2 * reciprocal_unit_cell_parameters 2 ^ 2
  let beta_12 : ℝ := 2 * Real.pi ^ 2 * u_ij 3 * reciprocal_unit_cell_parameters 0 * reciprocal_unit_cell_parameters 1
  let beta_13 : ℝ := 2 * Real.pi ^ 2 * u_ij 4 * reciprocal_unit_cell_parameters 0 * reciprocal_unit_cell_parameters 2
  let beta_23 : ℝ := 2 * Real.pi ^ 2 * u_ij 5 * reciprocal_unit_cell_parameters 1 * reciprocal_unit_cell_parameters 2
  let beta : Fin 6 → ℝ := ![beta_11, beta_22, beta_33, beta_12, beta_13, beta_23]
  beta

/-- `calc_beta_by_u_ij`, output `u_ij`, A_functions_base/debye_waller_factor.py:14-50. -/
noncomputable def d_beta_by_u (u_ij : Fin 6 → ℝ) (reciprocal_unit_cell_parameters : Fin 6 → ℝ) : Fin 6 → ℝ :=
  ![2 * Real.pi ^ 2 * 1 * reciprocal_unit_cell_parameters 0 ^ 2,
   2 * Real.pi ^ 2 * 1 * reciprocal_unit_cell_parameters 1 ^ 2,
   2 * Real.pi ^ 2 * 1 * reciprocal_unit_cell_parameters 2 ^ 2,
   2 * Real.pi ^ 2 * 1 * reciprocal_unit_cell_parameters 0 * reciprocal_unit_cell_parameters 1,
   2 * Real.pi ^ 2 * 1 * reciprocal_unit_cell_parameters 0 * reciprocal_unit_cell_parameters 2,
   2 * Real.pi ^ 2 * 1 * reciprocal_unit_cell_parameters 1 * reciprocal_unit_cell_parameters 2]

/-- `calc_u_ij_by_beta`, output `0`, A_functions_base/debye_waller_factor.py:54-90. -/
noncomputable def u_by_beta (beta : Fin 6 → ℝ) (reciprocal_unit_cell_parameters : Fin 6 → ℝ) : Fin 6 → ℝ :=
  let pi_sq : ℝ := Real.pi ^ 2
  let u_11 : ℝ := beta 0 / (2 * pi_sq * reciprocal_unit_cell_parameters 0 ^ 2)
  let u_22 : ℝ := beta 1 / (2 * pi_sq * reciprocal_unit_cell_parameters 1 ^ 2)
  let u_33 : ℝ := beta 2 / (2 * pi_sq * reciprocal_unit_cell_parameters 2 ^ 2)
  let u_12 : ℝ := beta 3 / (2 * pi_sq * reciprocal_unit_cell_parameters 0 * reciprocal_unit_cell_parameters 1)
  let u_13 : ℝ := beta 4 / (2 * pi_sq * reciprocal_unit_cell_parameters 0 * reciprocal_unit_cell_parameters 2)
  let u_23 : ℝ := beta 5 / (2 * pi_sq * reciprocal_unit_cell_parameters 1 * reciprocal_unit_cell_parameters 2)
  let u_ij : Fin 6 → ℝ := ![u_11, u_22, u_33, u_12, u_13, u_23]
  u_ij

/-- `calc_u_ij_by_beta`, output `beta`, A_functions_base/debye_waller_factor.py:54-90. -/
noncomputable def d_u_by_beta (beta : Fin 6 → ℝ) (reciprocal_unit_cell_parameters : Fin 6 → ℝ) : Fin 6 → ℝ :=
  let pi_sq : ℝ := Real.pi ^ 2
  ![1 / (2 * pi_sq * reciprocal_unit_cell_parameters 0 ^ 2),
   1 / (2 * pi_sq * reciprocal_unit_cell_parameters 1 ^ 2),
   1 / (2 * pi_sq * reciprocal_unit_cell_parameters 2 ^ 2),
   1 / (2 * pi_sq * reciprocal_unit_cell_parameters 0 * reciprocal_unit_cell_parameters 1),
   1 / (2 * pi_sq * reciprocal_unit_cell_parameters 0 * reciprocal_unit_cell_parameters 2),
   1 / (2 * pi_sq * reciprocal_unit_cell_parameters 1 * reciprocal_unit_cell_parameters 2)]

/-- `calc_power_dwf_iso`, output `0`, A_functions_base/debye_waller_factor.py:163-174. -/
noncomputable def power_iso (sthovl : ℝ) (b_iso : ℝ) : ℝ :=
  let sthovl_sq : ℝ := sthovl ^ 2
  let power_dwf_iso : ℝ := b_iso * sthovl_sq
  power_dwf_iso

/-- `calc_power_dwf_iso`, output `b_iso`, A_functions_base/debye_waller_factor.py:163-174. -/
noncomputable def d_power_iso_b (sthovl : ℝ) (b_iso : ℝ) : ℝ :=
  let sthovl_sq : ℝ := sthovl ^ 2
  sthovl_sq * 1

/-- `calc_power_dwf_iso`, output `sthovl`, A_functions_base/debye_waller_factor.py:163-174. -/
noncomputable def d_power_iso_s (sthovl : ℝ) (b_iso : ℝ) : ℝ :=
  2 * b_iso * sthovl * 1

/-- `calc_power_dwf_aniso`, output `0`, A_functions_base/debye_waller_factor.py:177-210. -/
noncomputable def power_aniso (hkl : Fin 3 → ℝ) (beta : Fin 6 → ℝ) (symm_elems_r : Fin 9 → ℝ) : ℝ :=
  let h_s : ℝ := hkl 0 * symm_elems_r 0 + hkl 1 * symm_elems_r 3 + hkl 2 * symm_elems_r 6
  let k_s : ℝ := hkl 0 * symm_elems_r 1 + hkl 1 * symm_elems_r 4 + hkl 2 * symm_elems_r 7
  let l_s : ℝ := hkl 0 * symm_elems_r 2 + hkl 1 * symm_elems_r 5 + hkl 2 * symm_elems_r 8
  let power_dwf_aniso : ℝ := beta 0 * h_s ^ 2 + beta 1 * k_s ^ 2 + beta 2 * l_s ^ 2 + 2 * beta 3 * h_s * k_s + 2 * beta 4 * h_s * l_s + 2 * beta 5 * k_s * l_s
  power_dwf_aniso

/-- `calc_power_dwf_aniso`, output `beta`, A_functions_base/debye_waller_factor.py:177-210. -/
noncomputable def d_power_aniso (hkl : Fin 3 → ℝ) (beta : Fin 6 → ℝ) (symm_elems_r : Fin 9 → ℝ) : Fin 6 → ℝ :=
  let h_s : ℝ := hkl 0 * symm_elems_r 0 + hkl 1 * symm_elems_r 3 + hkl 2 * symm_elems_r 6
  let k_s : ℝ := hkl 0 * symm_elems_r 1 + hkl 1 * symm_elems_r 4 + hkl 2 * symm_elems_r 7
  let l_s : ℝ := hkl 0 * symm_elems_r 2 + hkl 1 * symm_elems_r 5 + hkl 2 * symm_elems_r 8
  let der_b_11 : ℝ := 1 * h_s ^ 2
  let der_b_22 : ℝ := 1 * k_s ^ 2
  let der_b_33 : ℝ := 1 * l_s ^ 2
  let der_b_12 : ℝ := 1 * 2 * h_s * k_s
  let der_b_13 : ℝ := 1 * 2 * h_s * l_s
  let der_b_23 : ℝ := 1 * 2 * k_s * l_s
  ![der_b_11, der_b_22, der_b_33, der_b_12, der_b_13, der_b_23]

end Cryspy.Adp
