import Mathlib.Analysis.SpecialFunctions.Exp
import Mathlib.Data.Fin.VecNotation

/-!
# Model of A_functions_base/magnetic_form_factor.py

Generated from the source by tools/gen_ff.py (see tools/py2lean.py).  Axes over reflections and atoms are dropped.  Numbers are
reals.  `ffOrb` is `calc_form_factor` with `flag_only_orbital`.
-/

namespace Cryspy.FF

open Real

/-- `calc_j0`, output `0`, A_functions_base/magnetic_form_factor.py:30-55. -/
noncomputable def j0 (sthovl : ℝ) (kappa : ℝ) (j0_parameters : Fin 7 → ℝ) : ℝ :=
  let _h : ℝ := (sthovl / kappa) ^ 2
  let j0_av : ℝ := j0_parameters 0 * Real.exp (-j0_parameters 1 * _h) + j0_parameters 2 * Real.exp (-j0_parameters 3 * _h) + j0_parameters 4 * Real.exp (-j0_parameters 5 * _h) + j0_parameters 6
  j0_av

/-- `calc_j0`, output `sthovl`, A_functions_base/magnetic_form_factor.py:30-55. -/
noncomputable def d_j0_sthovl (sthovl : ℝ) (kappa : ℝ) (j0_parameters : Fin 7 → ℝ) : ℝ :=
  let _h : ℝ := (sthovl / kappa) ^ 2
  let s_k : ℝ := sthovl / kappa
  (-2 * s_k * (j0_parameters 0 * Real.exp (-j0_parameters 1 * _h) * j0_parameters 1 + j0_parameters 2 * Real.exp (-j0_parameters 3 * _h) * j0_parameters 3 + j0_parameters 4 * Real.exp (-j0_parameters 5 * _h) * j0_parameters 5) / kappa)

/-- `calc_j0`, output `kappa`, A_functions_base/magnetic_form_factor.py:30-55. -/
noncomputable def d_j0_kappa (sthovl : ℝ) (kappa : ℝ) (j0_parameters : Fin 7 → ℝ) : ℝ :=
  let _h : ℝ := (sthovl / kappa) ^ 2
  2 * _h * (j0_parameters 0 * Real.exp (-j0_parameters 1 * _h) * j0_parameters 1 + j0_parameters 2 * Real.exp (-j0_parameters 3 * _h) * j0_parameters 3 + j0_parameters 4 * Real.exp (-j0_parameters 5 * _h) * j0_parameters 5) / kappa

/-- `calc_j2`, output `0`, A_functions_base/magnetic_form_factor.py:57-86. -/
noncomputable def j2 (sthovl : ℝ) (kappa : ℝ) (j2_parameters : Fin 7 → ℝ) : ℝ :=
  let _h : ℝ := (sthovl / kappa) ^ 2
  let j2_av : ℝ := (j2_parameters 0 * Real.exp (-j2_parameters 1 * _h) + j2_parameters 2 * Real.exp (-j2_parameters 3 * _h) + j2_parameters 4 * Real.exp (-j2_parameters 5 * _h) + j2_parameters 6) * _h
  j2_av

/-- `calc_j2`, output `sthovl`, A_functions_base/magnetic_form_factor.py:57-86. -/
noncomputable def d_j2_sthovl (sthovl : ℝ) (kappa : ℝ) (j2_parameters : Fin 7 → ℝ) : ℝ :=
  let _h : ℝ := (sthovl / kappa) ^ 2
  let s_k : ℝ := sthovl / kappa
  (-2 * s_k * _h * (j2_parameters 0 * Real.exp (-j2_parameters 1 * _h) * j2_parameters 1 + j2_parameters 2 * Real.exp (-j2_parameters 3 * _h) * j2_parameters 3 + j2_parameters 4 * Real.exp (-j2_parameters 5 * _h) * j2_parameters 5) / kappa + (j2_parameters 0 * Real.exp (-j2_parameters 1 * _h) + j2_parameters 2 * Real.exp (-j2_parameters 3 * _h) + j2_parameters 4 * Real.exp (-j2_parameters 5 * _h) + j2_parameters 6) / kappa)

/-- `calc_j2`, output `kappa`, A_functions_base/magnetic_form_factor.py:57-86. -/
noncomputable def d_j2_kappa (sthovl : ℝ) (kappa : ℝ) (j2_parameters : Fin 7 → ℝ) : ℝ :=
  let _h : ℝ := (sthovl / kappa) ^ 2
  let s_k₁ : ℝ := sthovl / kappa
  2 * _h * _h * (j2_parameters 0 * Real.exp (-j2_parameters 1 * _h) * j2_parameters 1 + j2_parameters 2 * Real.exp (-j2_parameters 3 * _h) * j2_parameters 3 + j2_parameters 4 * Real.exp (-j2_parameters 5 * _h) * j2_parameters 5) / kappa - s_k₁ * (j2_parameters 0 * Real.exp (-j2_parameters 1 * _h) + j2_parameters 2 * Real.exp (-j2_parameters 3 * _h) + j2_parameters 4 * Real.exp (-j2_parameters 5 * _h) + j2_parameters 6) / kappa

/-- `calc_form_factor`, output `0`, A_functions_base/magnetic_form_factor.py:89-127. -/
noncomputable def ff (sthovl : ℝ) (lande_factor : ℝ) (kappa : ℝ) (j0_parameters : Fin 7 → ℝ) (j2_parameters : Fin 7 → ℝ) : ℝ :=
  let j2_av : ℝ := j2 sthovl kappa j2_parameters
  let form_factor_orbital : ℝ := (2 / lande_factor - 1) * j2_av
  let j0_av : ℝ := j0 sthovl kappa j0_parameters
  let form_factor : ℝ := j0_av + form_factor_orbital
  form_factor

/-- `calc_form_factor`, output `sthovl`, A_functions_base/magnetic_form_factor.py:89-127. -/
noncomputable def d_ff_sthovl (sthovl : ℝ) (lande_factor : ℝ) (kappa : ℝ) (j0_parameters : Fin 7 → ℝ) (j2_parameters : Fin 7 → ℝ) : ℝ :=
  d_j0_sthovl sthovl kappa j0_parameters + d_j2_sthovl sthovl kappa j2_parameters * (2 / lande_factor - 1)

/-- `calc_form_factor`, output `kappa`, A_functions_base/magnetic_form_factor.py:89-127. -/
noncomputable def d_ff_kappa (sthovl : ℝ) (lande_factor : ℝ) (kappa : ℝ) (j0_parameters : Fin 7 → ℝ) (j2_parameters : Fin 7 → ℝ) : ℝ :=
  d_j0_kappa sthovl kappa j0_parameters + d_j2_kappa sthovl kappa j2_parameters * (2 / lande_factor - 1)

/-- `calc_form_factor`, output `lande_factor`, A_functions_base/magnetic_form_factor.py:89-127. -/
noncomputable def d_ff_lande (sthovl : ℝ) (lande_factor : ℝ) (kappa : ℝ) (j0_parameters : Fin 7 → ℝ) (j2_parameters : Fin 7 → ℝ) : ℝ :=
  let j2_av : ℝ := j2 sthovl kappa j2_parameters
  (-2 * j2_av / lande_factor ^ 2)

/-- `calc_form_factor`, output `0`, A_functions_base/magnetic_form_factor.py:89-127. -/
noncomputable def ffOrb (sthovl : ℝ) (lande_factor : ℝ) (kappa : ℝ) (j0_parameters : Fin 7 → ℝ) (j2_parameters : Fin 7 → ℝ) : ℝ :=
  let j2_av : ℝ := j2 sthovl kappa j2_parameters
  let form_factor_orbital : ℝ := (2 / lande_factor - 1) * j2_av
  form_factor_orbital

/-- `calc_form_factor`, output `sthovl`, A_functions_base/magnetic_form_factor.py:89-127. -/
noncomputable def d_ffOrb_sthovl (sthovl : ℝ) (lande_factor : ℝ) (kappa : ℝ) (j0_parameters : Fin 7 → ℝ) (j2_parameters : Fin 7 → ℝ) : ℝ :=
  d_j2_sthovl sthovl kappa j2_parameters * (2 / lande_factor - 1)

/-- `calc_form_factor`, output `kappa`, A_functions_base/magnetic_form_factor.py:89-127. -/
noncomputable def d_ffOrb_kappa (sthovl : ℝ) (lande_factor : ℝ) (kappa : ℝ) (j0_parameters : Fin 7 → ℝ) (j2_parameters : Fin 7 → ℝ) : ℝ :=
  d_j2_kappa sthovl kappa j2_parameters * (2 / lande_factor - 1)

/-- `calc_form_factor`, output `lande_factor`, A_functions_base/magnetic_form_factor.py:89-127. -/
noncomputable def d_ffOrb_lande (sthovl : ℝ) (lande_factor : ℝ) (kappa : ℝ) (j0_parameters : Fin 7 → ℝ) (j2_parameters : Fin 7 → ℝ) : ℝ :=
  let j2_av : ℝ := j2 sthovl kappa j2_parameters
  (-2 * j2_av / lande_factor ^ 2)

end Cryspy.FF
