import Verif.Gen.MatrixOps
import Mathlib.Analysis.SpecialFunctions.Trigonometric.Inverse

/-!
# Model of A_functions_base/unit_cell.py

Generated from the source by tools/gen_unit_cell.py (see tools/py2lean.py); one definition per returned value and per
reported derivative (`d_…`, over the six unit-cell parameters).  The suffix `_by_unit_cell_parameters` is dropped.  Angles are
in radians.  Axes over reflections are dropped.  Numbers are reals.
-/

set_option linter.unusedVariables false

namespace Cryspy.Cell

open Cryspy

/-- `calc_phi_sq_by_unit_cell_parameters`, A_functions_base/unit_cell.py:59-80. -/
noncomputable def calc_phi_sq (uc : Fin 6 → ℝ) : ℝ :=
  let c_a : ℝ := Real.cos (uc 3)
  let c_b : ℝ := Real.cos (uc 4)
  let c_g : ℝ := Real.cos (uc 5)
  let phi_sq : ℝ := 1 - c_a ^ 2 - c_b ^ 2 - c_g ^ 2 + 2 * c_a * c_b * c_g
  phi_sq

/-- `calc_phi_sq_by_unit_cell_parameters`, output `unit_cell_parameters`, A_functions_base/unit_cell.py:59-80. -/
noncomputable def d_calc_phi_sq (uc : Fin 6 → ℝ) : Fin 6 → ℝ :=
  let c_a : ℝ := Real.cos (uc 3)
  let c_b : ℝ := Real.cos (uc 4)
  let c_g : ℝ := Real.cos (uc 5)
  let s_a : ℝ := Real.sin (uc 3)
  let s_b : ℝ := Real.sin (uc 4)
  let s_g : ℝ := Real.sin (uc 5)
  let der_al : ℝ := 2 * s_a * (c_a - c_b * c_g)
  let der_be : ℝ := 2 * s_b * (c_b - c_g * c_a)
  let der_ga : ℝ := 2 * s_g * (c_g - c_a * c_b)
  ![0, 0, 0, der_al, der_be, der_ga]

/-- `calc_phi_by_unit_cell_parameters`, A_functions_base/unit_cell.py:83-95. -/
noncomputable def calc_phi (uc : Fin 6 → ℝ) : ℝ :=
  let phi_sq : ℝ := calc_phi_sq uc
  let phi : ℝ := Real.sqrt phi_sq
  phi

/-- `calc_phi_by_unit_cell_parameters`, output `unit_cell_parameters`, A_functions_base/unit_cell.py:83-95. -/
noncomputable def d_calc_phi (uc : Fin 6 → ℝ) : Fin 6 → ℝ :=
  let phi_sq : ℝ := calc_phi_sq uc
  let phi : ℝ := Real.sqrt phi_sq
  ![(1 / 2) * d_calc_phi_sq uc 0 / phi,
   (1 / 2) * d_calc_phi_sq uc 1 / phi,
   (1 / 2) * d_calc_phi_sq uc 2 / phi,
   (1 / 2) * d_calc_phi_sq uc 3 / phi,
   (1 / 2) * d_calc_phi_sq uc 4 / phi,
   (1 / 2) * d_calc_phi_sq uc 5 / phi]

/-- `calc_volume_uc_by_unit_cell_parameters`, A_functions_base/unit_cell.py:98-125. -/
noncomputable def calc_volume_uc (uc : Fin 6 → ℝ) : ℝ :=
  let phi : ℝ := calc_phi uc
  let volume_uc : ℝ := uc 0 * uc 1 * uc 2 * phi
  volume_uc

/-- `calc_volume_uc_by_unit_cell_parameters`, output `unit_cell_parameters`, A_functions_base/unit_cell.py:98-125. -/
noncomputable def d_calc_volume_uc (uc : Fin 6 → ℝ) : Fin 6 → ℝ :=
  let c_a : ℝ := Real.cos (uc 3)
  let c_b : ℝ := Real.cos (uc 4)
  let c_g : ℝ := Real.cos (uc 5)
  let c_a_sq : ℝ := c_a ^ 2
  let c_b_sq : ℝ := c_b ^ 2
  let c_g_sq : ℝ := c_g ^ 2
  let phi : ℝ := calc_phi uc
  let s_a : ℝ := Real.sin (uc 3)
  let s_b : ℝ := Real.sin (uc 4)
  let s_g : ℝ := Real.sin (uc 5)
  let der_a : ℝ := uc 1 * uc 2 * phi
  let der_b : ℝ := uc 0 * uc 2 * phi
  let der_c : ℝ := uc 0 * uc 1 * phi
  let der_al : ℝ := -uc 0 * uc 1 * uc 2 * (1 / 2) * (-2 * c_a_sq + 2 * c_b * c_g) * s_a / phi
  let der_be : ℝ := -uc 0 * uc 1 * uc 2 * (1 / 2) * (-2 * c_b_sq + 2 * c_a * c_g) * s_b / phi
  let der_ga : ℝ := -uc 0 * uc 1 * uc 2 * (1 / 2) * (-2 * c_g_sq + 2 * c_a * c_b) * s_g / phi
  ![der_a, der_b, der_c, der_al, der_be, der_ga]

/-- `calc_reciprocal_by_unit_cell_parameters`, A_functions_base/unit_cell.py:12-56. -/
noncomputable def calc_reciprocal (uc : Fin 6 → ℝ) : Fin 6 → ℝ :=
  let c_a : ℝ := Real.cos (uc 3)
  let c_b : ℝ := Real.cos (uc 4)
  let c_g : ℝ := Real.cos (uc 5)
  let s_a : ℝ := Real.sin (uc 3)
  let s_b : ℝ := Real.sin (uc 4)
  let s_g : ℝ := Real.sin (uc 5)
  let vol : ℝ := calc_volume_uc uc
  let ialpha : ℝ := Real.arccos ((c_b * c_g - c_a) / (s_b * s_g))
  let ibeta : ℝ := Real.arccos ((c_g * c_a - c_b) / (s_g * s_a))
  let igamma : ℝ := Real.arccos ((c_a * c_b - c_g) / (s_a * s_b))
  let ia : ℝ := uc 1 * uc 2 * s_a / vol
  let ib : ℝ := uc 2 * uc 0 * s_b / vol
  let ic : ℝ := uc 0 * uc 1 * s_g / vol
  let reciprocal_unit_cell_parameters : Fin 6 → ℝ := ![ia, ib, ic, ialpha, ibeta, igamma]
  reciprocal_unit_cell_parameters

/-- `calc_reciprocal_by_unit_cell_parameters`, output `unit_cell_parameters`, A_functions_base/unit_cell.py:12-56. -/
noncomputable def d_calc_reciprocal (uc : Fin 6 → ℝ) : Fin 6 → Fin 6 → ℝ :=
  let c_a : ℝ := Real.cos (uc 3)
  let c_b : ℝ := Real.cos (uc 4)
  let s_a : ℝ := Real.sin (uc 3)
  let s_b : ℝ := Real.sin (uc 4)
  let vol : ℝ := calc_volume_uc uc
  let d_v : Fin 6 → ℝ := d_calc_volume_uc uc
  let i_vol_sq : ℝ := 1 / vol ^ 2
  let der_ia : Fin 6 → ℝ := ![uc 1 * uc 2 * s_a * d_v 0 * i_vol_sq,
   uc 2 * s_a / vol + uc 1 * uc 2 * s_a * d_v 1 * i_vol_sq,
   uc 1 * s_a / vol + uc 1 * uc 2 * s_a * d_v 2 * i_vol_sq,
   uc 1 * uc 2 * c_a / vol + uc 1 * uc 2 * s_a * d_v 3 * i_vol_sq,
   uc 1 * uc 2 * s_a * d_v 4 * i_vol_sq,
   uc 1 * uc 2 * s_a * d_v 5 * i_vol_sq]
  let der_ib : Fin 6 → ℝ := ![uc 2 * s_b / vol + uc 2 * uc 0 * s_b * i_vol_sq * d_v 0,
   uc 2 * uc 0 * s_b * i_vol_sq * d_v 1,
   uc 0 * s_b / vol + uc 2 * uc 0 * s_b * i_vol_sq * d_v 2,
   uc 2 * uc 0 * s_b * i_vol_sq * d_v 3,
   uc 2 * uc 0 * c_b / vol + uc 2 * uc 0 * s_b * i_vol_sq * d_v 4,
   uc 2 * uc 0 * s_b * i_vol_sq * d_v 5]
  let der_ic : Fin 6 → ℝ := ![0, 0, 0, 0, 0, 0]
  let der_ial : Fin 6 → ℝ := ![0, 0, 0, 0, 0, 0]
  let der_ibe : Fin 6 → ℝ := ![0, 0, 0, 0, 0, 0]
  let der_iga : Fin 6 → ℝ := ![0, 0, 0, 0, 0, 0]
  ![![der_ia 0, der_ia 1, der_ia 2, der_ia 3, der_ia 4, der_ia 5],
   ![der_ib 0, der_ib 1, der_ib 2, der_ib 3, der_ib 4, der_ib 5],
   ![der_ic 0, der_ic 1, der_ic 2, der_ic 3, der_ic 4, der_ic 5],
   ![der_ial 0, der_ial 1, der_ial 2, der_ial 3, der_ial 4, der_ial 5],
   ![der_ibe 0, der_ibe 1, der_ibe 2, der_ibe 3, der_ibe 4, der_ibe 5],
   ![der_iga 0, der_iga 1, der_iga 2, der_iga 3, der_iga 4, der_iga 5]]

/-- `calc_volume_ruc_by_unit_cell_parameters`, A_functions_base/unit_cell.py:128-141. -/
noncomputable def calc_volume_ruc (uc : Fin 6 → ℝ) : ℝ :=
  let volume_uc : ℝ := calc_volume_uc uc
  let volume_ruc : ℝ := 1 / volume_uc
  volume_ruc

/-- `calc_volume_ruc_by_unit_cell_parameters`, output `unit_cell_parameters`, A_functions_base/unit_cell.py:128-141. -/
noncomputable def d_calc_volume_ruc (uc : Fin 6 → ℝ) : Fin 6 → ℝ :=
  let volume_uc : ℝ := calc_volume_uc uc
  let volume_ruc : ℝ := 1 / volume_uc
  ![-volume_ruc ^ 2 * d_calc_volume_uc uc 0,
   -volume_ruc ^ 2 * d_calc_volume_uc uc 1,
   -volume_ruc ^ 2 * d_calc_volume_uc uc 2,
   -volume_ruc ^ 2 * d_calc_volume_uc uc 3,
   -volume_ruc ^ 2 * d_calc_volume_uc uc 4,
   -volume_ruc ^ 2 * d_calc_volume_uc uc 5]

/-- `calc_m_g_by_unit_cell_parameters`, A_functions_base/unit_cell.py:144-168. -/
noncomputable def calc_m_g (uc : Fin 6 → ℝ) : Fin 6 → ℝ :=
  let c_a : ℝ := Real.cos (uc 3)
  let c_b : ℝ := Real.cos (uc 4)
  let c_g : ℝ := Real.cos (uc 5)
  let m_g_ij : Fin 6 → ℝ := ![uc 0 * uc 0, uc 1 * uc 1, uc 2 * uc 2, uc 0 * uc 1 * c_g, uc 0 * uc 2 * c_b, uc 1 * uc 2 * c_a]
  m_g_ij

/-- `calc_m_g_by_unit_cell_parameters`, output `unit_cell_parameters`, A_functions_base/unit_cell.py:144-168. -/
noncomputable def d_calc_m_g (uc : Fin 6 → ℝ) : Fin 6 → Fin 6 → ℝ :=
  let c_a : ℝ := Real.cos (uc 3)
  let c_b : ℝ := Real.cos (uc 4)
  let c_g : ℝ := Real.cos (uc 5)
  let s_a : ℝ := Real.sin (uc 3)
  let s_b : ℝ := Real.sin (uc 4)
  let s_g : ℝ := Real.sin (uc 5)
  let der_11 : Fin 6 → ℝ := ![2 * uc 0, 0, 0, 0, 0, 0]
  let der_12 : Fin 6 → ℝ := ![uc 1 * c_g, uc 0 * c_g, 0, 0, 0, -uc 0 * uc 1 * s_g]
  let der_13 : Fin 6 → ℝ := ![uc 2 * c_b, 0, uc 0 * c_b, 0, -uc 0 * uc 2 * s_b, 0]
  let der_22 : Fin 6 → ℝ := ![0, 2 * uc 1, 0, 0, 0, 0]
  let der_23 : Fin 6 → ℝ := ![0, uc 2 * c_a, uc 1 * c_a, -uc 1 * uc 2 * s_a, 0, 0]
  let der_33 : Fin 6 → ℝ := ![0, 0, 2 * uc 2, 0, 0, 0]
  ![![der_11 0, der_11 1, der_11 2, der_11 3, der_11 4, der_11 5],
   ![der_22 0, der_22 1, der_22 2, der_22 3, der_22 4, der_22 5],
   ![der_33 0, der_33 1, der_33 2, der_33 3, der_33 4, der_33 5],
   ![der_12 0, der_12 1, der_12 2, der_12 3, der_12 4, der_12 5],
   ![der_13 0, der_13 1, der_13 2, der_13 3, der_13 4, der_13 5],
   ![der_23 0, der_23 1, der_23 2, der_23 3, der_23 4, der_23 5]]

/-- `calc_m_g_norm_by_unit_cell_parameters`, A_functions_base/unit_cell.py:171-194. -/
noncomputable def calc_m_g_norm (uc : Fin 6 → ℝ) : Fin 6 → ℝ :=
  let c_a : ℝ := Real.cos (uc 3)
  let c_b : ℝ := Real.cos (uc 4)
  let c_g : ℝ := Real.cos (uc 5)
  let m_g_norm_ij : Fin 6 → ℝ := ![1, 1, 1, c_g, c_b, c_a]
  m_g_norm_ij

/-- `calc_m_g_norm_by_unit_cell_parameters`, output `unit_cell_parameters`, A_functions_base/unit_cell.py:171-194. -/
noncomputable def d_calc_m_g_norm (uc : Fin 6 → ℝ) : Fin 6 → Fin 6 → ℝ :=
  let c_a : ℝ := Real.cos (uc 3)
  let c_b : ℝ := Real.cos (uc 4)
  let c_g : ℝ := Real.cos (uc 5)
  let s_a : ℝ := Real.sin (uc 3)
  let s_b : ℝ := Real.sin (uc 4)
  let s_g : ℝ := Real.sin (uc 5)
  let der_11 : Fin 6 → ℝ := ![0, 0, 0, 0, 0, 0]
  let der_12 : Fin 6 → ℝ := ![c_g, c_g, 0, 0, 0, -s_g]
  let der_13 : Fin 6 → ℝ := ![c_b, 0, c_b, 0, -s_b, 0]
  let der_22 : Fin 6 → ℝ := ![0, 0, 0, 0, 0, 0]
  let der_23 : Fin 6 → ℝ := ![0, c_a, c_a, -s_a, 0, 0]
  let der_33 : Fin 6 → ℝ := ![0, 0, 0, 0, 0, 0]
  ![![der_11 0, der_11 1, der_11 2, der_11 3, der_11 4, der_11 5],
   ![der_22 0, der_22 1, der_22 2, der_22 3, der_22 4, der_22 5],
   ![der_33 0, der_33 1, der_33 2, der_33 3, der_33 4, der_33 5],
   ![der_12 0, der_12 1, der_12 2, der_12 3, der_12 4, der_12 5],
   ![der_13 0, der_13 1, der_13 2, der_13 3, der_13 4, der_13 5],
   ![der_23 0, der_23 1, der_23 2, der_23 3, der_23 4, der_23 5]]

/-- `calc_m_reciprocal_g_by_unit_cell_parameters`, A_functions_base/unit_cell.py:197-232. -/
noncomputable def calc_m_reciprocal_g (uc : Fin 6 → ℝ) : Fin 6 → ℝ :=
  let c_a : ℝ := Real.cos (uc 3)
  let c_b : ℝ := Real.cos (uc 4)
  let c_g : ℝ := Real.cos (uc 5)
  let s_a : ℝ := Real.sin (uc 3)
  let s_b : ℝ := Real.sin (uc 4)
  let s_g : ℝ := Real.sin (uc 5)
  let phi_sq : ℝ := calc_phi_sq uc
  let inv_g_11 : ℝ := s_a ^ 2 / (uc 0 ^ 2 * phi_sq)
  let inv_g_22 : ℝ := s_b ^ 2 / (uc 1 ^ 2 * phi_sq)
  let inv_g_33 : ℝ := s_g ^ 2 / (uc 2 ^ 2 * phi_sq)
  let inv_g_12 : ℝ := (c_a * c_b - c_g) / (uc 0 * uc 1 * phi_sq)
  let inv_g_13 : ℝ := (c_a * c_g - c_b) / (uc 0 * uc 2 * phi_sq)
  let inv_g_23 : ℝ := (c_b * c_g - c_a) / (uc 1 * uc 2 * phi_sq)
  let m_reciprocal_g_ij : Fin 6 → ℝ := ![inv_g_11, inv_g_22, inv_g_33, inv_g_12, inv_g_13, inv_g_23]
  m_reciprocal_g_ij

/-- `calc_m_reciprocal_g_by_unit_cell_parameters`, output `unit_cell_parameters`, A_functions_base/unit_cell.py:197-232. -/
noncomputable def d_calc_m_reciprocal_g (uc : Fin 6 → ℝ) : Fin 6 → Fin 6 → ℝ :=
  let der_11 : Fin 6 → ℝ := ![0, 0, 0, 0, 0, 0]
  let der_12 : Fin 6 → ℝ := ![0, 0, 0, 0, 0, 0]
  let der_13 : Fin 6 → ℝ := ![0, 0, 0, 0, 0, 0]
  let der_22 : Fin 6 → ℝ := ![0, 0, 0, 0, 0, 0]
  let der_23 : Fin 6 → ℝ := ![0, 0, 0, 0, 0, 0]
  let der_33 : Fin 6 → ℝ := ![0, 0, 0, 0, 0, 0]
  ![![der_11 0, der_11 1, der_11 2, der_11 3, der_11 4, der_11 5],
   ![der_22 0, der_22 1, der_22 2, der_22 3, der_22 4, der_22 5],
   ![der_33 0, der_33 1, der_33 2, der_33 3, der_33 4, der_33 5],
   ![der_12 0, der_12 1, der_12 2, der_12 3, der_12 4, der_12 5],
   ![der_13 0, der_13 1, der_13 2, der_13 3, der_13 4, der_13 5],
   ![der_23 0, der_23 1, der_23 2, der_23 3, der_23 4, der_23 5]]

/-- `calc_m_reciprocal_g_norm_by_unit_cell_parameters`, A_functions_base/unit_cell.py:235-276. -/
noncomputable def calc_m_reciprocal_g_norm (uc : Fin 6 → ℝ) : Fin 6 → ℝ :=
  let c_a : ℝ := Real.cos (uc 3)
  let c_b : ℝ := Real.cos (uc 4)
  let c_g : ℝ := Real.cos (uc 5)
  let s_a : ℝ := Real.sin (uc 3)
  let s_b : ℝ := Real.sin (uc 4)
  let s_g : ℝ := Real.sin (uc 5)
  let inv_g_norm_12 : ℝ := (c_a * c_b - c_g) / (s_a * s_b)
  let inv_g_norm_13 : ℝ := (c_a * c_g - c_b) / (s_a * s_g)
  let inv_g_norm_23 : ℝ := (c_b * c_g - c_a) / (s_b * s_g)
  let m_reciprocal_g_norm_ij : Fin 6 → ℝ := ![1, 1, 1, inv_g_norm_12, inv_g_norm_13, inv_g_norm_23]
  m_reciprocal_g_norm_ij

/-- `calc_m_reciprocal_g_norm_by_unit_cell_parameters`, output `unit_cell_parameters`, A_functions_base/unit_cell.py:235-276. -/
noncomputable def d_calc_m_reciprocal_g_norm (uc : Fin 6 → ℝ) : Fin 6 → Fin 6 → ℝ :=
  let c_a : ℝ := Real.cos (uc 3)
  let c_b : ℝ := Real.cos (uc 4)
  let c_g : ℝ := Real.cos (uc 5)
  let s_a : ℝ := Real.sin (uc 3)
  let s_b : ℝ := Real.sin (uc 4)
  let s_g : ℝ := Real.sin (uc 5)
  let s_a_sq : ℝ := s_a ^ 2
  let s_b_sq : ℝ := s_b ^ 2
  let s_g_sq : ℝ := s_g ^ 2
  let der_11 : Fin 6 → ℝ := ![0, 0, 0, 0, 0, 0]
  let der_22 : Fin 6 → ℝ := ![0, 0, 0, 0, 0, 0]
  let der_33 : Fin 6 → ℝ := ![0, 0, 0, 0, 0, 0]
  let der_12 : Fin 6 → ℝ := ![0,
   0,
   0,
   -(c_a * c_b - c_g) * c_a / (s_a_sq * s_b) - c_b / s_b,
   -(c_a * c_b - c_g) * c_b / (s_a * s_b_sq) - c_a / s_a,
   s_g / (s_a * s_b)]
  let der_13 : Fin 6 → ℝ := ![0,
   0,
   0,
   -(c_a * c_g - c_b) * c_a / (s_a_sq * s_g) - c_g / s_g,
   s_b / (s_a * s_g),
   -(c_a * c_g - c_b) * c_g / (s_a * s_g_sq) - c_a / s_a]
  let der_23 : Fin 6 → ℝ := ![0,
   0,
   0,
   s_a / (s_b * s_g),
   -(-c_a + c_b * c_g) * c_b / (s_b_sq * s_g) - c_g / s_g,
   -(-c_a + c_b * c_g) * c_g / (s_b * s_g_sq) - c_b / s_b]
  ![![der_11 0, der_11 1, der_11 2, der_11 3, der_11 4, der_11 5],
   ![der_22 0, der_22 1, der_22 2, der_22 3, der_22 4, der_22 5],
   ![der_33 0, der_33 1, der_33 2, der_33 3, der_33 4, der_33 5],
   ![der_12 0, der_12 1, der_12 2, der_12 3, der_12 4, der_12 5],
   ![der_13 0, der_13 1, der_13 2, der_13 3, der_13 4, der_13 5],
   ![der_23 0, der_23 1, der_23 2, der_23 3, der_23 4, der_23 5]]

/-- `calc_m_b_by_unit_cell_parameters`, A_functions_base/unit_cell.py:279-341. -/
noncomputable def calc_m_b (uc : Fin 6 → ℝ) : Fin 9 → ℝ :=
  let c_a : ℝ := Real.cos (uc 3)
  let c_b : ℝ := Real.cos (uc 4)
  let c_g : ℝ := Real.cos (uc 5)
  let s_a : ℝ := Real.sin (uc 3)
  let phi : ℝ := calc_phi uc
  let m_b_ij : Fin 9 → ℝ := ![s_a / (uc 0 * phi),
   (c_a * c_b - c_g) / (uc 1 * phi * s_a),
   (c_a * c_g - c_b) / (uc 2 * phi * s_a),
   0,
   1 / (uc 1 * s_a),
   -c_a / (uc 2 * s_a),
   0,
   0,
   1 / uc 2]
  m_b_ij

/-- `calc_m_b_by_unit_cell_parameters`, output `unit_cell_parameters`, A_functions_base/unit_cell.py:279-341. -/
noncomputable def d_calc_m_b (uc : Fin 6 → ℝ) : Fin 9 → Fin 6 → ℝ :=
  let c_a : ℝ := Real.cos (uc 3)
  let c_b : ℝ := Real.cos (uc 4)
  let c_g : ℝ := Real.cos (uc 5)
  let s_a : ℝ := Real.sin (uc 3)
  let s_b : ℝ := Real.sin (uc 4)
  let s_g : ℝ := Real.sin (uc 5)
  let phi : ℝ := calc_phi uc
  let m_b_ij : Fin 9 → ℝ := ![s_a / (uc 0 * phi),
   (c_a * c_b - c_g) / (uc 1 * phi * s_a),
   (c_a * c_g - c_b) / (uc 2 * phi * s_a),
   0,
   1 / (uc 1 * s_a),
   -c_a / (uc 2 * s_a),
   0,
   0,
   1 / uc 2]
  let der_11_a : ℝ := -m_b_ij 0 / uc 0 - m_b_ij 0 / phi * d_calc_phi uc 0
  let der_11_b : ℝ := -m_b_ij 0 / phi * d_calc_phi uc 1
  let der_11_c : ℝ := -m_b_ij 0 / phi * d_calc_phi uc 2
  let der_11_al : ℝ := c_a / (uc 0 * phi) - m_b_ij 0 / phi * d_calc_phi uc 3
  let der_11_be : ℝ := -m_b_ij 0 / phi * d_calc_phi uc 4
  let der_11_ga : ℝ := -m_b_ij 0 / phi * d_calc_phi uc 5
  let der_11 : Fin 6 → ℝ := ![der_11_a, der_11_b, der_11_c, der_11_al, der_11_be, der_11_ga]
  let der_12_a : ℝ := -m_b_ij 1 / phi * d_calc_phi uc 0
  let der_12_b : ℝ := -m_b_ij 1 / uc 1 - m_b_ij 1 / phi * d_calc_phi uc 1
  let der_12_c : ℝ := -m_b_ij 1 / phi * d_calc_phi uc 2
  let der_12_al : ℝ := (c_a * c_g - c_b) / (s_a ^ 2 * uc 1 * phi) - m_b_ij 1 / phi * d_calc_phi uc 3
  let der_12_be : ℝ := c_a * s_b / (uc 1 * phi * s_a) - m_b_ij 1 / phi * d_calc_phi uc 4
  let der_12_ga : ℝ := s_g / (uc 1 * phi * s_a) - m_b_ij 1 / phi * d_calc_phi uc 5
  let der_12 : Fin 6 → ℝ := ![der_12_a, der_12_b, der_12_c, der_12_al, der_12_be, der_12_ga]
  let der_13_a : ℝ := -m_b_ij 2 / phi * d_calc_phi uc 0
  let der_13_b : ℝ := -m_b_ij 2 / phi * d_calc_phi uc 1
  let der_13_c : ℝ := -m_b_ij 2 / uc 2 - m_b_ij 2 / phi * d_calc_phi uc 2
  let der_13_al : ℝ := (c_a * c_b - c_g) / (s_a ^ 2 * uc 2 * phi) - m_b_ij 2 / phi * d_calc_phi uc 3
  let der_13_be : ℝ := s_b / (uc 2 * phi * s_a) - m_b_ij 2 / phi * d_calc_phi uc 4
  let der_13_ga : ℝ := -s_g * c_a / (uc 2 * phi * s_a) - m_b_ij 2 / phi * d_calc_phi uc 5
  let der_13 : Fin 6 → ℝ := ![der_13_a, der_13_b, der_13_c, der_13_al, der_13_be, der_13_ga]
  let der_22_b : ℝ := -m_b_ij 4 / uc 1
  let der_22_al : ℝ := -m_b_ij 4 * c_a / s_a ^ 2
  let der_22 : Fin 6 → ℝ := ![0, der_22_b, 0, der_22_al, 0, 0]
  let der_23_c : ℝ := -m_b_ij 5 / uc 2
  let der_23_al : ℝ := 1 / (s_a ^ 2 * uc 2)
  let der_23 : Fin 6 → ℝ := ![0, 0, der_23_c, der_23_al, 0, 0]
  let der_33_c : ℝ := -1 / uc 2 ^ 2
  let der_33 : Fin 6 → ℝ := ![0, 0, der_33_c, 0, 0, 0]
  let der_21 : Fin 6 → ℝ := ![0, 0, 0, 0, 0, 0]
  let der_31 : Fin 6 → ℝ := ![0, 0, 0, 0, 0, 0]
  let der_32 : Fin 6 → ℝ := ![0, 0, 0, 0, 0, 0]
  ![![der_11 0, der_11 1, der_11 2, der_11 3, der_11 4, der_11 5],
   ![der_12 0, der_12 1, der_12 2, der_12 3, der_12 4, der_12 5],
   ![der_13 0, der_13 1, der_13 2, der_13 3, der_13 4, der_13 5],
   ![der_21 0, der_21 1, der_21 2, der_21 3, der_21 4, der_21 5],
   ![der_22 0, der_22 1, der_22 2, der_22 3, der_22 4, der_22 5],
   ![der_23 0, der_23 1, der_23 2, der_23 3, der_23 4, der_23 5],
   ![der_31 0, der_31 1, der_31 2, der_31 3, der_31 4, der_31 5],
   ![der_32 0, der_32 1, der_32 2, der_32 3, der_32 4, der_32 5],
   ![der_33 0, der_33 1, der_33 2, der_33 3, der_33 4, der_33 5]]

/-- `calc_m_inv_b_by_unit_cell_parameters`, A_functions_base/unit_cell.py:344-377. -/
noncomputable def calc_m_inv_b (uc : Fin 6 → ℝ) : Fin 9 → ℝ :=
  let c_a : ℝ := Real.cos (uc 3)
  let c_b : ℝ := Real.cos (uc 4)
  let c_g : ℝ := Real.cos (uc 5)
  let s_a : ℝ := Real.sin (uc 3)
  let phi : ℝ := calc_phi uc
  let m_inv_b_ij : Fin 9 → ℝ := ![uc 0 * phi / s_a, uc 0 * (c_g - c_a * c_b) / s_a, uc 0 * c_b, 0, uc 1 * s_a, uc 1 * c_a, 0, 0, uc 2]
  m_inv_b_ij

/-- `calc_m_inv_b_by_unit_cell_parameters`, output `unit_cell_parameters`, A_functions_base/unit_cell.py:344-377. -/
noncomputable def d_calc_m_inv_b (uc : Fin 6 → ℝ) : Fin 9 → Fin 6 → ℝ :=
  let der_11 : Fin 6 → ℝ := ![0, 0, 0, 0, 0, 0]
  let der_12 : Fin 6 → ℝ := ![0, 0, 0, 0, 0, 0]
  let der_13 : Fin 6 → ℝ := ![0, 0, 0, 0, 0, 0]
  let der_21 : Fin 6 → ℝ := ![0, 0, 0, 0, 0, 0]
  let der_22 : Fin 6 → ℝ := ![0, 0, 0, 0, 0, 0]
  let der_23 : Fin 6 → ℝ := ![0, 0, 0, 0, 0, 0]
  let der_31 : Fin 6 → ℝ := ![0, 0, 0, 0, 0, 0]
  let der_32 : Fin 6 → ℝ := ![0, 0, 0, 0, 0, 0]
  let der_33 : Fin 6 → ℝ := ![0, 0, 0, 0, 0, 0]
  ![![der_11 0, der_11 1, der_11 2, der_11 3, der_11 4, der_11 5],
   ![der_12 0, der_12 1, der_12 2, der_12 3, der_12 4, der_12 5],
   ![der_13 0, der_13 1, der_13 2, der_13 3, der_13 4, der_13 5],
   ![der_21 0, der_21 1, der_21 2, der_21 3, der_21 4, der_21 5],
   ![der_22 0, der_22 1, der_22 2, der_22 3, der_22 4, der_22 5],
   ![der_23 0, der_23 1, der_23 2, der_23 3, der_23 4, der_23 5],
   ![der_31 0, der_31 1, der_31 2, der_31 3, der_31 4, der_31 5],
   ![der_32 0, der_32 1, der_32 2, der_32 3, der_32 4, der_32 5],
   ![der_33 0, der_33 1, der_33 2, der_33 3, der_33 4, der_33 5]]

/-- `calc_m_b_norm_by_unit_cell_parameters`, A_functions_base/unit_cell.py:380-416. -/
noncomputable def calc_m_b_norm (uc : Fin 6 → ℝ) : Fin 9 → ℝ :=
  let c_a : ℝ := Real.cos (uc 3)
  let c_b : ℝ := Real.cos (uc 4)
  let c_g : ℝ := Real.cos (uc 5)
  let s_a : ℝ := Real.sin (uc 3)
  let s_b : ℝ := Real.sin (uc 4)
  let s_g : ℝ := Real.sin (uc 5)
  let phi : ℝ := calc_phi uc
  let m_b_norm_ij : Fin 9 → ℝ := ![1,
   (c_a * c_b - c_g) / (s_a * s_b),
   (c_a * c_g - c_b) / (s_a * s_g),
   0,
   phi / (s_a * s_b),
   -phi * c_a / (s_a * s_g),
   0,
   0,
   phi / s_g]
  m_b_norm_ij

/-- `calc_m_b_norm_by_unit_cell_parameters`, output `unit_cell_parameters`, A_functions_base/unit_cell.py:380-416. -/
noncomputable def d_calc_m_b_norm (uc : Fin 6 → ℝ) : Fin 9 → Fin 6 → ℝ :=
  let der_11 : Fin 6 → ℝ := ![0, 0, 0, 0, 0, 0]
  let der_12 : Fin 6 → ℝ := ![0, 0, 0, 0, 0, 0]
  let der_13 : Fin 6 → ℝ := ![0, 0, 0, 0, 0, 0]
  let der_21 : Fin 6 → ℝ := ![0, 0, 0, 0, 0, 0]
  let der_22 : Fin 6 → ℝ := ![0, 0, 0, 0, 0, 0]
  let der_23 : Fin 6 → ℝ := ![0, 0, 0, 0, 0, 0]
  let der_31 : Fin 6 → ℝ := ![0, 0, 0, 0, 0, 0]
  let der_32 : Fin 6 → ℝ := ![0, 0, 0, 0, 0, 0]
  let der_33 : Fin 6 → ℝ := ![0, 0, 0, 0, 0, 0]
  ![![der_11 0, der_11 1, der_11 2, der_11 3, der_11 4, der_11 5],
   ![der_12 0, der_12 1, der_12 2, der_12 3, der_12 4, der_12 5],
   ![der_13 0, der_13 1, der_13 2, der_13 3, der_13 4, der_13 5],
   ![der_21 0, der_21 1, der_21 2, der_21 3, der_21 4, der_21 5],
   ![der_22 0, der_22 1, der_22 2, der_22 3, der_22 4, der_22 5],
   ![der_23 0, der_23 1, der_23 2, der_23 3, der_23 4, der_23 5],
   ![der_31 0, der_31 1, der_31 2, der_31 3, der_31 4, der_31 5],
   ![der_32 0, der_32 1, der_32 2, der_32 3, der_32 4, der_32 5],
   ![der_33 0, der_33 1, der_33 2, der_33 3, der_33 4, der_33 5]]

/-- `calc_m_inv_b_norm_by_unit_cell_parameters`, A_functions_base/unit_cell.py:419-458. -/
noncomputable def calc_m_inv_b_norm (uc : Fin 6 → ℝ) : Fin 9 → ℝ :=
  let c_a : ℝ := Real.cos (uc 3)
  let c_b : ℝ := Real.cos (uc 4)
  let c_g : ℝ := Real.cos (uc 5)
  let s_a : ℝ := Real.sin (uc 3)
  let s_b : ℝ := Real.sin (uc 4)
  let s_g : ℝ := Real.sin (uc 5)
  let phi : ℝ := calc_phi uc
  let m_inv_b_norm : Fin 9 → ℝ := ![1, (c_g - c_a * c_b) / phi, s_a * c_b / phi, 0, s_a * s_b / phi, c_a * s_b / phi, 0, 0, s_g / phi]
  m_inv_b_norm

/-- `calc_m_m_by_unit_cell_parameters`, A_functions_base/unit_cell.py:461-495. -/
noncomputable def calc_m_m (uc : Fin 6 → ℝ) : Fin 9 → ℝ :=
  let c_a : ℝ := Real.cos (uc 3)
  let c_b : ℝ := Real.cos (uc 4)
  let c_g : ℝ := Real.cos (uc 5)
  let s_a : ℝ := Real.sin (uc 3)
  let phi : ℝ := calc_phi uc
  let m_m_ij : Fin 9 → ℝ := ![uc 0 * phi / s_a, 0, 0, uc 0 * (c_g - c_a * c_b) / s_a, uc 1 * s_a, 0, uc 0 * c_b, uc 1 * c_a, uc 2]
  m_m_ij

/-- `calc_m_m_by_unit_cell_parameters`, output `unit_cell_parameters`, A_functions_base/unit_cell.py:461-495. -/
noncomputable def d_calc_m_m (uc : Fin 6 → ℝ) : Fin 9 → Fin 6 → ℝ :=
  let der_11 : Fin 6 → ℝ := ![0, 0, 0, 0, 0, 0]
  let der_12 : Fin 6 → ℝ := ![0, 0, 0, 0, 0, 0]
  let der_13 : Fin 6 → ℝ := ![0, 0, 0, 0, 0, 0]
  let der_21 : Fin 6 → ℝ := ![0, 0, 0, 0, 0, 0]
  let der_22 : Fin 6 → ℝ := ![0, 0, 0, 0, 0, 0]
  let der_23 : Fin 6 → ℝ := ![0, 0, 0, 0, 0, 0]
  let der_31 : Fin 6 → ℝ := ![0, 0, 0, 0, 0, 0]
  let der_32 : Fin 6 → ℝ := ![0, 0, 0, 0, 0, 0]
  let der_33 : Fin 6 → ℝ := ![0, 0, 0, 0, 0, 0]
  ![![der_11 0, der_11 1, der_11 2, der_11 3, der_11 4, der_11 5],
   ![der_12 0, der_12 1, der_12 2, der_12 3, der_12 4, der_12 5],
   ![der_13 0, der_13 1, der_13 2, der_13 3, der_13 4, der_13 5],
   ![der_21 0, der_21 1, der_21 2, der_21 3, der_21 4, der_21 5],
   ![der_22 0, der_22 1, der_22 2, der_22 3, der_22 4, der_22 5],
   ![der_23 0, der_23 1, der_23 2, der_23 3, der_23 4, der_23 5],
   ![der_31 0, der_31 1, der_31 2, der_31 3, der_31 4, der_31 5],
   ![der_32 0, der_32 1, der_32 2, der_32 3, der_32 4, der_32 5],
   ![der_33 0, der_33 1, der_33 2, der_33 3, der_33 4, der_33 5]]

/-- `calc_m_inv_m_by_unit_cell_parameters`, A_functions_base/unit_cell.py:498-532. -/
noncomputable def calc_m_inv_m (uc : Fin 6 → ℝ) : Fin 9 → ℝ :=
  let c_a : ℝ := Real.cos (uc 3)
  let c_b : ℝ := Real.cos (uc 4)
  let c_g : ℝ := Real.cos (uc 5)
  let s_a : ℝ := Real.sin (uc 3)
  let phi : ℝ := calc_phi uc
  let m_inv_m_ij : Fin 9 → ℝ := ![s_a / (uc 0 * phi),
   0,
   0,
   (c_a * c_b - c_g) / (uc 1 * phi * s_a),
   1 / (uc 1 * s_a),
   0,
   (c_a * c_g - c_b) / (uc 2 * phi * s_a),
   -c_a / (uc 2 * s_a),
   1 / uc 2]
  m_inv_m_ij

/-- `calc_m_inv_m_by_unit_cell_parameters`, output `unit_cell_parameters`, A_functions_base/unit_cell.py:498-532. -/
noncomputable def d_calc_m_inv_m (uc : Fin 6 → ℝ) : Fin 9 → Fin 6 → ℝ :=
  let der_11 : Fin 6 → ℝ := ![0, 0, 0, 0, 0, 0]
  let der_12 : Fin 6 → ℝ := ![0, 0, 0, 0, 0, 0]
  let der_13 : Fin 6 → ℝ := ![0, 0, 0, 0, 0, 0]
  let der_21 : Fin 6 → ℝ := ![0, 0, 0, 0, 0, 0]
  let der_22 : Fin 6 → ℝ := ![0, 0, 0, 0, 0, 0]
  let der_23 : Fin 6 → ℝ := ![0, 0, 0, 0, 0, 0]
  let der_31 : Fin 6 → ℝ := ![0, 0, 0, 0, 0, 0]
  let der_32 : Fin 6 → ℝ := ![0, 0, 0, 0, 0, 0]
  let der_33 : Fin 6 → ℝ := ![0, 0, 0, 0, 0, 0]
  ![![der_11 0, der_11 1, der_11 2, der_11 3, der_11 4, der_11 5],
   ![der_12 0, der_12 1, der_12 2, der_12 3, der_12 4, der_12 5],
   ![der_13 0, der_13 1, der_13 2, der_13 3, der_13 4, der_13 5],
   ![der_21 0, der_21 1, der_21 2, der_21 3, der_21 4, der_21 5],
   ![der_22 0, der_22 1, der_22 2, der_22 3, der_22 4, der_22 5],
   ![der_23 0, der_23 1, der_23 2, der_23 3, der_23 4, der_23 5],
   ![der_31 0, der_31 1, der_31 2, der_31 3, der_31 4, der_31 5],
   ![der_32 0, der_32 1, der_32 2, der_32 3, der_32 4, der_32 5],
   ![der_33 0, der_33 1, der_33 2, der_33 3, der_33 4, der_33 5]]

/-- `calc_m_m_norm_by_unit_cell_parameters`, A_functions_base/unit_cell.py:535-579. -/
noncomputable def calc_m_m_norm (uc : Fin 6 → ℝ) : Fin 9 → ℝ :=
  let c_a : ℝ := Real.cos (uc 3)
  let c_b : ℝ := Real.cos (uc 4)
  let c_g : ℝ := Real.cos (uc 5)
  let s_a : ℝ := Real.sin (uc 3)
  let phi : ℝ := calc_phi uc
  let m_m_norm_ij : Fin 9 → ℝ := ![phi / s_a, 0, 0, (c_g - c_a * c_b) / s_a, s_a, 0, c_b, c_a, 1]
  m_m_norm_ij

/-- `calc_m_m_norm_by_unit_cell_parameters`, output `unit_cell_parameters`, A_functions_base/unit_cell.py:535-579. -/
noncomputable def d_calc_m_m_norm (uc : Fin 6 → ℝ) : Fin 9 → Fin 6 → ℝ :=
  let c_a : ℝ := Real.cos (uc 3)
  let c_b : ℝ := Real.cos (uc 4)
  let c_g : ℝ := Real.cos (uc 5)
  let s_a : ℝ := Real.sin (uc 3)
  let s_b : ℝ := Real.sin (uc 4)
  let s_g : ℝ := Real.sin (uc 5)
  let phi : ℝ := calc_phi uc
  let s_a_sq : ℝ := s_a ^ 2
  let c_a_sq : ℝ := c_a ^ 2
  let der_11 : Fin 6 → ℝ := ![0,
   0,
   0,
   -(1 / 2) / phi * (2 * c_a - 2 * c_b * c_g) - phi * c_a / s_a_sq,
   -(1 / 2) / phi * (2 * c_b - 2 * c_a * c_g) * s_b / s_a,
   -(1 / 2) / phi * (2 * c_g - 2 * c_a * c_b) * s_g / s_a]
  let der_12 : Fin 6 → ℝ := ![0, 0, 0, 0, 0, 0]
  let der_13 : Fin 6 → ℝ := ![0, 0, 0, 0, 0, 0]
  let der_21 : Fin 6 → ℝ := ![0, 0, 0, c_b - (c_g * c_a - c_a_sq * c_b) / s_a_sq, c_a * s_b / s_a, -s_g / s_a]
  let der_22 : Fin 6 → ℝ := ![0, 0, 0, c_a, 0, 0]
  let der_23 : Fin 6 → ℝ := ![0, 0, 0, 0, 0, 0]
  let der_31 : Fin 6 → ℝ := ![0, 0, 0, 0, -1 * s_b, 0]
  let der_32 : Fin 6 → ℝ := ![0, 0, 0, -1 * s_a, 0, 0]
  let der_33 : Fin 6 → ℝ := ![0, 0, 0, 0, 0, 0]
  ![![der_11 0, der_11 1, der_11 2, der_11 3, der_11 4, der_11 5],
   ![der_12 0, der_12 1, der_12 2, der_12 3, der_12 4, der_12 5],
   ![der_13 0, der_13 1, der_13 2, der_13 3, der_13 4, der_13 5],
   ![der_21 0, der_21 1, der_21 2, der_21 3, der_21 4, der_21 5],
   ![der_22 0, der_22 1, der_22 2, der_22 3, der_22 4, der_22 5],
   ![der_23 0, der_23 1, der_23 2, der_23 3, der_23 4, der_23 5],
   ![der_31 0, der_31 1, der_31 2, der_31 3, der_31 4, der_31 5],
   ![der_32 0, der_32 1, der_32 2, der_32 3, der_32 4, der_32 5],
   ![der_33 0, der_33 1, der_33 2, der_33 3, der_33 4, der_33 5]]

/-- `calc_m_inv_m_norm_by_unit_cell_parameters`, A_functions_base/unit_cell.py:582-618. -/
noncomputable def calc_m_inv_m_norm (uc : Fin 6 → ℝ) : Fin 9 → ℝ :=
  let c_a : ℝ := Real.cos (uc 3)
  let c_b : ℝ := Real.cos (uc 4)
  let c_g : ℝ := Real.cos (uc 5)
  let s_a : ℝ := Real.sin (uc 3)
  let phi : ℝ := calc_phi uc
  let m_inv_m_norm_ij : Fin 9 → ℝ := ![s_a / phi, 0, 0, (c_a * c_b - c_g) / (phi * s_a), 1 / s_a, 0, (c_a * c_g - c_b) / (phi * s_a), -c_a / s_a, 1]
  m_inv_m_norm_ij

/-- `calc_m_inv_m_norm_by_unit_cell_parameters`, output `unit_cell_parameters`, A_functions_base/unit_cell.py:582-618. -/
noncomputable def d_calc_m_inv_m_norm (uc : Fin 6 → ℝ) : Fin 9 → Fin 6 → ℝ :=
  let der_11 : Fin 6 → ℝ := ![0, 0, 0, 0, 0, 0]
  let der_12 : Fin 6 → ℝ := ![0, 0, 0, 0, 0, 0]
  let der_13 : Fin 6 → ℝ := ![0, 0, 0, 0, 0, 0]
  let der_21 : Fin 6 → ℝ := ![0, 0, 0, 0, 0, 0]
  let der_22 : Fin 6 → ℝ := ![0, 0, 0, 0, 0, 0]
  let der_23 : Fin 6 → ℝ := ![0, 0, 0, 0, 0, 0]
  let der_31 : Fin 6 → ℝ := ![0, 0, 0, 0, 0, 0]
  let der_32 : Fin 6 → ℝ := ![0, 0, 0, 0, 0, 0]
  let der_33 : Fin 6 → ℝ := ![0, 0, 0, 0, 0, 0]
  ![![der_11 0, der_11 1, der_11 2, der_11 3, der_11 4, der_11 5],
   ![der_12 0, der_12 1, der_12 2, der_12 3, der_12 4, der_12 5],
   ![der_13 0, der_13 1, der_13 2, der_13 3, der_13 4, der_13 5],
   ![der_21 0, der_21 1, der_21 2, der_21 3, der_21 4, der_21 5],
   ![der_22 0, der_22 1, der_22 2, der_22 3, der_22 4, der_22 5],
   ![der_23 0, der_23 1, der_23 2, der_23 3, der_23 4, der_23 5],
   ![der_31 0, der_31 1, der_31 2, der_31 3, der_31 4, der_31 5],
   ![der_32 0, der_32 1, der_32 2, der_32 3, der_32 4, der_32 5],
   ![der_33 0, der_33 1, der_33 2, der_33 3, der_33 4, der_33 5]]

/-- `calc_q_ccs_by_unit_cell_parameters`, A_functions_base/unit_cell.py:621-658. -/
noncomputable def calc_q_ccs (hkl : Fin 3 → ℝ) (uc : Fin 6 → ℝ) : Fin 3 → ℝ :=
  let m_b : Fin 9 → ℝ := calc_m_b uc
  let q_xyz : Fin 3 → ℝ := ![m_b 0 * hkl 0 + m_b 1 * hkl 1 + m_b 2 * hkl 2,
   m_b 3 * hkl 0 + m_b 4 * hkl 1 + m_b 5 * hkl 2,
   m_b 6 * hkl 0 + m_b 7 * hkl 1 + m_b 8 * hkl 2]
  q_xyz

/-- `calc_q_ccs_by_unit_cell_parameters`, output `unit_cell_parameters`, A_functions_base/unit_cell.py:621-658. -/
noncomputable def d_calc_q_ccs (hkl : Fin 3 → ℝ) (uc : Fin 6 → ℝ) : Fin 3 → Fin 1 → Fin 6 → ℝ :=
  ![![![hkl 0 * d_calc_m_b uc 0 0 + hkl 1 * d_calc_m_b uc 1 0 + hkl 2 * d_calc_m_b uc 2 0,
       hkl 0 * d_calc_m_b uc 0 1 + hkl 1 * d_calc_m_b uc 1 1 + hkl 2 * d_calc_m_b uc 2 1,
       hkl 0 * d_calc_m_b uc 0 2 + hkl 1 * d_calc_m_b uc 1 2 + hkl 2 * d_calc_m_b uc 2 2,
       hkl 0 * d_calc_m_b uc 0 3 + hkl 1 * d_calc_m_b uc 1 3 + hkl 2 * d_calc_m_b uc 2 3,
       hkl 0 * d_calc_m_b uc 0 4 + hkl 1 * d_calc_m_b uc 1 4 + hkl 2 * d_calc_m_b uc 2 4,
       hkl 0 * d_calc_m_b uc 0 5 + hkl 1 * d_calc_m_b uc 1 5 + hkl 2 * d_calc_m_b uc 2 5]],
   ![![hkl 0 * d_calc_m_b uc 3 0 + hkl 1 * d_calc_m_b uc 4 0 + hkl 2 * d_calc_m_b uc 5 0,
       hkl 0 * d_calc_m_b uc 3 1 + hkl 1 * d_calc_m_b uc 4 1 + hkl 2 * d_calc_m_b uc 5 1,
       hkl 0 * d_calc_m_b uc 3 2 + hkl 1 * d_calc_m_b uc 4 2 + hkl 2 * d_calc_m_b uc 5 2,
       hkl 0 * d_calc_m_b uc 3 3 + hkl 1 * d_calc_m_b uc 4 3 + hkl 2 * d_calc_m_b uc 5 3,
       hkl 0 * d_calc_m_b uc 3 4 + hkl 1 * d_calc_m_b uc 4 4 + hkl 2 * d_calc_m_b uc 5 4,
       hkl 0 * d_calc_m_b uc 3 5 + hkl 1 * d_calc_m_b uc 4 5 + hkl 2 * d_calc_m_b uc 5 5]],
   ![![hkl 0 * d_calc_m_b uc 6 0 + hkl 1 * d_calc_m_b uc 7 0 + hkl 2 * d_calc_m_b uc 8 0,
       hkl 0 * d_calc_m_b uc 6 1 + hkl 1 * d_calc_m_b uc 7 1 + hkl 2 * d_calc_m_b uc 8 1,
       hkl 0 * d_calc_m_b uc 6 2 + hkl 1 * d_calc_m_b uc 7 2 + hkl 2 * d_calc_m_b uc 8 2,
       hkl 0 * d_calc_m_b uc 6 3 + hkl 1 * d_calc_m_b uc 7 3 + hkl 2 * d_calc_m_b uc 8 3,
       hkl 0 * d_calc_m_b uc 6 4 + hkl 1 * d_calc_m_b uc 7 4 + hkl 2 * d_calc_m_b uc 8 4,
       hkl 0 * d_calc_m_b uc 6 5 + hkl 1 * d_calc_m_b uc 7 5 + hkl 2 * d_calc_m_b uc 8 5]]]

/-- `calc_eq_ccs_by_unit_cell_parameters`, A_functions_base/unit_cell.py:661-694. -/
noncomputable def calc_eq_ccs (hkl : Fin 3 → ℝ) (uc : Fin 6 → ℝ) : Fin 3 → ℝ :=
  let q_xyz : Fin 3 → ℝ := calc_q_ccs hkl uc
  let q_norm : ℝ := Real.sqrt (q_xyz 0 ^ 2 + q_xyz 1 ^ 2 + q_xyz 2 ^ 2)
  let q_norm₁ : ℝ := if q_norm ≠ 0 then q_norm else 1
  let eq_xyz : Fin 3 → ℝ := ![q_xyz 0 / q_norm₁, q_xyz 1 / q_norm₁, q_xyz 2 / q_norm₁]
  eq_xyz

/-- `calc_inv_d_by_unit_cell_parameters`, A_functions_base/unit_cell.py:697-738. -/
noncomputable def calc_inv_d (hkl : Fin 3 → ℝ) (uc : Fin 6 → ℝ) : ℝ :=
  let c_a : ℝ := Real.cos (uc 3)
  let c_b : ℝ := Real.cos (uc 4)
  let c_g : ℝ := Real.cos (uc 5)
  let c_a_sq : ℝ := c_a ^ 2
  let c_b_sq : ℝ := c_b ^ 2
  let c_g_sq : ℝ := c_g ^ 2
  let s_a_sq : ℝ := 1 - c_a_sq
  let s_b_sq : ℝ := 1 - c_b_sq
  let s_g_sq : ℝ := 1 - c_g_sq
  let A : ℝ := 1 - c_a_sq - c_b_sq - c_g_sq + 2 * c_a * c_b * c_g
  let B1 : ℝ := s_a_sq * (hkl 0 * 1 / uc 0) ^ 2 + s_b_sq * (hkl 1 * 1 / uc 1) ^ 2 + s_g_sq * (hkl 2 * 1 / uc 2) ^ 2
  let B2 : ℝ := 2 * (hkl 1 * hkl 2 * (c_a - c_b * c_g)) / (uc 1 * uc 2) + 2 * (hkl 0 * hkl 2 * (c_b - c_a * c_g)) / (uc 0 * uc 2) + 2 * (hkl 0 * hkl 1 * (c_g - c_a * c_b)) / (uc 0 * uc 1)
  let B : ℝ := B1 - B2
  let inv_d : ℝ := Real.sqrt (B * 1 / A)
  inv_d

/-- `calc_inv_d_by_unit_cell_parameters`, output `unit_cell_parameters`, A_functions_base/unit_cell.py:697-738. -/
noncomputable def d_calc_inv_d (hkl : Fin 3 → ℝ) (uc : Fin 6 → ℝ) : Fin 6 → ℝ :=
  let c_a : ℝ := Real.cos (uc 3)
  let c_b : ℝ := Real.cos (uc 4)
  let c_g : ℝ := Real.cos (uc 5)
  let c_a_sq : ℝ := c_a ^ 2
  let c_b_sq : ℝ := c_b ^ 2
  let c_g_sq : ℝ := c_g ^ 2
  let s_a_sq : ℝ := 1 - c_a_sq
  let s_b_sq : ℝ := 1 - c_b_sq
  let s_g_sq : ℝ := 1 - c_g_sq
  let A : ℝ := 1 - c_a_sq - c_b_sq - c_g_sq + 2 * c_a * c_b * c_g
  let B1 : ℝ := s_a_sq * (hkl 0 * 1 / uc 0) ^ 2 + s_b_sq * (hkl 1 * 1 / uc 1) ^ 2 + s_g_sq * (hkl 2 * 1 / uc 2) ^ 2
  let B2 : ℝ := 2 * (hkl 1 * hkl 2 * (c_a - c_b * c_g)) / (uc 1 * uc 2) + 2 * (hkl 0 * hkl 2 * (c_b - c_a * c_g)) / (uc 0 * uc 2) + 2 * (hkl 0 * hkl 1 * (c_g - c_a * c_b)) / (uc 0 * uc 1)
  let B : ℝ := B1 - B2
  let inv_d : ℝ := Real.sqrt (B * 1 / A)
  let coeff : ℝ := 1 / (inv_d * A)
  let s_a : ℝ := Real.sin (uc 3)
  let s_b : ℝ := Real.sin (uc 4)
  let s_g : ℝ := Real.sin (uc 5)
  let dder_a : ℝ := coeff * (hkl 0 / uc 0 ^ 2) * (c_b * hkl 2 / uc 2 + c_g * hkl 1 / uc 1 - s_a_sq * hkl 0 / uc 0) * 1
  let dder_b : ℝ := coeff * (hkl 1 / uc 1 ^ 2) * (c_g * hkl 0 / uc 0 + c_a * hkl 2 / uc 2 - s_b_sq * hkl 1 / uc 1) * 1
  let dder_c : ℝ := coeff * (hkl 2 / uc 2 ^ 2) * (c_a * hkl 1 / uc 1 + c_b * hkl 0 / uc 0 - s_g_sq * hkl 2 / uc 2) * 1
  let dder_al : ℝ := s_a / A * ((c_a * (hkl 0 / uc 0) ^ 2 + hkl 1 * hkl 2 / (uc 1 * uc 2)) / inv_d - inv_d * (c_a - c_b * c_g) / A) * 1
  let dder_be : ℝ := s_b / A * ((c_b * (hkl 1 / uc 1) ^ 2 + hkl 2 * hkl 0 / (uc 2 * uc 0)) / inv_d - inv_d * (c_b - c_g * c_a) / A) * 1
  let dder_ga : ℝ := s_g / A * ((c_g * (hkl 2 / uc 2) ^ 2 + hkl 0 * hkl 1 / (uc 0 * uc 1)) / inv_d - inv_d * (c_g - c_a * c_b) / A) * 1
  ![dder_a, dder_b, dder_c, dder_al, dder_be, dder_ga]

/-- `calc_sthovl_by_unit_cell_parameters`, A_functions_base/unit_cell.py:741-754. -/
noncomputable def calc_sthovl (hkl : Fin 3 → ℝ) (uc : Fin 6 → ℝ) : ℝ :=
  let inv_d : ℝ := calc_inv_d hkl uc
  let sthovl : ℝ := (1 / 2) * inv_d
  sthovl

/-- `calc_sthovl_by_unit_cell_parameters`, output `unit_cell_parameters`, A_functions_base/unit_cell.py:741-754. -/
noncomputable def d_calc_sthovl (hkl : Fin 3 → ℝ) (uc : Fin 6 → ℝ) : Fin 6 → ℝ :=
  ![(1 / 2) * d_calc_inv_d hkl uc 0,
   (1 / 2) * d_calc_inv_d hkl uc 1,
   (1 / 2) * d_calc_inv_d hkl uc 2,
   (1 / 2) * d_calc_inv_d hkl uc 3,
   (1 / 2) * d_calc_inv_d hkl uc 4,
   (1 / 2) * d_calc_inv_d hkl uc 5]

/-- `transform_quadratic_form_reciprocal_to_ccs`, A_functions_base/unit_cell.py:758-778. -/
noncomputable def transform_quadratic_form_reciprocal_to_ccs (quadratic_form_reciprocal : Fin 6 → ℝ) (uc : Fin 6 → ℝ) : Fin 6 → ℝ :=
  let m_m_ij : Fin 9 → ℝ := calc_m_inv_b uc
  let m_mt_ij : Fin 9 → ℝ := ![m_m_ij 0, m_m_ij 3, m_m_ij 6, m_m_ij 1, m_m_ij 4, m_m_ij 7, m_m_ij 2, m_m_ij 5, m_m_ij 8]
  let quadratic_form_ccs : Fin 6 → ℝ := Mat.calc_m_q_mt m_mt_ij quadratic_form_reciprocal
  quadratic_form_ccs

/-- `transform_quadratic_form_ccs_to_reciprocal`, A_functions_base/unit_cell.py:781-800. -/
noncomputable def transform_quadratic_form_ccs_to_reciprocal (quadratic_form_ccs : Fin 6 → ℝ) (uc : Fin 6 → ℝ) : Fin 6 → ℝ :=
  let m_m_ij : Fin 9 → ℝ := calc_m_b uc
  let m_mt_ij : Fin 9 → ℝ := ![m_m_ij 0, m_m_ij 3, m_m_ij 6, m_m_ij 1, m_m_ij 4, m_m_ij 7, m_m_ij 2, m_m_ij 5, m_m_ij 8]
  let quadratic_form_reciprocal : Fin 6 → ℝ := Mat.calc_m_q_mt m_mt_ij quadratic_form_ccs
  quadratic_form_reciprocal

/-- `transform_quadratic_form_reciprocal_norm_to_ccs`, A_functions_base/unit_cell.py:803-822. -/
noncomputable def transform_quadratic_form_reciprocal_norm_to_ccs (quadratic_form_reciprocal_norm : Fin 6 → ℝ) (uc : Fin 6 → ℝ) : Fin 6 → ℝ :=
  let m_m_ij : Fin 9 → ℝ := calc_m_inv_b_norm uc
  let m_mt_ij : Fin 9 → ℝ := ![m_m_ij 0, m_m_ij 3, m_m_ij 6, m_m_ij 1, m_m_ij 4, m_m_ij 7, m_m_ij 2, m_m_ij 5, m_m_ij 8]
  let quadratic_form_ccs : Fin 6 → ℝ := Mat.calc_m_q_mt m_mt_ij quadratic_form_reciprocal_norm
  quadratic_form_ccs

/-- `transform_quadratic_form_ccs_to_reciprocal_norm`, A_functions_base/unit_cell.py:825-844. -/
noncomputable def transform_quadratic_form_ccs_to_reciprocal_norm (quadratic_form_ccs : Fin 6 → ℝ) (uc : Fin 6 → ℝ) : Fin 6 → ℝ :=
  let m_m_ij : Fin 9 → ℝ := calc_m_b_norm uc
  let m_mt_ij : Fin 9 → ℝ := ![m_m_ij 0, m_m_ij 3, m_m_ij 6, m_m_ij 1, m_m_ij 4, m_m_ij 7, m_m_ij 2, m_m_ij 5, m_m_ij 8]
  let quadratic_form_reciprocal_norm : Fin 6 → ℝ := Mat.calc_m_q_mt m_mt_ij quadratic_form_ccs
  quadratic_form_reciprocal_norm

/-- `transform_quadratic_form_direct_to_ccs`, A_functions_base/unit_cell.py:847-866. -/
noncomputable def transform_quadratic_form_direct_to_ccs (quadratic_form_direct : Fin 6 → ℝ) (uc : Fin 6 → ℝ) : Fin 6 → ℝ :=
  let m_m_ij : Fin 9 → ℝ := calc_m_inv_m uc
  let m_mt_ij : Fin 9 → ℝ := ![m_m_ij 0, m_m_ij 3, m_m_ij 6, m_m_ij 1, m_m_ij 4, m_m_ij 7, m_m_ij 2, m_m_ij 5, m_m_ij 8]
  let quadratic_form_ccs : Fin 6 → ℝ := Mat.calc_m_q_mt m_mt_ij quadratic_form_direct
  quadratic_form_ccs

/-- `transform_quadratic_form_ccs_to_direct`, A_functions_base/unit_cell.py:869-888. -/
noncomputable def transform_quadratic_form_ccs_to_direct (quadratic_form_ccs : Fin 6 → ℝ) (uc : Fin 6 → ℝ) : Fin 6 → ℝ :=
  let m_m_ij : Fin 9 → ℝ := calc_m_m uc
  let m_mt_ij : Fin 9 → ℝ := ![m_m_ij 0, m_m_ij 3, m_m_ij 6, m_m_ij 1, m_m_ij 4, m_m_ij 7, m_m_ij 2, m_m_ij 5, m_m_ij 8]
  let quadratic_form_direct : Fin 6 → ℝ := Mat.calc_m_q_mt m_mt_ij quadratic_form_ccs
  quadratic_form_direct

/-- `transform_quadratic_form_direct_norm_to_ccs`, A_functions_base/unit_cell.py:891-910. -/
noncomputable def transform_quadratic_form_direct_norm_to_ccs (quadratic_form_direct_norm : Fin 6 → ℝ) (uc : Fin 6 → ℝ) : Fin 6 → ℝ :=
  let m_m_ij : Fin 9 → ℝ := calc_m_inv_m_norm uc
  let m_mt_ij : Fin 9 → ℝ := ![m_m_ij 0, m_m_ij 3, m_m_ij 6, m_m_ij 1, m_m_ij 4, m_m_ij 7, m_m_ij 2, m_m_ij 5, m_m_ij 8]
  let quadratic_form_ccs : Fin 6 → ℝ := Mat.calc_m_q_mt m_mt_ij quadratic_form_direct_norm
  quadratic_form_ccs

/-- `transform_quadratic_form_ccs_to_direct_norm`, A_functions_base/unit_cell.py:913-932. -/
noncomputable def transform_quadratic_form_ccs_to_direct_norm (quadratic_form_ccs : Fin 6 → ℝ) (uc : Fin 6 → ℝ) : Fin 6 → ℝ :=
  let m_m_ij : Fin 9 → ℝ := calc_m_m_norm uc
  let m_mt_ij : Fin 9 → ℝ := ![m_m_ij 0, m_m_ij 3, m_m_ij 6, m_m_ij 1, m_m_ij 4, m_m_ij 7, m_m_ij 2, m_m_ij 5, m_m_ij 8]
  let quadratic_form_direct_norm : Fin 6 → ℝ := Mat.calc_m_q_mt m_mt_ij quadratic_form_ccs
  quadratic_form_direct_norm

/-- `calc_m_inv_m_b_norm_by_unit_cell_parameters`, A_functions_base/unit_cell.py:934-974. -/
noncomputable def calc_m_inv_m_b_norm (uc : Fin 6 → ℝ) : Fin 9 → ℝ :=
  let c_a : ℝ := Real.cos (uc 3)
  let c_b : ℝ := Real.cos (uc 4)
  let c_g : ℝ := Real.cos (uc 5)
  let s_a : ℝ := Real.sin (uc 3)
  let s_b : ℝ := Real.sin (uc 4)
  let s_g : ℝ := Real.sin (uc 5)
  let phi : ℝ := calc_phi uc
  let o_11 : ℝ := s_a / (uc 0 * phi)
  let o_12 : ℝ := (c_a * c_b - c_g) / (uc 0 * phi * s_b)
  let o_13 : ℝ := (c_a * c_g - c_b) / (uc 0 * phi * s_g)
  let o_21 : ℝ := (c_a * c_b - c_g) / (uc 1 * phi * s_a)
  let o_22 : ℝ := s_b / (uc 1 * phi)
  let o_23 : ℝ := (c_b * c_g - c_a) / (uc 1 * phi * s_g)
  let o_31 : ℝ := (c_a * c_g - c_b) / (uc 2 * phi * s_a)
  let o_32 : ℝ := (c_b * c_g - c_a) / (uc 2 * phi * s_b)
  let o_33 : ℝ := s_g / (uc 2 * phi)
  let inv_m_b_norm : Fin 9 → ℝ := ![o_11, o_12, o_13, o_21, o_22, o_23, o_31, o_32, o_33]
  inv_m_b_norm

/-- `calc_m_inv_m_b_norm_by_unit_cell_parameters`, output `unit_cell_parameters`, A_functions_base/unit_cell.py:934-974. -/
noncomputable def d_calc_m_inv_m_b_norm (uc : Fin 6 → ℝ) : Fin 9 → Fin 6 → ℝ :=
  let der_11 : Fin 6 → ℝ := ![0, 0, 0, 0, 0, 0]
  let der_12 : Fin 6 → ℝ := ![0, 0, 0, 0, 0, 0]
  let der_13 : Fin 6 → ℝ := ![0, 0, 0, 0, 0, 0]
  let der_21 : Fin 6 → ℝ := ![0, 0, 0, 0, 0, 0]
  let der_22 : Fin 6 → ℝ := ![0, 0, 0, 0, 0, 0]
  let der_23 : Fin 6 → ℝ := ![0, 0, 0, 0, 0, 0]
  let der_31 : Fin 6 → ℝ := ![0, 0, 0, 0, 0, 0]
  let der_32 : Fin 6 → ℝ := ![0, 0, 0, 0, 0, 0]
  let der_33 : Fin 6 → ℝ := ![0, 0, 0, 0, 0, 0]
  ![![der_11 0, der_11 1, der_11 2, der_11 3, der_11 4, der_11 5],
   ![der_12 0, der_12 1, der_12 2, der_12 3, der_12 4, der_12 5],
   ![der_13 0, der_13 1, der_13 2, der_13 3, der_13 4, der_13 5],
   ![der_21 0, der_21 1, der_21 2, der_21 3, der_21 4, der_21 5],
   ![der_22 0, der_22 1, der_22 2, der_22 3, der_22 4, der_22 5],
   ![der_23 0, der_23 1, der_23 2, der_23 3, der_23 4, der_23 5],
   ![der_31 0, der_31 1, der_31 2, der_31 3, der_31 4, der_31 5],
   ![der_32 0, der_32 1, der_32 2, der_32 3, der_32 4, der_32 5],
   ![der_33 0, der_33 1, der_33 2, der_33 3, der_33 4, der_33 5]]

/-- `calc_m_inv_b_norm_m_by_unit_cell_parameters`, A_functions_base/unit_cell.py:976-1015. -/
noncomputable def calc_m_inv_b_norm_m (uc : Fin 6 → ℝ) : Fin 9 → ℝ :=
  let c_a : ℝ := Real.cos (uc 3)
  let c_b : ℝ := Real.cos (uc 4)
  let c_g : ℝ := Real.cos (uc 5)
  let s_a : ℝ := Real.sin (uc 3)
  let s_b : ℝ := Real.sin (uc 4)
  let s_g : ℝ := Real.sin (uc 5)
  let phi : ℝ := calc_phi uc
  let o_11 : ℝ := uc 0 * s_a / phi
  let o_12 : ℝ := uc 1 * s_a * c_g / phi
  let o_13 : ℝ := uc 2 * s_a * c_b / phi
  let o_21 : ℝ := uc 0 * s_b * c_g / phi
  let o_22 : ℝ := uc 1 * s_b / phi
  let o_23 : ℝ := uc 2 * s_b * c_a / phi
  let o_31 : ℝ := uc 0 * s_g * c_b / phi
  let o_32 : ℝ := uc 1 * s_g * c_a / phi
  let o_33 : ℝ := uc 2 * s_g / phi
  let inv_b_norm_m : Fin 9 → ℝ := ![o_11, o_12, o_13, o_21, o_22, o_23, o_31, o_32, o_33]
  inv_b_norm_m

/-- `calc_m_inv_b_norm_m_by_unit_cell_parameters`, output `unit_cell_parameters`, A_functions_base/unit_cell.py:976-1015. -/
noncomputable def d_calc_m_inv_b_norm_m (uc : Fin 6 → ℝ) : Fin 9 → Fin 6 → ℝ :=
  let der_11 : Fin 6 → ℝ := ![0, 0, 0, 0, 0, 0]
  let der_12 : Fin 6 → ℝ := ![0, 0, 0, 0, 0, 0]
  let der_13 : Fin 6 → ℝ := ![0, 0, 0, 0, 0, 0]
  let der_21 : Fin 6 → ℝ := ![0, 0, 0, 0, 0, 0]
  let der_22 : Fin 6 → ℝ := ![0, 0, 0, 0, 0, 0]
  let der_23 : Fin 6 → ℝ := ![0, 0, 0, 0, 0, 0]
  let der_31 : Fin 6 → ℝ := ![0, 0, 0, 0, 0, 0]
  let der_32 : Fin 6 → ℝ := ![0, 0, 0, 0, 0, 0]
  let der_33 : Fin 6 → ℝ := ![0, 0, 0, 0, 0, 0]
  ![![der_11 0, der_11 1, der_11 2, der_11 3, der_11 4, der_11 5],
   ![der_12 0, der_12 1, der_12 2, der_12 3, der_12 4, der_12 5],
   ![der_13 0, der_13 1, der_13 2, der_13 3, der_13 4, der_13 5],
   ![der_21 0, der_21 1, der_21 2, der_21 3, der_21 4, der_21 5],
   ![der_22 0, der_22 1, der_22 2, der_22 3, der_22 4, der_22 5],
   ![der_23 0, der_23 1, der_23 2, der_23 3, der_23 4, der_23 5],
   ![der_31 0, der_31 1, der_31 2, der_31 3, der_31 4, der_31 5],
   ![der_32 0, der_32 1, der_32 2, der_32 3, der_32 4, der_32 5],
   ![der_33 0, der_33 1, der_33 2, der_33 3, der_33 4, der_33 5]]

end Cryspy.Cell
