import Verif.Gen.Powder
import Verif.Gen.UnitCell

/-!
# Model of A_functions_base/preferred_orientation.py: from indices, texture axis and cell

Completes the generated formulas of Verif/Gen/Powder.lean with the cosine between the texture axis and the reflection.
-/

namespace Cryspy.Powder

open Cryspy.Cell

/-- `(eq_axis_ccs[:, 0][:, na] * eq_hkl_ccs).sum(axis=0)`, A_functions_base/preferred_orientation.py:26-32 and 58-65. -/
noncomputable def cosAxis (hkl axis : Fin 3 → ℝ) (uc : Fin 6 → ℝ) : ℝ :=
  calc_eq_ccs axis uc 0 * calc_eq_ccs hkl uc 0 + calc_eq_ccs axis uc 1 * calc_eq_ccs hkl uc 1 +
    calc_eq_ccs axis uc 2 * calc_eq_ccs hkl uc 2

/-- `calc_preferred_orientation_pd`, A_functions_base/preferred_orientation.py:19-48, first result. -/
noncomputable def poPd (hkl : Fin 3 → ℝ) (g1 g2 : ℝ) (axis : Fin 3 → ℝ) (uc : Fin 6 → ℝ) : ℝ :=
  po_pd_cos (cosAxis hkl axis uc) g1 g2

/-- the entry `texture_g1` of its derivative table, lines 45-47. -/
noncomputable def dPoPdG1 (hkl : Fin 3 → ℝ) (g1 g2 : ℝ) (axis : Fin 3 → ℝ) (uc : Fin 6 → ℝ) : ℝ :=
  d_po_pd_g1_cos (cosAxis hkl axis uc) g1 g2

/-- the entry `texture_g2` of its derivative table, lines 43-44. -/
noncomputable def dPoPdG2 (hkl : Fin 3 → ℝ) (g1 g2 : ℝ) (axis : Fin 3 → ℝ) (uc : Fin 6 → ℝ) : ℝ :=
  d_po_pd_g2_cos (cosAxis hkl axis uc) g1 g2

/-- `calc_preferred_orientation_pd2d`, A_functions_base/preferred_orientation.py:51-88, first result. -/
noncomputable def poPd2d (alpha_det : ℝ) (hkl : Fin 3 → ℝ) (g1 g2 : ℝ) (axis : Fin 3 → ℝ) (uc : Fin 6 → ℝ) : ℝ :=
  po_pd2d_cos alpha_det (cosAxis hkl axis uc) g1 g2

/-- the entry `texture_g1` of its derivative table, lines 85-87. -/
noncomputable def dPoPd2dG1 (alpha_det : ℝ) (hkl : Fin 3 → ℝ) (g1 g2 : ℝ) (axis : Fin 3 → ℝ) (uc : Fin 6 → ℝ) : ℝ :=
  d_po_pd2d_g1_cos alpha_det (cosAxis hkl axis uc) g1 g2

/-- the entry `texture_g2` of its derivative table, lines 83-84. -/
noncomputable def dPoPd2dG2 (alpha_det : ℝ) (hkl : Fin 3 → ℝ) (g1 g2 : ℝ) (axis : Fin 3 → ℝ) (uc : Fin 6 → ℝ) : ℝ :=
  d_po_pd2d_g2_cos alpha_det (cosAxis hkl axis uc) g1 g2

end Cryspy.Powder
