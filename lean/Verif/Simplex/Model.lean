import Mathlib.LinearAlgebra.Matrix.NonsingularInverse
import Mathlib.Analysis.Real.Sqrt

/-!
# Model of the errors estimated from the final simplex of Nelder and Mead

`error_estimation_simplex`, A_functions_base/function_1_error_simplex.py:11-113, and the standard uncertainties made of it in
procedure_mempy/mempy_by_dictionary.py:589-606.  Arithmetic is exact.  A simplex is `n + 1` points in `n` dimensions; the
array `vertex_chi_sq_h` is not used by the code.
-/

namespace Cryspy.Simplex

open Matrix

variable {n : ℕ}

/-- a point of the space of parameters -/
abbrev Pt (n : ℕ) := Fin n → ℝ

/-- `max_radius`, function_1_error_simplex.py:34-39 -/
noncomputable def radius (v : Fin (n + 1) → Pt n) (j : Fin n) : ℝ :=
  (List.finRange n).foldl (fun m i => max m |v i.succ j - v 0 j|) 0

/-- `vertex_vector[i, :]`, function_1_error_simplex.py:43-46: the first vertex moved along the axis `i` -/
noncomputable def axis (v : Fin (n + 1) → Pt n) (i : Fin n) : Pt n := v 0 + Pi.single i (radius v i)

/-- `0.5*(theta_a+theta_b)` -/
noncomputable def mid (a b : Pt n) : Pt n := fun j => 0.5 * (a j + b j)

/-- `v_a`, function_1_error_simplex.py:66-83; the chi squared of the vertices is that of the vertices of the argument
(lines 48-53). -/
noncomputable def vecA (f : Pt n → ℝ) (v : Fin (n + 1) → Pt n) (i : Fin n) : ℝ :=
  4 * f (mid (v 0) (axis v i)) - f (v i.succ) - 3 * f (v 0)

/-- `m_b`, function_1_error_simplex.py:84-95 -/
noncomputable def matB (f : Pt n → ℝ) (v : Fin (n + 1) → Pt n) : Matrix (Fin n) (Fin n) ℝ := fun i j =>
  if i = j then 2 * (f (v i.succ) + f (v 0) - 2 * f (mid (v 0) (axis v i)))
  else 2 * (f (mid (axis v (min i j)) (axis v (max i j))) + f (v 0) - f (mid (v 0) (axis v (min i j))) - f (mid (v 0) (axis v (max i j))))

/-- `m_q`, function_1_error_simplex.py:75 -/
noncomputable def matQ (v : Fin (n + 1) → Pt n) : Matrix (Fin n) (Fin n) ℝ := fun i => axis v i - v 0

/-- `m_error`, function_1_error_simplex.py:98-103 (`numpy.linalg.inv` raises for a singular matrix, here the inverse is zero) -/
noncomputable def matError (f : Pt n → ℝ) (v : Fin (n + 1) → Pt n) : Matrix (Fin n) (Fin n) ℝ :=
  (2 * f (v 0)) • (matQ v * (matB f v)⁻¹ * (matQ v)ᵀ)

/-- `numpy.abs(v_qiba)`, function_1_error_simplex.py:99-100, 113 -/
noncomputable def dist (f : Pt n → ℝ) (v : Fin (n + 1) → Pt n) (i : Fin n) : ℝ := |((matQ v * (matB f v)⁻¹) *ᵥ vecA f v) i|

/-- the standard uncertainty of a parameter with `num` observations, mempy_by_dictionary.py:594-603 -/
noncomputable def sigma (f : Pt n → ℝ) (v : Fin (n + 1) → Pt n) (num : ℕ) (i : Fin n) : ℝ :=
  max (Real.sqrt (|matError f v i i| * 1 / num)) (dist f v i)

end Cryspy.Simplex
