import Verif.Gen.MatrixOps
import Verif.Gen.UnitCell
import Mathlib.Algebra.Order.Floor.Ring
import Mathlib.Algebra.BigOperators.Fin

/-!
# Model of A_functions_base/symmetry_constraints.py

The array `symm_elems` (13 or 14 rows, one column per operation of the site) is a list of columns.  A 13-row array is the same
as one whose last row is 1 (lines 56-57).  Numbers are real.
-/

namespace Cryspy.Constr

open Cryspy.Mat Cryspy.Cell

/-- one column of `symm_elems`: rows 0-2 (numerators), 3 (denominator), 4-12 (rotation), 13 (`theta`) -/
structure Col where
  b : Fin 3 → ℝ
  d : ℝ
  r : Fin 9 → ℝ
  θ : ℝ

/-- `.sum(axis=1)/N` -/
noncomputable def mean (l : List ℝ) : ℝ := l.sum / l.length

/-- `sc_fract`, symmetry_constraints.py:7 -/
noncomputable def scFract (G : List Col) : Fin 9 → ℝ := fun i => mean (G.map fun e => e.r i)

/-- `sc_b`, symmetry_constraints.py:8-13: `b_s = b/(N d)`, `n_s = x - r_s x - b_s`, and `sc_b` the mean of `b_s + n_s` -/
noncomputable def scB (G : List Col) (x0 : Fin 3 → ℝ) : Fin 3 → ℝ := fun i =>
  let x : Fin 3 → ℝ := fun k => Int.fract (x0 k)
  let bs : Col → ℝ := fun e => e.b i / (G.length * e.d)
  let ns : Col → ℝ := fun e => x i - calc_m_v e.r x i - bs e
  mean (G.map fun e => bs e + ns e)

/-- one column of `r_r_t`, symmetry_constraints.py:29-36 -/
def rrt (r : Fin 9 → ℝ) : Fin 6 → Fin 6 → ℝ :=
  ![![r 0 ^ 2, r 1 ^ 2, r 2 ^ 2, 2 * r 0 * r 1, 2 * r 0 * r 2, 2 * r 1 * r 2],
    ![r 3 ^ 2, r 4 ^ 2, r 5 ^ 2, 2 * r 3 * r 4, 2 * r 3 * r 5, 2 * r 4 * r 5],
    ![r 6 ^ 2, r 7 ^ 2, r 8 ^ 2, 2 * r 6 * r 7, 2 * r 6 * r 8, 2 * r 7 * r 8],
    ![r 0 * r 3, r 1 * r 4, r 2 * r 5, r 0 * r 4 + r 1 * r 3, r 0 * r 5 + r 2 * r 3, r 1 * r 5 + r 2 * r 4],
    ![r 0 * r 6, r 1 * r 7, r 2 * r 8, r 0 * r 7 + r 1 * r 6, r 0 * r 8 + r 2 * r 6, r 1 * r 8 + r 2 * r 7],
    ![r 3 * r 6, r 4 * r 7, r 5 * r 8, r 3 * r 7 + r 4 * r 6, r 3 * r 8 + r 5 * r 6, r 4 * r 8 + r 5 * r 7]]

/-- `calc_sc_beta`, symmetry_constraints.py:23-39 -/
noncomputable def scBeta (G : List Col) : Fin 6 → Fin 6 → ℝ := fun i j => mean (G.map fun e => rrt e.r i j)

/-- `r_ccs`, symmetry_constraints.py:49 -/
noncomputable def rCcs (uc : Fin 6 → ℝ) (e : Col) : Fin 9 → ℝ := calc_m1_m2_inv_m1 (calc_m_m uc) e.r

/-- `calc_sc_chi`, symmetry_constraints.py:42-69: rows 0, 4, 8, 1, 2, 5 of the mean of `theta * mm` -/
noncomputable def scChi (G : List Col) (uc : Fin 6 → ℝ) : Fin 6 → Fin 6 → ℝ :=
  let mm : Fin 9 → Fin 6 → ℝ := fun i j => mean (G.map fun e => calc_mm_as_m_q_inv_m (rCcs uc e) i j * e.θ)
  ![mm 0, mm 4, mm 8, mm 1, mm 2, mm 5]

/-- `calc_sc_chi_full`, symmetry_constraints.py:72-90 -/
noncomputable def scChiFull (G : List Col) (uc : Fin 6 → ℝ) : Fin 9 → Fin 9 → ℝ :=
  fun i j => mean (G.map fun e => calc_mm_as_m1_m2_inv_m1 (rCcs uc e) i j * e.θ)

/-- how the callers use a constraint matrix, `(sc*numpy.expand_dims(v, axis=0)).sum(axis=1)`, structure_factor.py:294, 400 -/
def apply {n : ℕ} (sc : Fin n → Fin n → ℝ) (v : Fin n → ℝ) : Fin n → ℝ := fun i => ∑ j, sc i j * v j

/-- the constrained position, structure_factor.py:387-389: `calc_m_v(sc_fract, mod(y, 1)) + sc_b`, where `sc_fract` and `sc_b`
were computed for the position `x0` -/
noncomputable def constrainedFract (G : List Col) (x0 y : Fin 3 → ℝ) : Fin 3 → ℝ := fun i =>
  calc_m_v (scFract G) (fun k => Int.fract (y k)) i + scB G x0 i

end Cryspy.Constr
