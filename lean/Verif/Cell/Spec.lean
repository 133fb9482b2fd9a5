import Verif.Mat.Spec
import Mathlib.Analysis.SpecialFunctions.Trigonometric.Inverse

/-!
# What a unit cell is

Six numbers `a b c α β γ` (angles in radians).  The metric of the lattice is the table of scalar products of the three basis
vectors; a cell is non-degenerate when its edges are positive and the vectors span the space (positive determinant).
-/

namespace Cryspy.Cell

open Real

/-- scalar products of the basis vectors with lengths `a b c` and angles `α = ∠(b,c)`, `β = ∠(a,c)`, `γ = ∠(a,b)` -/
noncomputable def metric (uc : Fin 6 → ℝ) : Matrix (Fin 3) (Fin 3) ℝ :=
  !![uc 0 * uc 0, uc 0 * uc 1 * cos (uc 5), uc 0 * uc 2 * cos (uc 4);
     uc 1 * uc 0 * cos (uc 5), uc 1 * uc 1, uc 1 * uc 2 * cos (uc 3);
     uc 2 * uc 0 * cos (uc 4), uc 2 * uc 1 * cos (uc 3), uc 2 * uc 2]

/-- positive edges and linearly independent basis vectors -/
structure NonDegenerate (uc : Fin 6 → ℝ) : Prop where
  a_pos : 0 < uc 0
  b_pos : 0 < uc 1
  c_pos : 0 < uc 2
  det_pos : 0 < (metric uc).det

/-- angles between 0 and π, as crystallographic cells have -/
def ProperAngles (uc : Fin 6 → ℝ) : Prop :=
  (0 < uc 3 ∧ uc 3 < π) ∧ (0 < uc 4 ∧ uc 4 < π) ∧ (0 < uc 5 ∧ uc 5 < π)

/-- the three edges on the diagonal -/
def edges (uc : Fin 6 → ℝ) : Matrix (Fin 3) (Fin 3) ℝ := Matrix.diagonal ![uc 0, uc 1, uc 2]

end Cryspy.Cell
