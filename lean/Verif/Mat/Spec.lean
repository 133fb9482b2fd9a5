import Mathlib.LinearAlgebra.Matrix.NonsingularInverse
import Mathlib.LinearAlgebra.CrossProduct
import Mathlib.Analysis.Calculus.Deriv.Basic

/-!
# What the flat arrays of A_functions_base/matrix_operations.py stand for

The library stores a 3x3 matrix as nine numbers `11 12 13 21 22 23 31 32 33` and a symmetric one as six numbers
`11 22 33 12 13 23`.  These two readings, and Mathlib's matrices, are the whole specification.
-/

namespace Cryspy.Mat

/-- nine numbers read as a matrix, row by row -/
def toM {K : Type} (m : Fin 9 → K) : Matrix (Fin 3) (Fin 3) K :=
  !![m 0, m 1, m 2; m 3, m 4, m 5; m 6, m 7, m 8]

/-- six numbers `11 22 33 12 13 23` read as a symmetric matrix -/
def toQ {K : Type} (q : Fin 6 → K) : Matrix (Fin 3) (Fin 3) K :=
  !![q 0, q 3, q 4; q 3, q 1, q 5; q 4, q 5, q 2]

/-- `d` is the table of partial derivatives at `x` of the map `f` of `n` numbers to a family of numbers -/
def IsJacobian {n : ℕ} {ι : Type} (f : (Fin n → ℝ) → ι → ℝ) (d : ι → Fin n → ℝ) (x : Fin n → ℝ) : Prop :=
  ∀ i j, HasDerivAt (fun t => f (Function.update x j t) i) (d i j) (x j)

end Cryspy.Mat
