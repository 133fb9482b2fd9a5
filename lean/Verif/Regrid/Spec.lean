import Mathlib.Analysis.SpecialFunctions.Trigonometric.Basic
import Mathlib.LinearAlgebra.Matrix.Notation

/-!
# Directions and interpolation

The first axis is the incoming beam, the third is vertical.
-/

namespace Cryspy.Regrid

open Real

/-- direction given by the angle in the plane and the angle above it -/
noncomputable def dirDet (gamma nu : ℝ) : Fin 3 → ℝ := ![cos nu * cos gamma, cos nu * sin gamma, sin nu]

/-- direction given by the scattering angle and the angle on the ring -/
noncomputable def dirRing (tth phi : ℝ) : Fin 3 → ℝ := ![cos tth, sin tth * cos phi, sin tth * sin phi]

/-- an equidistant list of `n` numbers -/
def Equidistant (xs : List ℝ) (x0 s : ℝ) (n : ℕ) : Prop := xs = (List.range n).map (fun k : ℕ => x0 + k * s) ∧ s ≠ 0 ∧ 2 ≤ n

/-- a table with `n` columns and `m` rows: `F i j` is in column `i`, row `j` -/
def tableOf (n m : ℕ) (F : ℕ → ℕ → Option ℝ) : List (List (Option ℝ)) :=
  (List.range m).map fun j : ℕ => (List.range n).map fun i : ℕ => F i j

/-- the value between four corners, `(1-u)(1-v) a + u(1-v) b + (1-u)v c + u v d`; nothing when a corner is missing -/
def bilin (u v : ℝ) : Option ℝ → Option ℝ → Option ℝ → Option ℝ → Option ℝ
  | some a, some b, some c, some d => some ((1 - u) * (1 - v) * a + u * (1 - v) * b + (1 - u) * v * c + u * v * d)
  | _, _, _, _ => none

/-- the value of the table over the grid at the point `(x, y)`: from the four corners of the cell the point lies in (its left and lower sides
belong to it), nothing outside the grid -/
def IsValueAt (x0 sx : ℝ) (n : ℕ) (y0 sy : ℝ) (m : ℕ) (F : ℕ → ℕ → Option ℝ) (x y : ℝ) (r : Option ℝ) : Prop :=
  (∃ (i j : ℕ) (u v : ℝ), i + 1 < n ∧ j + 1 < m ∧ (0 ≤ u ∧ u < 1) ∧ (0 ≤ v ∧ v < 1) ∧ x = x0 + (i + u) * sx ∧ y = y0 + (j + v) * sy ∧
    r = bilin u v (F i j) (F (i + 1) j) (F i (j + 1)) (F (i + 1) (j + 1))) ∨
  ((¬ ∃ (i j : ℕ) (u v : ℝ), i + 1 < n ∧ j + 1 < m ∧ (0 ≤ u ∧ u < 1) ∧ (0 ≤ v ∧ v < 1) ∧ x = x0 + (i + u) * sx ∧ y = y0 + (j + v) * sy) ∧
    r = none)

end Cryspy.Regrid
