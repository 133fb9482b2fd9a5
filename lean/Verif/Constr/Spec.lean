import Verif.Constr.Model
import Verif.Cell.Spec

/-! # Groups of site operations and what it means to be invariant -/

namespace Cryspy.Constr

open Cryspy.Mat Cryspy.Cell

/-- a list that enumerates a group once -/
structure IsGroupList {M : Type} [Monoid M] (G : List M) : Prop where
  nodup : G.Nodup
  one_mem : 1 ∈ G
  mul_mem : ∀ a ∈ G, ∀ b ∈ G, a * b ∈ G
  inv_mem : ∀ a ∈ G, ∃ b ∈ G, b * a = 1

/-- rotation and time-reversal sign of a column -/
def op (e : Col) : Matrix (Fin 3) (Fin 3) ℝ × ℝ := (toM e.r, e.θ)

/-- the columns enumerate a group of operations (rotation, sign) -/
def IsSiteGroup (G : List Col) : Prop := IsGroupList (G.map op)

/-- the operation as a map of positions -/
noncomputable def move (e : Col) (x : Fin 3 → ℝ) : Fin 3 → ℝ := fun k => (toM e.r).mulVec x k + e.b k / e.d

/-- equal up to lattice translations -/
def SameSite (x y : Fin 3 → ℝ) : Prop := ∀ k, ∃ z : ℤ, x k - y k = z

/-- the rotation in Cartesian axes, `M R M⁻¹` -/
noncomputable def cart (uc : Fin 6 → ℝ) (e : Col) : Matrix (Fin 3) (Fin 3) ℝ :=
  toM (calc_m_m uc) * toM e.r * (toM (calc_m_m uc))⁻¹

/-- the operation preserves lengths and angles of the cell -/
def PreservesMetric (uc : Fin 6 → ℝ) (e : Col) : Prop := (toM e.r).transpose * metric uc * toM e.r = metric uc

end Cryspy.Constr
