import Verif.Cell.Spec
import Verif.Symm.Model

/-!
# Positions of atoms in a crystal and distances to them

A crystal has a cell, a list of symmetry operations `x ↦ R x + b` and the translations by vectors with integer components.
-/

namespace Cryspy.Basin

open Symm Matrix

/-- square of the length of the vector with fractional components `v` -/
noncomputable def lenSq (uc : Fin 6 → ℝ) (v : Fin 3 → ℝ) : ℝ := v ⬝ᵥ (Cell.metric uc *ᵥ v)

/-- the operation applied to a position -/
noncomputable def act (e : Elem) (a : Fin 3 → ℝ) : Fin 3 → ℝ := fun k => (∑ l, (e.r k l : ℝ) * a l) + (e.bn k : ℝ) / e.bd

/-- a lattice translation -/
def lat (n : Fin 3 → ℤ) : Fin 3 → ℝ := fun k => (n k : ℝ)

/-- `q` is one of the positions that symmetry and lattice translations give to the atom listed at `a` -/
def IsImage (G : List Elem) (a q : Fin 3 → ℝ) : Prop := ∃ e ∈ G, ∃ n : Fin 3 → ℤ, q = act e a + lat n

/-- all three angles of the cell are right -/
def RightAngled (uc : Fin 6 → ℝ) : Prop := uc 3 = Real.pi / 2 ∧ uc 4 = Real.pi / 2 ∧ uc 5 = Real.pi / 2

/-- the operation keeps distances -/
def Isometry (uc : Fin 6 → ℝ) (e : Elem) : Prop := ∀ p q, lenSq uc (act e p - act e q) = lenSq uc (p - q)

end Cryspy.Basin
