import Verif.Sft.Props
import Verif.Ord.Model

/-!
# Magnetic moments and magnetic operations

A magnetic operation is a symmetry operation with a sign: `-1` for operations combined with time reversal.  A moment is an axial vector: an
operation with rotation `R` and sign `θ` carries the moment `M` to `θ det R · R M`.
-/

namespace Cryspy.Ord

open Symm Sf Matrix

/-- Lengths of the axes. -/
def edge (uc : Fin 6 → ℝ) : Fin 3 → ℝ := ![uc 0, uc 1, uc 2]

/-- The moment with components `m` along the axes of the crystal: the sum of the axes, divided by their lengths, times `m` (the columns of
`calc_m_m` are the axes, C20). -/
noncomputable def cartMoment (uc : Fin 6 → ℝ) (m : Fin 3 → ℝ) : Fin 3 → ℝ :=
  Mat.toM (Cell.calc_m_m uc) *ᵥ fun i => m i / edge uc i

/-- The moment carried by a magnetic operation. -/
noncomputable def turned (uc : Fin 6 → ℝ) (g : Elem × ℤ) (M : Fin 3 → ℝ) : Fin 3 → ℝ :=
  ((g.2 : ℝ) * (rotR g.1.r).det) • (Sft.rotC uc g.1.r *ᵥ M)

/-- The rotation mixes axes of equal lengths only. -/
def KeepsLengths (uc : Fin 6 → ℝ) (r : M3) : Prop := ∀ i j, r i j ≠ 0 → edge uc i = edge uc j

/-- A list of magnetic operations is a group modulo lattice translations. -/
structure IsMGroup (G : List (Elem × ℤ)) : Prop where
  one : ∃ e ∈ G, (∀ x, Lat (act e.1 x) x) ∧ e.2 = 1
  mul : ∀ a ∈ G, ∀ b ∈ G, ∃ c ∈ G, IsProd a.1 b.1 c.1 ∧ c.2 = a.2 * b.2
  inv : ∀ a ∈ G, ∃ b ∈ G, (∀ x, Lat (act b.1 (act a.1 x)) x) ∧ b.2 * a.2 = 1

/-- The operations are isometries of the cell. -/
def Isometries (G : List (Elem × ℤ)) (uc : Fin 6 → ℝ) : Prop :=
  ∀ g ∈ G, (rotR g.1.r)ᵀ * Cell.metric uc * rotR g.1.r = Cell.metric uc

end Cryspy.Ord
