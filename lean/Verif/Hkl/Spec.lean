import Verif.Hkl.Model

/-!
# What the list of reflections has to be
-/

namespace Cryspy.Hkl

open Symm Sf Real Matrix

/-- Some operation of the space group carries the reflection `h` to `v`. -/
def Equivalent (s : Sym) (h v : V3) : Prop := ∃ e ∈ s.full, v = rowMul h e.r

/-- All centring translations allow the reflection. -/
def Allowed (s : Sym) (h : V3) : Prop := ∀ t ∈ s.trans, ∃ n : ℤ, hdot h t.val = n

/-- `smin ≤ sin θ/λ ≤ smax`. -/
def InRange (uc : Fin 6 → ℝ) (smin smax : ℝ) (h : V3) : Prop := smin ≤ sthovl uc h ∧ sthovl uc h ≤ smax

/-- A space group with a cell that has its symmetry. -/
structure Good (s : Sym) (uc : Fin 6 → ℝ) : Prop where
  cell : Cell.NonDegenerate uc
  group : IsGroup s.full
  metric : ∀ e ∈ s.full, (rotR e.r)ᵀ * Cell.metric uc * rotR e.r = Cell.metric uc
  trans_ne : s.trans ≠ []
  trans_distinct : s.trans.Pairwise fun a b => ¬ Lat a.val b.val
  trans_add : ∀ a ∈ s.trans, ∀ b ∈ s.trans, ∃ c ∈ s.trans, Lat c.val (fun k => a.val k + b.val k)
  trans_rot : ∀ e ∈ s.full, ∀ t ∈ s.trans, ∃ t' ∈ s.trans, Lat t'.val (fun k => ∑ l, (e.r k l : ℚ) * t.val l)

end Cryspy.Hkl
