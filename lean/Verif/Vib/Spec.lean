import Verif.Mat.Spec
import Verif.Constr.Spec
import Verif.Vib.Model

/-!
# What the symmetry of a site demands of a tensor, and the possible site symmetries

A tensor belongs to a site when each rotation `R` of the site leaves it as it is: `R U Rᵀ = U`.  In the conventional settings the rotations of
a crystal preserve either a lattice with `a = b = c` and right angles (all systems but hexagonal and trigonal; trigonal on rhombohedral axes)
or all hexagonal lattices.
-/

namespace Cryspy.Vib

open Mat Matrix

/-- the rotation leaves the tensor as it is -/
def Leaves (o : Fin 9 → ℤ) (u : Fin 6 → ℝ) : Prop :=
  (toM o).map (Int.cast : ℤ → ℝ) * toQ u * ((toM o).map (Int.cast : ℤ → ℝ))ᵀ = toQ u

/-- the rotations of a site, each once, form a group -/
def IsSite (G : List (Fin 9 → ℤ)) : Prop := Constr.IsGroupList (G.map toM)

/-- the rotation preserves the lattice with `a = b = c` and right angles -/
def Cubic (o : Fin 9 → ℤ) : Prop := (toM o)ᵀ * toM o = 1

/-- the rotation preserves every hexagonal lattice (`a = b`, γ = 120°, `c` arbitrary) -/
def Hexagonal (o : Fin 9 → ℤ) : Prop :=
  (toM o)ᵀ * !![2, -1, 0; -1, 2, 0; 0, 0, 0] * toM o = !![2, -1, 0; -1, 2, 0; 0, 0, 0] ∧
  (toM o)ᵀ * !![0, 0, 0; 0, 0, 0; 0, 0, 1] * toM o = !![0, 0, 0; 0, 0, 0; 0, 0, 1]

/-- the constraints applied to a site are right: the result belongs to the site, and a tensor that belongs to the site is kept -/
def Right (G : List (Fin 9 → ℤ)) : Prop :=
  (∀ u, ∀ o ∈ G, Leaves o (siteConstrained G u)) ∧ ∀ u, (∀ o ∈ G, Leaves o u) → siteConstrained G u = u

/-- the product of two rotations -/
def mulM (a b : Fin 9 → ℤ) : Fin 9 → ℤ :=
  ![a 0 * b 0 + a 1 * b 3 + a 2 * b 6, a 0 * b 1 + a 1 * b 4 + a 2 * b 7, a 0 * b 2 + a 1 * b 5 + a 2 * b 8,
    a 3 * b 0 + a 4 * b 3 + a 5 * b 6, a 3 * b 1 + a 4 * b 4 + a 5 * b 7, a 3 * b 2 + a 4 * b 5 + a 5 * b 8,
    a 6 * b 0 + a 7 * b 3 + a 8 * b 6, a 6 * b 1 + a 7 * b 4 + a 8 * b 7, a 6 * b 2 + a 7 * b 5 + a 8 * b 8]

/-- the rotations generated by some -/
inductive Gen (gens : List (Fin 9 → ℤ)) : (Fin 9 → ℤ) → Prop
  | one : Gen gens ![1, 0, 0, 0, 1, 0, 0, 0, 1]
  | mul {g o : Fin 9 → ℤ} : g ∈ gens → Gen gens o → Gen gens (mulM g o)

/-- a kind of site up to the inversion: the axes of its rotations, generators, and whether the library constrains it rightly -/
structure SiteKind where
  axes : String
  gens : List (Fin 9 → ℤ)
  right : Bool

/-- up to the sign, the rotations of the site are those generated -/
def SiteKind.Is (k : SiteKind) (G : List (Fin 9 → ℤ)) : Prop :=
  ∀ o, (o ∈ G ∨ -o ∈ G) ↔ (Gen k.gens o ∨ Gen k.gens (-o))

/-- the thirty kinds in the cubic frame -/
def cubicSites : List SiteKind :=
  [⟨"1", [], true⟩,
   ⟨"2[0,0,1]", [![-1, 0, 0, 0, -1, 0, 0, 0, 1]], true⟩,
   ⟨"2[0,1,-1]", [![-1, 0, 0, 0, 0, -1, 0, -1, 0]], true⟩,
   ⟨"2[0,1,1]", [![-1, 0, 0, 0, 0, 1, 0, 1, 0]], true⟩,
   ⟨"2[0,1,0]", [![-1, 0, 0, 0, 1, 0, 0, 0, -1]], true⟩,
   ⟨"2[1,-1,0]", [![0, -1, 0, -1, 0, 0, 0, 0, -1]], true⟩,
   ⟨"2[1,0,-1]", [![0, 0, -1, 0, -1, 0, -1, 0, 0]], false⟩,
   ⟨"2[1,0,1]", [![0, 0, 1, 0, -1, 0, 1, 0, 0]], false⟩,
   ⟨"2[1,1,0]", [![0, 1, 0, 1, 0, 0, 0, 0, -1]], false⟩,
   ⟨"2[1,0,0]", [![1, 0, 0, 0, -1, 0, 0, 0, -1]], true⟩,
   ⟨"3[1,-1,1]", [![0, -1, 0, 0, 0, -1, 1, 0, 0]], false⟩,
   ⟨"3[1,-1,-1]", [![0, -1, 0, 0, 0, 1, -1, 0, 0]], false⟩,
   ⟨"3[1,1,-1]", [![0, 0, -1, 1, 0, 0, 0, -1, 0]], false⟩,
   ⟨"3[1,1,1]", [![0, 0, 1, 1, 0, 0, 0, 1, 0]], true⟩,
   ⟨"2[1,0,0] 2[0,1,0] 2[0,0,1]", [![-1, 0, 0, 0, -1, 0, 0, 0, 1], ![-1, 0, 0, 0, 1, 0, 0, 0, -1]], true⟩,
   ⟨"2[1,1,0] 2[1,-1,0] 2[0,0,1]", [![-1, 0, 0, 0, -1, 0, 0, 0, 1], ![0, -1, 0, -1, 0, 0, 0, 0, -1]], true⟩,
   ⟨"4[0,0,1]", [![0, -1, 0, 1, 0, 0, 0, 0, 1]], true⟩,
   ⟨"2[1,0,0] 2[0,1,1] 2[0,1,-1]", [![-1, 0, 0, 0, 0, -1, 0, -1, 0], ![-1, 0, 0, 0, 0, 1, 0, 1, 0]], true⟩,
   ⟨"2[1,0,1] 2[1,0,-1] 2[0,1,0]", [![-1, 0, 0, 0, 1, 0, 0, 0, -1], ![0, 0, -1, 0, -1, 0, -1, 0, 0]], false⟩,
   ⟨"4[0,1,0]", [![0, 0, -1, 0, 1, 0, 1, 0, 0]], false⟩,
   ⟨"4[1,0,0]", [![1, 0, 0, 0, 0, -1, 0, 1, 0]], true⟩,
   ⟨"3[1,1,1] 2[1,0,-1] 2[1,-1,0] 2[0,1,-1]", [![-1, 0, 0, 0, 0, -1, 0, -1, 0], ![0, -1, 0, -1, 0, 0, 0, 0, -1]], true⟩,
   ⟨"3[1,-1,-1] 2[1,1,0] 2[1,0,1] 2[0,1,-1]", [![-1, 0, 0, 0, 0, -1, 0, -1, 0], ![0, -1, 0, 0, 0, 1, -1, 0, 0]], false⟩,
   ⟨"3[1,1,-1] 2[1,0,1] 2[1,-1,0] 2[0,1,1]", [![-1, 0, 0, 0, 0, 1, 0, 1, 0], ![0, -1, 0, -1, 0, 0, 0, 0, -1]], false⟩,
   ⟨"3[1,-1,1] 2[1,1,0] 2[1,0,-1] 2[0,1,1]", [![-1, 0, 0, 0, 0, 1, 0, 1, 0], ![0, -1, 0, 0, 0, -1, 1, 0, 0]], false⟩,
   ⟨"4[1,0,0] 2[0,1,1] 2[0,1,0] 2[0,1,-1] 2[0,0,1]", [![-1, 0, 0, 0, -1, 0, 0, 0, 1], ![-1, 0, 0, 0, 0, -1, 0, -1, 0]], true⟩,
   ⟨"4[0,0,1] 2[1,1,0] 2[1,0,0] 2[1,-1,0] 2[0,1,0]", [![-1, 0, 0, 0, 1, 0, 0, 0, -1], ![0, -1, 0, -1, 0, 0, 0, 0, -1]], true⟩,
   ⟨"4[0,1,0] 2[1,0,1] 2[1,0,0] 2[1,0,-1] 2[0,0,1]", [![-1, 0, 0, 0, -1, 0, 0, 0, 1], ![0, 0, -1, 0, -1, 0, -1, 0, 0]], false⟩,
   ⟨"3[1,1,1] 3[1,1,-1] 3[1,-1,1] 3[1,-1,-1] 2[1,0,0] 2[0,1,0] 2[0,0,1]", [![-1, 0, 0, 0, -1, 0, 0, 0, 1], ![0, -1, 0, 0, 0, -1, 1, 0, 0]], true⟩,
   ⟨"4[1,0,0] 4[0,1,0] 4[0,0,1] 3[1,1,1] 3[1,1,-1] 3[1,-1,1] 3[1,-1,-1] 2[1,1,0] 2[1,0,1] 2[1,0,-1] 2[1,-1,0] 2[0,1,1] 2[0,1,-1]", [![-1, 0, 0, 0, 0, -1, 0, -1, 0], ![0, -1, 0, 0, 0, -1, 1, 0, 0]], true⟩]

/-- the sixteen kinds in the hexagonal frame -/
def hexSites : List SiteKind :=
  [⟨"1", [], true⟩,
   ⟨"2[0,1,0]", [![-1, 0, 0, -1, 1, 0, 0, 0, -1]], false⟩,
   ⟨"2[0,0,1]", [![-1, 0, 0, 0, -1, 0, 0, 0, 1]], true⟩,
   ⟨"2[1,2,0]", [![-1, 1, 0, 0, 1, 0, 0, 0, -1]], true⟩,
   ⟨"2[1,-1,0]", [![0, -1, 0, -1, 0, 0, 0, 0, -1]], true⟩,
   ⟨"2[1,1,0]", [![0, 1, 0, 1, 0, 0, 0, 0, -1]], false⟩,
   ⟨"2[1,0,0]", [![1, -1, 0, 0, -1, 0, 0, 0, -1]], true⟩,
   ⟨"2[2,1,0]", [![1, 0, 0, 1, -1, 0, 0, 0, -1]], false⟩,
   ⟨"3[0,0,1]", [![-1, 1, 0, -1, 0, 0, 0, 0, 1]], true⟩,
   ⟨"2[2,1,0] 2[0,1,0] 2[0,0,1]", [![-1, 0, 0, -1, 1, 0, 0, 0, -1], ![-1, 0, 0, 0, -1, 0, 0, 0, 1]], false⟩,
   ⟨"2[1,2,0] 2[1,0,0] 2[0,0,1]", [![-1, 0, 0, 0, -1, 0, 0, 0, 1], ![-1, 1, 0, 0, 1, 0, 0, 0, -1]], true⟩,
   ⟨"2[1,1,0] 2[1,-1,0] 2[0,0,1]", [![-1, 0, 0, 0, -1, 0, 0, 0, 1], ![0, -1, 0, -1, 0, 0, 0, 0, -1]], true⟩,
   ⟨"3[0,0,1] 2[1,1,0] 2[1,0,0] 2[0,1,0]", [![-1, 0, 0, -1, 1, 0, 0, 0, -1], ![-1, 1, 0, -1, 0, 0, 0, 0, 1]], true⟩,
   ⟨"6[0,0,1]", [![0, 1, 0, -1, 1, 0, 0, 0, 1]], true⟩,
   ⟨"3[0,0,1] 2[2,1,0] 2[1,2,0] 2[1,-1,0]", [![-1, 1, 0, -1, 0, 0, 0, 0, 1], ![-1, 1, 0, 0, 1, 0, 0, 0, -1]], true⟩,
   ⟨"6[0,0,1] 2[2,1,0] 2[1,2,0] 2[1,1,0] 2[1,0,0] 2[1,-1,0] 2[0,1,0]", [![-1, 0, 0, -1, 1, 0, 0, 0, -1], ![-1, 1, 0, 0, 1, 0, 0, 0, -1]], true⟩]

end Cryspy.Vib
