import Verif.Symm.Model
import Verif.CellConstr.Spec
import Mathlib.Analysis.SpecialFunctions.Trigonometric.Basic

/-!
# Crystal classes in their settings

By generators, International Tables A, chapter 3.2.  The generators are matrices acting on coordinates.
-/

namespace Cryspy.Bravais

open Cryspy.Symm Cryspy.CellConstr

/-- the matrix with the opposite signs -/
def neg (a : M3) : M3 := ![![-a 0 0, -a 0 1, -a 0 2], ![-a 1 0, -a 1 1, -a 1 2], ![-a 2 0, -a 2 1, -a 2 2]]

/-- rotations (angle and axis) of the generators, and the inversion -/
def inversion : M3 := ![![-1, 0, 0], ![0, -1, 0], ![0, 0, -1]]
/-- see `inversion` -/
def twoZ : M3 := ![![-1, 0, 0], ![0, -1, 0], ![0, 0, 1]]
/-- see `inversion` -/
def twoY : M3 := ![![-1, 0, 0], ![0, 1, 0], ![0, 0, -1]]
/-- see `inversion` -/
def twoX : M3 := ![![1, 0, 0], ![0, -1, 0], ![0, 0, -1]]
/-- see `inversion` -/
def fourZ : M3 := ![![0, -1, 0], ![1, 0, 0], ![0, 0, 1]]
/-- see `inversion` -/
def threeZ : M3 := ![![0, -1, 0], ![1, -1, 0], ![0, 0, 1]]
/-- see `inversion` -/
def sixZ : M3 := ![![1, -1, 0], ![1, 0, 0], ![0, 0, 1]]
/-- see `inversion` -/
def threeD : M3 := ![![0, 0, 1], ![1, 0, 0], ![0, 1, 0]]
/-- see `inversion` -/
def twoXY : M3 := ![![0, 1, 0], ![1, 0, 0], ![0, 0, -1]]
/-- see `inversion` -/
def twoXmY : M3 := ![![0, -1, 0], ![-1, 0, 0], ![0, 0, -1]]

/-- the group that the matrices generate (they are of finite order) -/
inductive Generated (gens : List M3) : M3 → Prop
  | one : Generated gens ![![1, 0, 0], ![0, 1, 0], ![0, 0, 1]]
  | mul (g r : M3) : g ∈ gens → Generated gens r → Generated gens (mmul g r)

/-- a crystal class in one of its settings: generators, system, and what the library says of it: the letter of the cell type and the code of the axes -/
structure Cls where
  gens : List M3
  system : System
  letter : Char
  code : List Char

/-- all classes in standard settings (monoclinic with unique axis `b`; trigonal on hexagonal axes), by their Hermann-Mauguin symbols -/
def classes : List (String × Cls) := [
  ("1", ⟨[], .triclinic, 'a', []⟩),
  ("-1", ⟨[inversion], .triclinic, 'a', []⟩),
  ("2", ⟨[twoY], .monoclinic 1, 'm', []⟩),
  ("m", ⟨[neg twoY], .monoclinic 1, 'm', []⟩),
  ("2/m", ⟨[twoY, inversion], .monoclinic 1, 'm', []⟩),
  ("222", ⟨[twoZ, twoY], .orthorhombic, 'o', []⟩),
  ("mm2", ⟨[twoZ, neg twoY], .orthorhombic, 'o', []⟩),
  ("m2m", ⟨[twoY, neg twoZ], .orthorhombic, 'o', []⟩),
  ("2mm", ⟨[twoX, neg twoZ], .orthorhombic, 'o', []⟩),
  ("mmm", ⟨[twoZ, twoY, inversion], .orthorhombic, 'o', []⟩),
  ("4", ⟨[fourZ], .tetragonal, 'o', []⟩),
  ("-4", ⟨[neg fourZ], .tetragonal, 'o', []⟩),
  ("4/m", ⟨[fourZ, inversion], .tetragonal, 'o', []⟩),
  ("422", ⟨[fourZ, twoY], .tetragonal, 't', []⟩),
  ("4mm", ⟨[fourZ, neg twoY], .tetragonal, 't', []⟩),
  ("-42m", ⟨[neg fourZ, twoY], .tetragonal, 't', []⟩),
  ("-4m2", ⟨[neg fourZ, neg twoY], .tetragonal, 't', []⟩),
  ("4/mmm", ⟨[fourZ, twoY, inversion], .tetragonal, 't', []⟩),
  ("3", ⟨[threeZ], .hexagonal, 'h', ['h']⟩),
  ("-3", ⟨[threeZ, inversion], .hexagonal, 'h', ['h']⟩),
  ("321", ⟨[threeZ, twoXY], .hexagonal, 'h', ['h']⟩),
  ("312", ⟨[threeZ, twoXmY], .hexagonal, 'h', ['h']⟩),
  ("3m1", ⟨[threeZ, neg twoXY], .hexagonal, 'h', ['h']⟩),
  ("31m", ⟨[threeZ, neg twoXmY], .hexagonal, 'h', ['h']⟩),
  ("-3m1", ⟨[threeZ, twoXY, inversion], .hexagonal, 'h', ['h']⟩),
  ("-31m", ⟨[threeZ, twoXmY, inversion], .hexagonal, 'h', ['h']⟩),
  ("6", ⟨[sixZ], .hexagonal, 'h', ['h']⟩),
  ("-6", ⟨[neg sixZ], .hexagonal, 'h', ['h']⟩),
  ("6/m", ⟨[sixZ, inversion], .hexagonal, 'h', ['h']⟩),
  ("622", ⟨[sixZ, twoXY], .hexagonal, 'h', ['h']⟩),
  ("6mm", ⟨[sixZ, neg twoXY], .hexagonal, 'h', ['h']⟩),
  ("-62m", ⟨[neg sixZ, twoXY], .hexagonal, 'h', ['h']⟩),
  ("-6m2", ⟨[neg sixZ, neg twoXY], .hexagonal, 'h', ['h']⟩),
  ("6/mmm", ⟨[sixZ, twoXY, inversion], .hexagonal, 'h', ['h']⟩),
  ("23", ⟨[twoZ, threeD], .cubic, 'c', []⟩),
  ("m-3", ⟨[twoZ, threeD, inversion], .cubic, 'c', []⟩),
  ("432", ⟨[fourZ, threeD], .cubic, 'c', []⟩),
  ("-43m", ⟨[neg fourZ, threeD], .cubic, 'c', []⟩),
  ("m-3m", ⟨[fourZ, threeD, inversion], .cubic, 'c', []⟩)]

/-- classes on rhombohedral axes with twofold axes or mirror planes -/
def rhombohedral : List (String × Cls) := [
  ("32r", ⟨[threeD, twoXmY], .rhombohedral, 'h', ['r']⟩),
  ("3mr", ⟨[threeD, neg twoXmY], .rhombohedral, 'h', ['r']⟩),
  ("-3mr", ⟨[threeD, twoXmY, inversion], .rhombohedral, 'h', ['r']⟩)]

/-- classes on rhombohedral axes without them -/
def rhombohedral3 : List (String × Cls) := [
  ("3r", ⟨[threeD], .rhombohedral, 'c', []⟩),
  ("-3r", ⟨[threeD, inversion], .rhombohedral, 'c', []⟩)]

/-- the scalar products of the cell vectors: lengths and angles in degrees -/
noncomputable def gram (v : Fin 6 → ℝ) : Fin 3 → Fin 3 → ℝ :=
  let cs (a : ℝ) : ℝ := Real.cos (a * (Real.pi / 180))
  ![![v 0 * v 0, v 0 * v 1 * cs (v 5), v 0 * v 2 * cs (v 4)], ![v 0 * v 1 * cs (v 5), v 1 * v 1, v 1 * v 2 * cs (v 3)],
    ![v 0 * v 2 * cs (v 4), v 1 * v 2 * cs (v 3), v 2 * v 2]]

/-- the scalar products of all vectors are kept by the rotation -/
def Kept (v : Fin 6 → ℝ) (r : M3) : Prop := ∀ i j, ∑ k, ∑ m, (r k i : ℝ) * gram v k m * (r m j : ℝ) = gram v i j

/-- lengths are positive, angles between 0 and 180 degrees -/
def IsCell (v : Fin 6 → ℝ) : Prop := (0 < v 0 ∧ 0 < v 1 ∧ 0 < v 2) ∧ (0 < v 3 ∧ v 3 < 180) ∧ (0 < v 4 ∧ v 4 < 180) ∧ (0 < v 5 ∧ v 5 < 180)

end Cryspy.Bravais
