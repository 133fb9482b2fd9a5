import Mathlib.Data.Real.Basic
import Mathlib.Data.Fin.VecNotation

/-!
# What the crystal systems demand of a cell

International Tables A, table 2.1.2.1, for the conventional axes (`monoclinic k`: unique axis `k`).
-/

namespace Cryspy.CellConstr

inductive System
  | triclinic
  | monoclinic (axis : Fin 3)
  | orthorhombic
  | tetragonal
  | hexagonal
  | rhombohedral
  | cubic

/-- the conditions on `a b c α β γ` (degrees) -/
def System.Metric (s : System) (v : Fin 6 → ℝ) : Prop :=
  match s with
  | triclinic => True
  | monoclinic k => ∀ i : Fin 3, i ≠ k → v (i.natAdd 3) = 90
  | orthorhombic => v 3 = 90 ∧ v 4 = 90 ∧ v 5 = 90
  | tetragonal => v 0 = v 1 ∧ v 3 = 90 ∧ v 4 = 90 ∧ v 5 = 90
  | hexagonal => v 0 = v 1 ∧ v 3 = 90 ∧ v 4 = 90 ∧ v 5 = 120
  | rhombohedral => v 0 = v 1 ∧ v 0 = v 2 ∧ v 3 = v 4 ∧ v 3 = v 5
  | cubic => v 0 = v 1 ∧ v 0 = v 2 ∧ v 3 = 90 ∧ v 4 = 90 ∧ v 5 = 90

/-- the parameters that the conditions determine from the others -/
def System.dependent (s : System) : List (Fin 6) :=
  match s with
  | triclinic => []
  | monoclinic k => ([0, 1, 2] : List (Fin 3)).filter (· ≠ k) |>.map (Fin.natAdd 3)
  | orthorhombic => [3, 4, 5]
  | tetragonal => [1, 3, 4, 5]
  | hexagonal => [1, 3, 4, 5]
  | rhombohedral => [1, 2, 4, 5]
  | cubic => [1, 2, 3, 4, 5]

/-- the error of a determined parameter: that of the parameter it equals, zero for a fixed angle -/
def System.errorOf (s : System) (sig : Fin 6 → ℝ) (i : Fin 6) : ℝ :=
  match s with
  | rhombohedral => if i = 1 ∨ i = 2 then sig 0 else sig 3
  | _ => if i = 1 ∨ i = 2 then sig 0 else 0

/-- Bravais types of the library, the settings they are used with, and the system.  A monoclinic setting code names the unique axis by the
letter in it; `h` and `r` are hexagonal and rhombohedral axes. -/
inductive Describes : List Char → List Char → System → Prop
  | aP (code) : Describes ['a', 'P'] code .triclinic
  | m (x : Char) (code : List Char) (k : Fin 3) (h : [['a', 'b', 'c'][k]] = code.filter Char.isAlpha) :
      Describes ['m', x] code (.monoclinic k)
  | o (x code) : Describes ['o', x] code .orthorhombic
  | t (x code) : Describes ['t', x] code .tetragonal
  | hP : Describes ['h', 'P'] ['h'] .hexagonal
  | hPr : Describes ['h', 'P'] ['r'] .rhombohedral
  | hR : Describes ['h', 'R'] ['h'] .hexagonal
  | hRr : Describes ['h', 'R'] ['r'] .rhombohedral
  | c (x code) : Describes ['c', x] code .cubic

end Cryspy.CellConstr
