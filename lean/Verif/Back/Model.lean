import Verif.Sect.Model
import Verif.Site.Model
import Verif.CellConstr.Model

/-!
# C83: what a calculation or a refinement writes to the crystal

`Crystal.take_parameters_from_dictionary`, E_data_classes/cl_1_crystal.py:989-1245: cell, positions, occupancies and their errors; displacement parameters
are C30.  `numpy.round(x, decimals=n)` is the nearest multiple of `10^-n`, numbers are real.
-/

namespace Cryspy.Back

open Real

/-- `numpy.round(x, decimals=6)` -/
noncomputable def round6 (x : ℝ) : ℝ := (Sect.rint (x * 10 ^ 6) : ℝ) / 10 ^ 6

/-- the cell (degrees) for the numbers `u` of the dictionary (radians), lines 1109-1119 -/
noncomputable def takeCell (type code : List Char) (u : Fin 6 → ℝ) : Fin 6 → ℝ :=
  let h := CellConstr.constrainDict type code u
  ![h 0, h 1, h 2, Sect.round5 (h 3 * 180 / π), Sect.round5 (h 4 * 180 / π), Sect.round5 (h 5 * 180 / π)]

/-- `get_unit_cell_parameters` and line 675 -/
noncomputable def getCell (type code : List Char) (v : Fin 6 → ℝ) : Fin 6 → ℝ :=
  CellConstr.constrainDict type code ![v 0, v 1, v 2, v 3 * π / 180, v 4 * π / 180, v 5 * π / 180]

/-- coordinates of an atom that stood at `x` when the dictionary was formed, for the numbers `y` of the dictionary, lines 1036-1046 -/
noncomputable def takePosition (fl : ℚ → ℚ) (G : List Symm.Elem) (x : Symm.Q3) (y : Fin 3 → ℝ) : Fin 3 → ℝ := fun k =>
  round6 (Int.fract (Site.usedPosition fl G x y k))

/-- lines 1048-1051 -/
noncomputable def takeOccupancy (o : ℝ) : ℝ := round6 o

/-- errors of the cell (degrees), lines 1228-1244: `sig` before, `l` the refined numbers and their errors -/
noncomputable def takeCellErrors (sig : Fin 6 → ℝ) (l : List (Fin 6 × ℝ)) : Fin 6 → ℝ :=
  l.foldl (fun s p => Function.update s p.1 (if p.1.val < 3 then p.2 else p.2 * 180 / π)) sig

end Cryspy.Back
