import Mathlib.Analysis.SpecialFunctions.Trigonometric.Basic
import Mathlib.LinearAlgebra.Matrix.Notation

/-!
# Constraints of the crystal system on the unit cell

Text is a list of characters.  A cell is six parameters `a b c α β γ`; lengths in Å, angles in degrees.
-/

namespace Cryspy.CellConstr

/-- a parameter of an item: value, error, refinement flag, constraint flag -/
structure Par where
  val : ℝ
  sig : ℝ
  ref : Bool
  con : Bool

/-- the assignment `p, p_sig, p_ref, p_constr = x, s, False, True` of the source -/
def fixed (x s : ℝ) : Par := ⟨x, s, false, true⟩

/-- `str.lower` on ASCII text -/
def lower (s : List Char) : List Char := s.map Char.toLower

/-- `apply_constraint_on_cell_by_type_cell`, A_functions_base/function_1_atomic_vibrations.py:306-392, and `Cell.apply_constraints`,
C_item_loop_classes/cl_1_cell.py:112-161, which hands the parameters over and writes the results back (then recomputes the derived numbers).
All constraint flags are cleared first (lines 336-337). -/
def applyConstraint (p : Fin 6 → Par) (type code : List Char) : Fin 6 → Par :=
  let a : Par := { p 0 with con := false }
  let b : Par := { p 1 with con := false }
  let c : Par := { p 2 with con := false }
  let al : Par := { p 3 with con := false }
  let be : Par := { p 4 with con := false }
  let ga : Par := { p 5 with con := false }
  if type = ['a', 'P'] then ![a, b, c, al, be, ga]
  else if type.head? = some 'm' then ![a, b, c, fixed 90 0, be, fixed 90 0]
  else if type.head? = some 'o' then ![a, b, c, fixed 90 0, fixed 90 0, fixed 90 0]
  else if type.head? = some 't' then ![a, fixed a.val a.sig, c, fixed 90 0, fixed 90 0, fixed 90 0]
  else if type.take 2 = ['h', 'P'] then
    if lower code = ['h'] then ![a, fixed a.val a.sig, c, fixed 90 0, fixed 90 0, fixed 120 0]
    else ![a, fixed a.val a.sig, fixed a.val a.sig, al, fixed al.val al.sig, fixed al.val al.sig]
  else if type = ['h', 'R'] then
    if lower code = ['h'] then ![a, fixed a.val a.sig, c, fixed 90 0, fixed 90 0, fixed 120 0]
    else ![a, fixed a.val a.sig, fixed a.val a.sig, al, fixed al.val al.sig, fixed al.val al.sig]
  else if type.head? = some 'c' then ![a, fixed a.val a.sig, fixed a.val a.sig, fixed 90 0, fixed 90 0, fixed 90 0]
  else ![a, b, c, al, be, ga]

open Real in
/-- `calc_sc_v_unit_cell_parameters`, E_data_classes/cl_1_crystal.py:1250-1326; the cell of the dictionary has its angles in radians. -/
noncomputable def scV (type code : List Char) : Matrix (Fin 6) (Fin 6) ℝ × (Fin 6 → ℝ) :=
  let mono : Matrix (Fin 6) (Fin 6) ℝ × (Fin 6 → ℝ) :=
    (!![1, 0, 0, 0, 0, 0; 0, 1, 0, 0, 0, 0; 0, 0, 1, 0, 0, 0; 0, 0, 0, 0, 0, 0; 0, 0, 0, 0, 1, 0; 0, 0, 0, 0, 0, 0],
      ![0, 0, 0, π / 2, 0, π / 2])
  let ortho : Matrix (Fin 6) (Fin 6) ℝ × (Fin 6 → ℝ) :=
    (!![1, 0, 0, 0, 0, 0; 0, 1, 0, 0, 0, 0; 0, 0, 1, 0, 0, 0; 0, 0, 0, 0, 0, 0; 0, 0, 0, 0, 0, 0; 0, 0, 0, 0, 0, 0],
      ![0, 0, 0, π / 2, π / 2, π / 2])
  let tetra : Matrix (Fin 6) (Fin 6) ℝ × (Fin 6 → ℝ) :=
    (!![1, 0, 0, 0, 0, 0; 1, 0, 0, 0, 0, 0; 0, 0, 1, 0, 0, 0; 0, 0, 0, 0, 0, 0; 0, 0, 0, 0, 0, 0; 0, 0, 0, 0, 0, 0],
      ![0, 0, 0, π / 2, π / 2, π / 2])
  let hexa : Matrix (Fin 6) (Fin 6) ℝ × (Fin 6 → ℝ) :=
    (!![1, 0, 0, 0, 0, 0; 1, 0, 0, 0, 0, 0; 0, 0, 1, 0, 0, 0; 0, 0, 0, 0, 0, 0; 0, 0, 0, 0, 0, 0; 0, 0, 0, 0, 0, 0],
      ![0, 0, 0, π / 2, π / 2, π * 2 / 3])
  let rhomb : Matrix (Fin 6) (Fin 6) ℝ × (Fin 6 → ℝ) :=
    (!![1, 0, 0, 0, 0, 0; 1, 0, 0, 0, 0, 0; 1, 0, 0, 0, 0, 0; 0, 0, 0, 1, 0, 0; 0, 0, 0, 1, 0, 0; 0, 0, 0, 1, 0, 0],
      fun _ => 0)
  let cubic : Matrix (Fin 6) (Fin 6) ℝ × (Fin 6 → ℝ) :=
    (!![1, 0, 0, 0, 0, 0; 1, 0, 0, 0, 0, 0; 1, 0, 0, 0, 0, 0; 0, 0, 0, 0, 0, 0; 0, 0, 0, 0, 0, 0; 0, 0, 0, 0, 0, 0],
      ![0, 0, 0, π / 2, π / 2, π / 2])
  if type = ['a', 'P'] then (1, fun _ => 0)
  else if type.head? = some 'm' then mono
  else if type.head? = some 'o' then ortho
  else if type.head? = some 't' then tetra
  else if type.take 2 = ['h', 'P'] then if lower code = ['h'] then hexa else rhomb
  else if type = ['h', 'R'] then if lower code = ['h'] then hexa else rhomb
  else if type.head? = some 'c' then cubic
  else (1, fun _ => 0)

/-- the line `numpy.dot(sc_uc, unit_cell_parameters) + v_uc`, E_data_classes/cl_1_crystal.py:675, 1112, procedure_rhochi/rhochi_pd.py:211 -/
noncomputable def constrainDict (type code : List Char) (x : Fin 6 → ℝ) : Fin 6 → ℝ :=
  fun i => (∑ j, (scV type code).1 i j * x j) + (scV type code).2 i

end Cryspy.CellConstr
