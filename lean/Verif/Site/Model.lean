import Verif.Symm.Spec
import Verif.Symm.Lemmas2
import Verif.MemSf.Model
import Verif.Text.Model
import Mathlib.Data.Rat.Floor

/-!
# C82: the symmetry of the sites that ties the parameters of an atom

`Crystal.get_dictionary`, E_data_classes/cl_1_crystal.py:690-760.  `fl` is the rounding of the arithmetic: the identity for exact numbers, `Text.fl64` for
double precision.
-/

namespace Cryspy.Site

open Cryspy.Symm

/-- `3*10**6` -/
def N : ℤ := 3000000

/-- `atom_fract_xyz = numpy.mod(atom_fract_xyz, 1.)` (line 693), `b_elem = (atom_fract_xyz*b_d[na, :]).astype(int)` (line 722); the product is not
negative, `astype(int)` drops the decimals -/
def bElem (fl : ℚ → ℚ) (x : Q3) : V3 := fun k => ⌊fl (fl (Int.fract (x k)) * N)⌋

/-- `gcd`, line 723 -/
def gcdAll (b : V3) : ℤ := Int.gcd (Int.gcd (Int.gcd (b 0) N) (Int.gcd (b 1) N)) (Int.gcd (b 2) N)

/-- `atom_symm_elems`, lines 725-730: the rotation part is zero, so the first condition of `calc_symm_flags` always holds -/
def atomElem (fl : ℚ → ℚ) (x : Q3) : Shift :=
  ⟨fun k => bElem fl x k / gcdAll (bElem fl x), N / gcdAll (bElem fl x)⟩

/-- `elems_fs[:, flag_2d[:, ind]]`, lines 739-745: the operations taken for those that keep the atom -/
def siteOps (fl : ℚ → ℚ) (G : List Elem) (x : Q3) : List Elem := G.filter (symmFlag · (atomElem fl x))

/-- `flags_atom_fract_xyz_constr`, lines 754-755 -/
noncomputable def flagsConstr (G : List Elem) (flags : Fin 3 → Bool) : Fin 3 → Prop := fun k =>
  Mat.calc_m_v (Constr.scFract (G.map MemSf.colOf)) (fun l => if flags l then 1 else 0) k ≠ 0

/-- The position the calculation uses for numbers `y` of the dictionary, and the one that is written back before rounding:
A_functions_base/structure_factor.py:387-389, 605-607, 852-855, E_data_classes/cl_1_crystal.py:1039-1046 -/
noncomputable def usedPosition (fl : ℚ → ℚ) (G : List Elem) (x : Q3) (y : Fin 3 → ℝ) : Fin 3 → ℝ :=
  Constr.constrainedFract ((siteOps fl G x).map MemSf.colOf) (fun k => (x k : ℝ)) y

end Cryspy.Site
