import Verif.Induced.Model
import Verif.Vib.Model

/-!
# The operations of a site

`SpaceGroup.calc_el_symm_for_xyz`, C_item_loop_classes/cl_2_space_group.py:501-540.  Coordinates are rational numbers.
-/

namespace Cryspy.SiteOps

open Cryspy.Gens Cryspy.Induced

/-- `x_in % 1.`, cl_2_space_group.py:503 -/
def cell (x : Fin 3 → ℚ) : Fin 3 → ℚ := fun i => Int.fract (x i)

/-- the order of the columns that `numpy.unique(..., axis=1)` gives: by the first coordinate, then the second, then the third -/
def lexLe (p q : Fin 3 → ℚ) : Bool :=
  decide (p 0 < q 0) || decide (p 0 = q 0) && (decide (p 1 < q 1) || decide (p 1 = q 1) && decide (p 2 ≤ q 2))

/-- the first of some positions in that order -/
def lexMin : List (Fin 3 → ℚ) → Option (Fin 3 → ℚ)
  | [] => none
  | p :: ps => some (ps.foldl (fun a q => if lexLe a q then a else q) p)

/-- `(x-x_s)**2+(y-y_s)**2+(z-z_s)**2 < 0.00001`, cl_2_space_group.py:534 -/
def near (x p : Fin 3 → ℚ) : Bool := decide (∑ i, (x i - p i) ^ 2 < 1 / 10 ^ 5)

/-- `calc_el_symm_for_xyz`, cl_2_space_group.py:501-540: the operations (in the order of the list) that carry the atom to the first of the rounded
positions near it; `none` if there is none (an `IndexError` there) -/
def siteOps (ops : List Op) (x : Fin 3 → ℚ) : Option (List Op) :=
  (lexMin ((ops.map fun o => pos o (cell x)).filter (near (cell x)))).map fun p => ops.filter fun o => decide (pos o (cell x) = p)

/-- the rotations of operations in the order `o_11, o_12, ...` in which they are used, cl_1_atom_site.py:148-152, 165-166 -/
def rots (l : List Op) : List (Fin 9 → ℤ) :=
  l.map fun o => ![o.r 0 0, o.r 0 1, o.r 0 2, o.r 1 0, o.r 1 1, o.r 1 2, o.r 2 0, o.r 2 1, o.r 2 2]

/-- `AtomSite.calc_constr_number`, cl_1_atom_site.py:158-234, with the operations it takes -/
def constrNumber (ops : List Op) (x : Fin 3 → ℚ) : Option ℕ := (siteOps ops x).map fun l => Vib.constrNumber (rots l)

end Cryspy.SiteOps
