import Verif.Gens.Model
import Verif.Sect.Model
import Mathlib.Analysis.Real.Sqrt
import Mathlib.LinearAlgebra.Matrix.ConjTranspose

/-!
# Magnetic moments induced by a field

`Crystal.calc_magnetic_moments_with_field_loc`, E_data_classes/cl_1_crystal.py:450-517, with `SpaceGroup.calc_rotated_matrix_for_position`,
C_item_loop_classes/cl_2_space_group.py:626-670.  Coordinates of atoms are rational numbers, the other floats real numbers.
-/

namespace Cryspy.Induced

open Cryspy.Gens Matrix

/-- `numpy.rint` of a rational number -/
def rint (x : ℚ) : ℤ :=
  if Int.fract x < 1 / 2 then ⌊x⌋ else if 1 / 2 < Int.fract x then ⌊x⌋ + 1 else if ⌊x⌋ % 2 = 0 then ⌊x⌋ else ⌊x⌋ + 1

/-- `numpy.round(x, decimals=5)` -/
def round5 (x : ℚ) : ℚ := (rint (x * 10 ^ 5) : ℚ) / 10 ^ 5

/-- `R·x + b`, cl_2_space_group.py:644-646 -/
def image (o : Op) (x : Fin 3 → ℚ) : Fin 3 → ℚ := fun i => ∑ j, (o.r i j : ℚ) * x j + o.b i

/-- `x_s`, `y_s`, `z_s`, cl_2_space_group.py:644-646 -/
def pos (o : Op) (x : Fin 3 → ℚ) : Fin 3 → ℚ := fun i => round5 (Int.fract (image o x i))

/-- the loop that fills `l_ind` and `l_xyz`, cl_2_space_group.py:651-657: a position that is there already is passed over -/
def firsts (x : Fin 3 → ℚ) : List (Fin 3 → ℚ) → List Op → List ((Fin 3 → ℚ) × Op)
  | _, [] => []
  | seen, o :: os => if pos o x ∈ seen then firsts x seen os else (pos o x, o) :: firsts x (seen ++ [pos o x]) os

/-- the rotation as a matrix of floats, cl_2_space_group.py:664 -/
noncomputable def rot (o : Op) : Matrix (Fin 3) (Fin 3) ℝ := o.r.map fun n : ℤ => (n : ℝ)

/-- `R·χ·Rᵀ`, cl_2_space_group.py:664-668 -/
noncomputable def turned (o : Op) (chi : Matrix (Fin 3) (Fin 3) ℝ) : Matrix (Fin 3) (Fin 3) ℝ := rot o * chi * (rot o)ᵀ

/-- `calc_rotated_matrix_for_position`, cl_2_space_group.py:626-670 -/
noncomputable def rotatedMatrices (ops : List Op) (chi : Matrix (Fin 3) (Fin 3) ℝ) (x : Fin 3 → ℚ) :
    List ((Fin 3 → ℚ) × Matrix (Fin 3) (Fin 3) ℝ) :=
  (firsts x [] ops).map fun p => (p.1, turned p.2 chi)

/-- `m_m_norm` of the cell from the cosines and `sin α`; `v` is `v_sqrt`.  cl_1_cell.py:187-202 -/
noncomputable def mNorm (v ca cb cg sa : ℝ) : Matrix (Fin 3) (Fin 3) ℝ := !![v / sa, 0, 0; (cg - ca * cb) / sa, sa, 0; cb, ca, 1]

/-- `np_field/norm_field`, cl_1_crystal.py:465-469 -/
noncomputable def direction (h : Fin 3 → ℝ) : Fin 3 → ℝ :=
  let n := Real.sqrt (∑ i, h i ^ 2)
  fun i => h i / (if n = 0 then 1 else n)

/-- `m_mt_norm_m_norm_field`, cl_1_crystal.py:481-483 -/
noncomputable def lowered (m : Matrix (Fin 3) (Fin 3) ℝ) (h : Fin 3 → ℝ) : Fin 3 → ℝ := (mᵀ * m) *ᵥ direction h

/-- `_moment`, cl_1_crystal.py:499 -/
noncomputable def moment (m chi : Matrix (Fin 3) (Fin 3) ℝ) (h : Fin 3 → ℝ) : Fin 3 → ℝ := chi *ᵥ lowered m h

/-- an atom of `atom_site` -/
structure Site where
  label : Text.Str
  x : Fin 3 → ℚ

/-- an item of `atom_site_susceptibility` -/
structure Row where
  label : Text.Str
  chi : Fin 6 → ℝ

/-- `m_chi`, cl_1_crystal.py:490-492 (11, 22, 33, 12, 13, 23) -/
def Row.matrix (r : Row) : Matrix (Fin 3) (Fin 3) ℝ :=
  !![r.chi 0, r.chi 3, r.chi 4; r.chi 3, r.chi 1, r.chi 5; r.chi 4, r.chi 5, r.chi 2]

/-- an atom of the crystal returned: `AtomSite` and `AtomSiteMoment` with the same label, cl_1_crystal.py:503-508 -/
structure Out where
  label : Text.Str
  x : Fin 3 → ℚ
  m : Fin 3 → ℝ

/-- `f"{_l:}_{_i_out+1:}"`, cl_1_crystal.py:500 -/
def labelOf (l : Text.Str) (i : ℕ) : Text.Str := l ++ '_' :: Text.natStr (i + 1)

/-- the atoms made of one row, cl_1_crystal.py:495-508 -/
noncomputable def outs (ops : List Op) (m : Matrix (Fin 3) (Fin 3) ℝ) (h : Fin 3 → ℝ) (r : Row) (s : Site) : List Out :=
  (rotatedMatrices ops r.matrix s.x).mapIdx fun i p => ⟨labelOf r.label i, p.1, fun k => Sect.round5 (moment m p.2 h k)⟩

/-- `a_s[_l]` for every row and the atoms made of it, cl_1_crystal.py:487-508; `none` for a label that is not among the atoms (an exception there) -/
noncomputable def induced (ops : List Op) (m : Matrix (Fin 3) (Fin 3) ℝ) (sites : List Site) (rows : List Row) (h : Fin 3 → ℝ) :
    Option (List Out) :=
  (rows.mapM fun r : Row => (sites.find? fun s : Site => decide (s.label = r.label)).map (outs ops m h r)).map List.flatten

end Cryspy.Induced
