import Verif.Cell.Object
import Mathlib.LinearAlgebra.CrossProduct

/-!
# C80: plane sections of the density

`Section` (C_item_loop_classes/cl_2_section.py) and `calc_section_for_mem` (F_functions_data/script_1_mem.py:704-746).
-/

namespace Cryspy.Sect

open Real Matrix

abbrev V := Fin 3 → ℝ

/-- `x / numpy.square(x).sum()**0.5` -/
noncomputable def normed (x : V) : V := (√(x 0 ^ 2 + x 1 ^ 2 + x 2 ^ 2))⁻¹ • x

/-- The second half of `Section.calc_axes_x_y_z`, cl_2_section.py:126-134: the axes from the positions of the central atom and the atoms
along the two axes. -/
noncomputable def axes (po px py : V) : V × V × V :=
  let vx := normed (px - po)
  let vay := normed (py - po)
  let vy := normed (vay - (vay ⬝ᵥ vx) • vx)
  (vx, vy, vx ⨯₃ vy)

/-- a section: `size_x, size_y, points_x, points_y` -/
structure Section where
  sizeX : ℝ
  sizeY : ℝ
  pointsX : ℕ
  pointsY : ℕ

/-- `range(-p//2, p//2)`; `-p//2` is `(-p)//2`, rounded down. -/
def indices (p : ℕ) : List ℤ := (List.range (((p : ℤ) / 2 - (-(p : ℤ)) / 2).toNat)).map fun i : ℕ => (-(p : ℤ)) / 2 + i

/-- `Section.calc_fractions`, cl_2_section.py:136-172: the fractions of the points, `meshgrid(indexing="ij")` flattened.  The positions are
those of the atoms. -/
noncomputable def fractions (o : Cell.Obj) (s : Section) (po px py : V) : List V :=
  let v := axes po px py
  let dx := (s.sizeX / s.pointsX) • v.1
  let dy := (s.sizeY / s.pointsY) • v.2.1
  (indices s.pointsX).flatMap fun i : ℤ => (indices s.pointsY).map fun j : ℤ => o.coordinate ((i : ℝ) • dx + (j : ℝ) • dy + po)

/-- `np_x`, `np_y` of script_1_mem.py:724-731, flattened in the same way. -/
noncomputable def labels (s : Section) : List (ℝ × ℝ) :=
  (List.range s.pointsX).flatMap fun i : ℕ => (List.range s.pointsY).map fun j : ℕ =>
    (((i : ℝ) - 1 / 2 * s.pointsX) * s.sizeX / s.pointsX, ((j : ℝ) - 1 / 2 * s.pointsY) * s.sizeY / s.pointsY)

/-- `calc_section_for_mem`, script_1_mem.py:704-746: the rows written, before their numbers are formatted.  `moment` is `calc_moments` at a
point (densities between grid points are C48). -/
noncomputable def rows (o : Cell.Obj) (s : Section) (po px py : V) (moment : V → V) : List ((ℝ × ℝ) × V) :=
  let v := axes po px py
  List.zip (labels s) ((fractions o s po px py).map fun f => ![v.1 ⬝ᵥ moment f, v.2.1 ⬝ᵥ moment f, v.2.2 ⬝ᵥ moment f])

/-! ### atoms of the section -/

/-- `numpy.rint` -/
noncomputable def rint (x : ℝ) : ℤ :=
  if x - ⌊x⌋ < 1 / 2 then ⌊x⌋ else if 1 / 2 < x - ⌊x⌋ then ⌊x⌋ + 1 else if ⌊x⌋ % 2 = 0 then ⌊x⌋ else ⌊x⌋ + 1

/-- `numpy.round(x, decimals=5)` -/
noncomputable def round5 (x : ℝ) : ℝ := (rint (x * 10 ^ 5) : ℝ) / 10 ^ 5

/-- an operation: rotation and translation -/
structure Op where
  r : Matrix (Fin 3) (Fin 3) ℤ
  b : V

/-- an operation applied to a point -/
noncomputable def Op.act (g : Op) (x : V) : V := fun i => (g.r.map (fun n : ℤ => (n : ℝ)) *ᵥ x) i + g.b i

/-- `calc_atoms_in_unit_cell`, A_functions_base/function_2_crystallography_base.py:364-412: fractions modulo one, rounded to five decimals,
each once for an atom (`numpy.unique`), grouped by atom; the order within an atom is not modelled (it is that of a sort that is not stable). -/
noncomputable def atomsInUnitCell (ops : List Op) (atoms : List (String × V)) : List (V × String) := by
  classical
  exact atoms.flatMap fun a => (ops.map fun g => (fun i => round5 (Int.fract (g.act a.2 i)) : V)).dedup.map fun f => (f, a.1)

/-- components of an atom's position along the axes of the section, cl_2_section.py:219-236 -/
noncomputable def local_ (o : Cell.Obj) (po px py : V) (a : V × String) : V :=
  let v := axes po px py
  ![v.1 ⬝ᵥ (o.position a.1 - po), v.2.1 ⬝ᵥ (o.position a.1 - po), v.2.2 ⬝ᵥ (o.position a.1 - po)]

open Classical in
/-- `Section.calc_atoms`, cl_2_section.py:174-262: `(x, y, label)` of the atoms within the section. -/
noncomputable def calcAtoms (o : Cell.Obj) (s : Section) (po px py : V) (dmin : ℝ) (ops : List Op) (atoms : List (String × V)) :
    List (ℝ × ℝ × String) :=
  ((atomsInUnitCell ops atoms).filter fun a : V × String =>
    decide (|local_ o po px py a 0| < 1 / 2 * s.sizeX) && (decide (|local_ o po px py a 1| < 1 / 2 * s.sizeY) &&
      decide (|local_ o po px py a 2| < dmin))).map fun a : V × String => (local_ o po px py a 0, local_ o po px py a 1, a.2)

end Cryspy.Sect
