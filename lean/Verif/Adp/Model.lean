import Verif.Gen.Dwf
import Verif.Gen.UnitCell

/-!
# Displacement parameters by type, A_functions_base/debye_waller_factor.py and D_functions_item_loop/debye_waller.py

The formulas are in Gen/Dwf.lean; here are the functions that choose by the displacement type of an atom.  Arrays over atoms are lists
with one entry per atom; the code fills disjoint masks of the arrays, which is a choice per atom.
-/

namespace Cryspy.Adp

open Real

/-- the types that have a single number, and its factor to `B_iso`; the masks of `calc_b_iso_beta`,
A_functions_base/debye_waller_factor.py:108-123 -/
noncomputable def bIsoOf (adp : String) (iso : ℝ) : ℝ :=
  if adp = "Uiso" then 8 * π ^ 2 * iso
  else if adp = "Biso" then iso
  else if adp = "Uovl" then 8 * π ^ 2 * iso
  else if adp = "Umpe" then 8 * π ^ 2 * iso
  else if adp = "Bovl" then iso
  else 0

/-- the tensor part of `calc_b_iso_beta`, A_functions_base/debye_waller_factor.py:125-129 -/
noncomputable def betaOf (ruc : Fin 6 → ℝ) (adp : String) (aniso : Fin 6 → ℝ) : Fin 6 → ℝ :=
  if adp = "Uani" then beta_by_u aniso ruc else if adp = "Bani" then aniso else fun _ => 0

/-- `calc_b_iso_beta`, A_functions_base/debye_waller_factor.py:94-129; an atom is its type, its single number and its six numbers. -/
noncomputable def bIsoBeta (uc : Fin 6 → ℝ) (atoms : List (String × ℝ × (Fin 6 → ℝ))) : List (ℝ × (Fin 6 → ℝ)) :=
  atoms.map fun a => (bIsoOf a.1 a.2.1, betaOf (Cell.calc_reciprocal uc) a.1 a.2.2)

/-- the single number in `calc_param_iso_aniso_by_b_iso_beta`, A_functions_base/debye_waller_factor.py:133-156 -/
noncomputable def isoOf (adp : String) (b : ℝ) : ℝ :=
  if adp = "Uiso" then 1 / (8 * π ^ 2) * b
  else if adp = "Biso" then b
  else if adp = "Uovl" then 1 / (8 * π ^ 2) * b
  else if adp = "Umpe" then 1 / (8 * π ^ 2) * b
  else if adp = "Bovl" then b
  else 0

/-- the tensor in `calc_param_iso_aniso_by_b_iso_beta`, A_functions_base/debye_waller_factor.py:158-160 -/
noncomputable def anisoOf (ruc : Fin 6 → ℝ) (adp : String) (beta : Fin 6 → ℝ) : Fin 6 → ℝ :=
  if adp = "Bani" then beta else if adp = "Uani" then u_by_beta beta ruc else fun _ => 0

/-- `calc_param_iso_aniso_by_b_iso_beta`, A_functions_base/debye_waller_factor.py:132-162; `types` is the type of each atom. -/
noncomputable def paramIsoAniso (uc : Fin 6 → ℝ) (types : List String) (bs : List (ℝ × (Fin 6 → ℝ))) : List (ℝ × (Fin 6 → ℝ)) :=
  List.zipWith (fun t b => (isoOf t b.1, anisoOf (Cell.calc_reciprocal uc) t b.2)) types bs

/-- what an item of the atom loop holds: `none` is an attribute that is not defined -/
structure AtomItem where
  label : String
  adp : Option String
  uIso : ℝ
  bIso : ℝ

/-- what an item of the loop of displacement tensors holds -/
structure AnisoItem where
  label : String
  u : Fin 6 → ℝ
  b : Fin 6 → ℝ

/-- `calc_b_iso_beta` on items, D_functions_item_loop/debye_waller.py:12-62 (with a loop of tensors present), the same text as
E_data_classes/cl_1_crystal.py:155-204 and D_functions_item_loop/function_1_calc_for_magcrystal.py:35-85.  `none`: the tensor of the label
is not found (an exception).  `calc_beta_by_u`, A_functions_base/function_1_atomic_vibrations.py:16-39, has the formulas of
`calc_beta_by_u_ij`. -/
noncomputable def itemBIsoBeta (ruc : Fin 6 → ℝ) (anisos : List AnisoItem) (a : AtomItem) : Option (ℝ × (Fin 6 → ℝ)) :=
  match a.adp with
  | none => some (0, fun _ => 0)
  | some t =>
    if t = "Uiso" then some (8 * π ^ 2 * a.uIso, fun _ => 0)
    else if t = "Biso" then some (a.bIso, fun _ => 0)
    else if t = "Uovl" then some (8 * π ^ 2 * a.uIso, fun _ => 0)
    else if t = "Umpe" then some (8 * π ^ 2 * a.uIso, fun _ => 0)
    else if t = "Uani" then (anisos.find? (·.label = a.label)).map fun s => (0, beta_by_u s.u ruc)
    else if t = "Bovl" then some (a.bIso, fun _ => 0)
    else if t = "Bani" then (anisos.find? (·.label = a.label)).map fun s => (0, s.b)
    else some (0, fun _ => 0)

/-- `calc_dwf`, A_functions_base/debye_waller_factor.py:213-241, for one reflection, atom and operation -/
noncomputable def dwf (hkl : Fin 3 → ℝ) (sthovl b_iso : ℝ) (beta : Fin 6 → ℝ) (r : Fin 9 → ℝ) : ℝ :=
  exp (-(power_iso sthovl b_iso + power_aniso hkl beta r))

/-- the end of `Crystal.take_parameters_from_dictionary`, E_data_classes/cl_1_crystal.py:1056-1104, for one atom of type `Uani`: the tensor is
computed with the cell `raw` of the dictionary; the cell that is written afterwards (lines 1106-1118) is `CellConstr.constrainDict` of it
(without the rounding of the angles to five decimals of a degree) -/
noncomputable def takeU (raw : Fin 6 → ℝ) (beta : Fin 6 → ℝ) : Fin 6 → ℝ := anisoOf (Cell.calc_reciprocal raw) "Uani" beta

end Cryspy.Adp
