import Verif.CellConstr.Model

/-!
# Constraints of the site symmetry on a symmetric tensor (displacement parameters)

An operation of the site is its rotation, nine integers row by row; the six numbers of a tensor are `11 22 33 12 13 23`.
-/

namespace Cryspy.Vib

open CellConstr (Par fixed)

/-- `vibration_constraints`, A_functions_base/function_1_atomic_vibrations.py:42-303, and `AtomSiteAniso.apply_space_group_constraint`,
C_item_loop_classes/cl_1_atom_site_aniso.py:136-197, which hands the parameters over and writes the results back.  All constraint flags are
cleared first; an assigned parameter gets the value and error of the source, no refinement, and the constraint flag. -/
noncomputable def vibrationConstraints (numb : ℕ) (p0 : Fin 6 → Par) : Fin 6 → Par :=
  let p : Fin 6 → Par := fun i => { p0 i with con := false }
  let zero : Par := fixed 0 0
  let same (i : Fin 6) : Par := fixed (p i).val (p i).sig
  let minus (i : Fin 6) : Par := fixed (-1 * (p i).val) (p i).sig
  let half (i : Fin 6) : Par := fixed (1 / 2 * (p i).val) (1 / 2 * (p i).sig)
  let twice (i : Fin 6) : Par := fixed (2 * (p i).val) (2 * (p i).sig)
  match numb with
  | 1 => ![p 0, p 1, p 2, zero, p 4, zero]
  | 2 => ![p 0, p 1, p 2, p 3, zero, zero]
  | 3 => ![p 0, p 1, p 2, zero, zero, p 5]
  | 4 => ![p 0, p 1, p 2, zero, zero, zero]
  | 5 => ![p 0, same 0, p 2, p 3, zero, zero]
  | 6 => ![p 0, same 0, p 2, p 3, p 4, same 4]
  | 7 => ![p 0, same 0, p 2, p 3, p 4, minus 4]
  | 8 => ![p 0, same 0, p 2, zero, zero, zero]
  | 9 => ![p 0, p 1, same 1, zero, zero, p 5]
  | 10 => ![p 0, p 1, same 1, p 3, same 3, p 5]
  | 11 => ![p 0, p 1, same 1, p 3, minus 3, p 5]
  | 12 => ![p 0, p 1, same 1, zero, zero, zero]
  | 13 => ![p 0, p 1, p 2, half 1, p 4, zero]
  | 14 => ![p 0, p 1, p 2, half 1, zero, zero]
  | 15 => ![p 0, p 1, p 2, half 1, p 4, twice 4]
  | 16 => ![p 0, same 0, p 2, half 0, zero, zero]
  | 17 => ![p 0, same 0, same 0, zero, zero, zero]
  | 18 => ![p 0, same 0, same 0, p 3, same 3, same 3]
  | _ => p

/-- the arrays `i_11 ... i_23` of `AtomSite.calc_constr_number`, C_item_loop_classes/cl_1_atom_site.py:167-185, for one operation -/
def sample (o : Fin 9 → ℤ) : Fin 6 → ℤ :=
  let b11 : ℤ := 107; let b22 : ℤ := 181; let b33 : ℤ := 41; let b12 : ℤ := 7; let b13 : ℤ := 19; let b23 : ℤ := 1
  ![o 0 * o 0 * b11 + o 1 * o 1 * b22 + o 2 * o 2 * b33 + o 0 * o 1 * b12 + o 0 * o 2 * b13 + o 1 * o 2 * b23 + o 1 * o 0 * b12 +
      o 2 * o 0 * b13 + o 2 * o 1 * b23,
    o 3 * o 3 * b11 + o 4 * o 4 * b22 + o 5 * o 5 * b33 + o 3 * o 4 * b12 + o 3 * o 5 * b13 + o 4 * o 5 * b23 + o 4 * o 3 * b12 +
      o 5 * o 3 * b13 + o 5 * o 4 * b23,
    o 6 * o 6 * b11 + o 7 * o 7 * b22 + o 8 * o 8 * b33 + o 6 * o 7 * b12 + o 6 * o 8 * b13 + o 7 * o 8 * b23 + o 7 * o 6 * b12 +
      o 8 * o 6 * b13 + o 8 * o 7 * b23,
    o 0 * o 3 * b11 + o 1 * o 4 * b22 + o 2 * o 5 * b33 + o 0 * o 4 * b12 + o 0 * o 5 * b13 + o 1 * o 5 * b23 + o 1 * o 3 * b12 +
      o 2 * o 3 * b13 + o 2 * o 4 * b23,
    o 0 * o 6 * b11 + o 1 * o 7 * b22 + o 2 * o 8 * b33 + o 0 * o 7 * b12 + o 0 * o 8 * b13 + o 1 * o 8 * b23 + o 1 * o 6 * b12 +
      o 2 * o 6 * b13 + o 2 * o 7 * b23,
    o 3 * o 6 * b11 + o 4 * o 7 * b22 + o 5 * o 8 * b33 + o 3 * o 7 * b12 + o 3 * o 8 * b13 + o 4 * o 8 * b23 + o 4 * o 6 * b12 +
      o 5 * o 6 * b13 + o 5 * o 7 * b23]

/-- the decision tree, C_item_loop_classes/cl_1_atom_site.py:188-232, on the sums `r_11 ... r_23`; line 225 compares `r_11` with the number 22 -/
def numbOf (r : Fin 6 → ℤ) : ℕ :=
  let r11 := r 0; let r22 := r 1; let r33 := r 2; let r12 := r 3; let r13 := r 4; let r23 := r 5
  if r13 = 0 then
    if r23 = 0 then
      if r12 = 0 then
        if r11 = r22 then if r22 = r33 then 17 else 8
        else if r22 = r33 then 12
        else 4
      else if r11 = r22 then if r22 = 2 * r12 then 16 else 5
      else if r22 = 2 * r12 then 14
      else 2
    else if r22 = r33 then 9
    else 3
  else if r23 = 0 then if r22 = 2 * r12 then 13 else 1
  else if r23 = r13 then if r22 = r33 then 18 else 6
  else if r12 = r13 then 10
  else if r11 = 22 then 7
  else if r22 = r33 then 11
  else if r22 = 2 * r12 then 15
  else 0

/-- `AtomSite.calc_constr_number`, C_item_loop_classes/cl_1_atom_site.py:158-234, on the operations of the site (each once) as
`SpaceGroup.calc_el_symm_for_xyz` gives them; without the cached `constr_number` -/
def constrNumber (G : List (Fin 9 → ℤ)) : ℕ := numbOf fun i => (G.map fun o => sample o i).sum

/-- the values after the constraints of the site are applied -/
noncomputable def siteConstrained (G : List (Fin 9 → ℤ)) (u : Fin 6 → ℝ) : Fin 6 → ℝ :=
  fun i => (vibrationConstraints (constrNumber G) (fun j => ⟨u j, 0, false, false⟩) i).val

end Cryspy.Vib
