import Verif.Sf.Model
import Verif.Gen.FormFactor
import Verif.Gen.MatrixOps
import Verif.Gen.UnitCell

/-!
# Structure factor tensors, A_functions_base/structure_factor.py

Model of `calc_sft_ccs` for one reflection, without stored data and without derivatives: the tensor that, multiplied by the field,
gives the magnetic structure factor of the paramagnetic atoms.  Conventions as in Sf/Model.lean.
-/

namespace Cryspy.Sft

open Symm Sf Real

/-- A paramagnetic atom: position, occupancy, displacement parameters, Landé factor, expansion parameter, tables of the form
factor, susceptibility parameters (`11 22 33 12 13 23`, Cartesian) and the matrix of their constraints. -/
structure PAtom where
  x : Q3
  occ : ℝ
  bIso : ℝ
  beta : Fin 6 → ℝ
  lande : ℝ
  kappa : ℝ
  j0 : Fin 7 → ℝ
  j2 : Fin 7 → ℝ
  chi : Fin 6 → ℝ
  sc : Fin 6 → Fin 6 → ℝ

/-- `calc_pr5`, structure_factor.py:138-143, that is `calc_m_r_inv_m`, local_susceptibility.py:198-204: the rotation in the
Cartesian frame. -/
noncomputable def pr5 (uc : Fin 6 → ℝ) (r : M3) : Fin 9 → ℝ := Mat.calc_m1_m2_inv_m1 (Cell.calc_m_m uc) (flat r)

/-- `mas_constr`, structure_factor.py:294. -/
noncomputable def masConstr (a : PAtom) : Fin 6 → ℝ := fun i => ∑ j, 2695 / 10000 * a.sc i j * a.chi j

/-- `hh`, structure_factor.py:296 (`theta` is `None`, line 1031): the susceptibility tensor carried by a rotation. -/
noncomputable def carried (uc : Fin 6 → ℝ) (a : PAtom) (r : M3) : Fin 9 → ℝ := Mat.calc_m_q_inv_m (pr5 uc r) (masConstr a)

/-- The call of `calc_dwf` in `calc_sft_ccs`, structure_factor.py:1012-1015. -/
noncomputable def dwP (uc : Fin 6 → ℝ) (h : V3) (a : PAtom) (r : M3) : ℝ :=
  Adp.dwf (hklR h) (Cell.calc_sthovl (hklR h) uc) a.bIso a.beta (flat r)

/-- `calc_sft_ccs_asym_a_by_pr`, structure_factor.py:283-310, one atom with multiplicity `m`, component `k`. -/
noncomputable def sftAsym (m : ℕ) (reduced : List Elem) (uc : Fin 6 → ℝ) (h : V3) (a : PAtom) (k : Fin 9) : ℂ :=
  (reduced.map fun e => pr2 h e * (pr1 h e a.x * dwP uc h a e.r * (m * a.occ)) * carried uc a e.r k).sum / reduced.length

/-- The call of `calc_form_factor`, structure_factor.py:994-999; with `orb` only the orbital part. -/
noncomputable def formFactor (orb : Bool) (uc : Fin 6 → ℝ) (h : V3) (a : PAtom) : ℝ :=
  if orb then FF.ffOrb (Cell.calc_sthovl (hklR h) uc) a.lande a.kappa a.j0 a.j2
  else FF.ff (Cell.calc_sthovl (hklR h) uc) a.lande a.kappa a.j0 a.j2

/-- `calc_sft_ccs` with an empty `dict_in_out`, structure_factor.py:900-1045 (with `None` line 990 raises `TypeError`),
component `k` of the nine. -/
noncomputable def sft (orb : Bool) (s : Sym) (uc : Fin 6 → ℝ) (atoms : List PAtom) (h : V3) (k : Fin 9) : ℂ :=
  fByAsym (atoms.map fun a => ((formFactor orb uc h a : ℂ), sftAsym (multiplicity s.full (siteOf a.x)) s.reduced uc h a k))
    (pr3 h s.trans) s.centro (pr4 h s.centre)

/-- Derivative over the susceptibility parameters of `calc_sft_ccs_asym_a_by_pr`, structure_factor.py:306-309. -/
noncomputable def dSftAsym (m : ℕ) (reduced : List Elem) (uc : Fin 6 → ℝ) (h : V3) (a : PAtom) (k : Fin 9) (j : Fin 6) : ℂ :=
  (reduced.map fun e => pr2 h e * (pr1 h e a.x * dwP uc h a e.r * (m * a.occ)) *
    ((2695 / 10000 * ∑ l, Mat.d_calc_m_q_inv_m_q (pr5 uc e.r) (masConstr a) k l * a.sc l j : ℝ) : ℂ)).sum / reduced.length

/-- `dder["atom_para_susceptibility"]` for one atom, component `k`, parameter `j`, structure_factor.py:1061-1064, with the
derivatives of `calc_f_by_f_asym_a_pr`, structure_factor.py:237-247. -/
noncomputable def dSft (orb : Bool) (s : Sym) (uc : Fin 6 → ℝ) (h : V3) (a : PAtom) (k : Fin 9) (j : Fin 6) : ℂ :=
  let p3 := pr3 h s.trans
  let p4 := pr4 h s.centre
  let hh : ℂ := (formFactor orb uc h a : ℂ)
  let d := dSftAsym (multiplicity s.full (siteOf a.x)) s.reduced uc h a k j
  let re := if s.centro then 1 / 2 * (p3 + p4 * (starRingEnd ℂ) p3) * hh else p3 * hh
  let im := if s.centro then 1 / 2 * Complex.I * (p3 - p4 * (starRingEnd ℂ) p3) * hh else p3 * hh * Complex.I
  re * d + im * d

end Cryspy.Sft
