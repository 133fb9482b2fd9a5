import Verif.Sft.Model

/-!
# Magnetic structure factor of ordered moments, A_functions_base/structure_factor.py

Model of `calc_f_m_perp_ordered` for one reflection, without stored data (the function reports no derivatives: `dder` is emptied before
the return).  Conventions as in Sf/Model.lean.  A column of `full_mcif_elems` is an operation with its time reversal `θ` (row 13).
-/

namespace Cryspy.Ord

open Symm Sf Real

/-- An atom with an ordered moment: position, occupancy, displacement parameters, Landé factor, expansion parameter, tables of the
form factor, moment along the axes of the crystal. -/
structure OAtom where
  x : Q3
  occ : ℝ
  bIso : ℝ
  beta : Fin 6 → ℝ
  lande : ℝ
  kappa : ℝ
  j0 : Fin 7 → ℝ
  j2 : Fin 7 → ℝ
  m : Fin 3 → ℝ

/-- The call of `calc_dwf`, structure_factor.py:1268-1271. -/
noncomputable def dwO (uc : Fin 6 → ℝ) (h : V3) (a : OAtom) (r : M3) : ℝ :=
  Adp.dwf (hklR h) (Cell.calc_sthovl (hklR h) uc) a.bIso a.beta (flat r)

/-- The call of `calc_form_factor`, structure_factor.py:1253-1258; with `orb` only the orbital part. -/
noncomputable def formFactor (orb : Bool) (uc : Fin 6 → ℝ) (h : V3) (a : OAtom) : ℝ :=
  if orb then FF.ffOrb (Cell.calc_sthovl (hklR h) uc) a.lande a.kappa a.j0 a.j2
  else FF.ff (Cell.calc_sthovl (hklR h) uc) a.lande a.kappa a.j0 a.j2

/-- `moment_ccs`, structure_factor.py:1277-1290, one operation and atom, component `k`. -/
noncomputable def moment (uc : Fin 6 → ℝ) (m : Fin 3 → ℝ) (g : Elem × ℤ) (k : Fin 3) : ℝ :=
  2695 / 10000 * Mat.calc_m_v (Cell.calc_m_m_norm uc) (Mat.calc_m_v (flat g.1.r) m) k * (g.2 * Mat.calc_det_m (flat g.1.r))

/-- `f_m`, structure_factor.py:1214-1218 and 1292-1295, component `k`. -/
noncomputable def fM (orb : Bool) (G : List (Elem × ℤ)) (uc : Fin 6 → ℝ) (atoms : List OAtom) (h : V3) (k : Fin 3) : ℂ :=
  (G.map fun g => pr2 h g.1 * (atoms.map fun a => pr1 h g.1 a.x * (dwO uc h a g.1.r : ℂ) *
    ((formFactor orb uc h a : ℂ) * (multiplicity (G.map Prod.fst) (siteOf a.x) * a.occ)) * (moment uc a.m g k : ℂ)).sum).sum / G.length

/-- `calc_f_m_perp_ordered`, structure_factor.py:1189-1310, component `k`. -/
noncomputable def fPerp (orb : Bool) (G : List (Elem × ℤ)) (uc : Fin 6 → ℝ) (atoms : List OAtom) (h : V3) : Fin 3 → ℂ :=
  Mat.calc_vector_product_v1_v2_v1 (K := ℂ) (fun k => ((Cell.calc_eq_ccs (hklR h) uc k : ℝ) : ℂ)) (fM orb G uc atoms h)

end Cryspy.Ord
