import Verif.Sft.Model

/-!
# The bulk susceptibility, A_functions_base/structure_factor.py

Model of `calc_bulk_susceptibility` and `calc_bulk_susceptibility_by_dictionary` with an empty `dict_in_out`
(with `None` line 1407 raises `TypeError`).  Atoms and symmetry as in Sft/Model.lean; floats are real numbers.
-/

namespace Cryspy.Bulk

open Symm Sf Sft

/-- `mas_constr`, structure_factor.py:1420: the susceptibility with its constraints, one atom. -/
noncomputable def constrained (a : PAtom) : Fin 6 → ℝ := fun i => ∑ j, a.sc i j * a.chi j

/-- `hh`, structure_factor.py:1422, one operation and one atom. -/
noncomputable def hh (uc : Fin 6 → ℝ) (a : PAtom) (r : M3) : Fin 9 → ℝ := Mat.calc_m_q_inv_m (pr5 uc r) (constrained a)

/-- `calc_bulk_susceptibility`, structure_factor.py:1382-1426: lines 1392-1410 for the multiplicities, 1424 for the sum over the
atoms, then over the operations. -/
noncomputable def bulk (s : Sym) (uc : Fin 6 → ℝ) (atoms : List PAtom) : Fin 9 → ℝ := fun k =>
  (s.reduced.map fun e => (atoms.map fun a =>
    ((multiplicity s.full (siteOf a.x) : ℝ) * a.occ) * hh uc a e.r k).sum).sum / s.reduced.length

/-- The dictionary of derivatives that `calc_bulk_susceptibility` gives, structure_factor.py:1425: the function is given the flag
of the susceptibility and returns `{}`. -/
def dder (_flag : Bool) : String → Option (List PAtom → Fin 9 → PAtom → Fin 6 → ℝ) := fun _ => none

/-- `error_bars`, structure_factor.py:1372-1376; `sigma` are the errors of the susceptibility parameters. -/
noncomputable def errorBars (flag : Bool) (atoms : List PAtom) (sigma : PAtom → Fin 6 → ℝ) : Fin 9 → ℝ := fun k =>
  match dder flag "atom_para_susceptibility" with
  | some d => (atoms.map fun a => ∑ j, d atoms k a j * sigma a j).sum
  | none => 0

end Cryspy.Bulk
