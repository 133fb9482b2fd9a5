import Verif.Sf.Model

/-!
# Stored intermediate results of `calc_f_nucl`

During a refinement `calc_f_nucl` is called again and again with the same dictionary `dict_in_out` and
`flag_use_precalculated_data=True`; every intermediate result found in the dictionary is used again
unless a flag says that the parameters behind it are refined.
-/

namespace Cryspy.Sf

open Symm Real

/-- `flag_unit_cell_parameters`, `flag_atom_fract_xyz`, `flag_atom_occupancy`, `flag_atom_b_iso`, `flag_atom_beta`: which
groups of parameters are refined. -/
structure Flags where
  uc : Bool
  xyz : Bool
  occ : Bool
  bIso : Bool
  beta : Bool

/-- The entries of `dict_in_out` that `calc_f_nucl` reads and writes (structure_factor.py:422-552), for one reflection.
Lists run over the atoms, inner lists over the reduced operations. -/
structure Store where
  hkl : Option V3 := none
  full : Option (List Elem) := none
  mult : Option (List ℕ) := none
  p1 : Option (List (List ℂ)) := none
  p2 : Option (List ℂ) := none
  p3 : Option ℂ := none
  p4 : Option ℂ := none
  sth : Option ℝ := none
  dwf : Option (List (List ℝ)) := none
  fas : Option (List ℂ) := none
  fn : Option ℂ := none

/-- `if (flag_use_precalculated_data and (key in dict_in_out_keys) and not(flag)): stored else: computed` -/
def recall {α : Type} (use : Bool) (stored : Option α) (again : Bool) (computed : α) : α :=
  match stored with
  | some v => if use && !again then v else computed
  | none => computed

/-- `calc_f_asym_a_by_pr` on arrays, structure_factor.py:146-155. -/
noncomputable def fAsymArr (mult : List ℕ) (dwf : List (List ℝ)) (occ : List ℝ) (p1 : List (List ℂ)) (p2 : List ℂ) : List ℂ :=
  ((mult.zip dwf).zip (occ.zip p1)).map fun q =>
    (List.zipWith (fun (e : ℂ) (pd : ℂ × ℝ) => e * (pd.1 * q.1.1 * q.2.1 * (pd.2 : ℂ))) p2 (List.zip q.2.2 q.1.2)).sum / p2.length

/-- `calc_f_nucl` with `dict_in_out`, structure_factor.py:422-552: the new content of the dictionary; its entry `fn` is the
result. -/
noncomputable def call (use : Bool) (f : Flags) (s : Sym) (uc : Fin 6 → ℝ) (atoms : List Atom) (h : V3) (st : Store) : Store :=
  let st := if use && st.hkl.any (fun g => decide (g ≠ h)) then { hkl := some h } else st
  let full := st.full.getD s.full
  let mult := recall use st.mult false (atoms.map fun a => multiplicity full (siteOf a.x))
  let newFull := if use && st.mult.isSome then st.full else some full
  let p1 := recall use st.p1 f.xyz (atoms.map fun a => s.reduced.map fun e => pr1 h e a.x)
  let p2 := recall use st.p2 false (s.reduced.map (pr2 h))
  let p3 := recall use st.p3 false (pr3 h s.trans)
  let p4 := recall use st.p4 false (if s.centro then pr4 h s.centre else 0)
  let sth := recall use st.sth f.uc (Cell.calc_sthovl (hklR h) uc)
  let dwf := recall use st.dwf (f.uc || f.bIso || f.beta)
    (atoms.map fun a => s.reduced.map fun e => Adp.dwf (hklR h) sth a.bIso a.beta (flat e.r))
  let flagF := f.bIso || f.beta || f.xyz
  let fas := recall use st.fas flagF (fAsymArr mult dwf (atoms.map (·.occ)) p1 p2)
  let fn := recall use st.fn flagF (fByAsym ((atoms.map (·.b)).zip fas) p3 s.centro p4)
  { hkl := st.hkl, full := newFull, mult := some mult, p1 := some p1, p2 := some p2, p3 := some p3, p4 := some p4,
    sth := some sth, dwf := some dwf, fas := some fas, fn := some fn }

end Cryspy.Sf
