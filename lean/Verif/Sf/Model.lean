import Verif.Symm.Model
import Verif.Symm.Spec
import Verif.Adp.Model
import Mathlib.Analysis.SpecialFunctions.Complex.Circle
import Mathlib.Data.Rat.Floor

/-!
# Structure factors, A_functions_base/structure_factor.py

Model of the nuclear structure factor for one reflection.  Arrays over atoms and operations are lists;
floats are exact: coordinates of atoms are rationals, everything else is real or complex.
-/

namespace Cryspy.Sf

open Symm Real

/-- `numpy.round(x, decimals=0)`: to the nearest integer, halves to the even one. -/
def npRound (q : ℚ) : ℤ :=
  let f := ⌊q⌋
  if q - f < 1 / 2 then f else if 1 / 2 < q - f then f + 1 else if f % 2 = 0 then f else f + 1

/-- One coordinate in `get_atom_symm_elems_by_atom_fract_xyz`, structure_factor.py:18-28. -/
def snap (x : ℚ) : ℤ :=
  let n := npRound (x * 3 * 10 ^ 6)
  let n := if n = 999999 then 1000000 else n
  let n := if n = 1999998 then 2000000 else n
  if n = 2000001 then 2000000 else n

/-- `get_atom_symm_elems_by_atom_fract_xyz`, structure_factor.py:18-28: the position used for the
multiplicity. -/
def siteOf (x : Q3) : Shift := ⟨fun k => snap (x k), 3 * 10 ^ 6⟩

/-- `numpy.exp(-2.*numpy.pi*1j*hh)` -/
noncomputable def ph (q : ℚ) : ℂ := Complex.exp (-2 * π * Complex.I * q)

/-- `calc_pr1`, structure_factor.py:74-96, one reflection, operation and atom. -/
noncomputable def pr1 (h : V3) (e : Elem) (x : Q3) : ℂ :=
  ph (h 0 * (e.r 0 0 * x 0 + e.r 0 1 * x 1 + e.r 0 2 * x 2) + h 1 * (e.r 1 0 * x 0 + e.r 1 1 * x 1 + e.r 1 2 * x 2)
    + h 2 * (e.r 2 0 * x 0 + e.r 2 1 * x 1 + e.r 2 2 * x 2))

/-- `calc_pr2`, structure_factor.py:99-109. -/
noncomputable def pr2 (h : V3) (e : Elem) : ℂ :=
  ph (h 0 * ((e.bn 0 : ℚ) / e.bd) + h 1 * ((e.bn 1 : ℚ) / e.bd) + h 2 * ((e.bn 2 : ℚ) / e.bd))

/-- `calc_pr3`, structure_factor.py:112-122. -/
noncomputable def pr3 (h : V3) (trans : List Shift) : ℂ :=
  (trans.map fun t => ph (((h 0 * t.n 0 + h 1 * t.n 1 + h 2 * t.n 2 : ℤ) : ℚ) / t.d)).sum / trans.length

/-- `calc_pr4` with a centre, structure_factor.py:125-135. -/
noncomputable def pr4 (h : V3) (c : Shift) : ℂ :=
  Complex.exp (-4 * π * Complex.I *
    ((h 0 * ((c.n 0 : ℚ) / c.d) + h 1 * ((c.n 1 : ℚ) / c.d) + h 2 * ((c.n 2 : ℚ) / c.d) : ℚ) : ℂ))

/-- What is known of an atom of the asymmetric unit: position, occupancy, scattering length, displacement
parameters. -/
structure Atom where
  x : Q3
  occ : ℝ
  b : ℂ
  bIso : ℝ
  beta : Fin 6 → ℝ

/-- The nine numbers of a rotation, rows 4 to 12 of a column of `symm_elems`. -/
def flat (r : M3) : Fin 9 → ℝ :=
  ![(r 0 0 : ℝ), r 0 1, r 0 2, r 1 0, r 1 1, r 1 2, r 2 0, r 2 1, r 2 2]

/-- Indices as floats. -/
def hklR (h : V3) : Fin 3 → ℝ := fun k => h k

/-- The call of `calc_dwf` in `calc_f_nucl`, structure_factor.py:496-499, with the `sthovl` of lines
484-491. -/
noncomputable def dw (uc : Fin 6 → ℝ) (h : V3) (a : Atom) (r : M3) : ℝ :=
  Adp.dwf (hklR h) (Cell.calc_sthovl (hklR h) uc) a.bIso a.beta (flat r)

/-- `calc_f_asym_a_by_pr`, structure_factor.py:146-155, for one atom with multiplicity `m` and
Debye-Waller factors `d`. -/
noncomputable def fAsym (m : ℕ) (reduced : List Elem) (d : M3 → ℝ) (h : V3) (a : Atom) : ℂ :=
  (reduced.map fun e => pr2 h e * (pr1 h e a.x * m * a.occ * d e.r)).sum / reduced.length

/-- `calc_f_by_f_asym_a_pr`, structure_factor.py:205-236, for scattering lengths and asymmetric sums of the
atoms. -/
noncomputable def fByAsym (l : List (ℂ × ℂ)) (p3 : ℂ) (centro : Bool) (p4 : ℂ) : ℂ :=
  let f_h := p3 * (l.map fun bf => bf.1 * bf.2).sum
  let f_h_conj := (starRingEnd ℂ) p3 * (l.map fun bf => bf.1 * (starRingEnd ℂ) bf.2).sum
  if centro then 1 / 2 * (f_h + p4 * f_h_conj) else f_h

/-- What the program knows of the symmetry: `reduced_symm_elems`, `centrosymmetry`, `centrosymmetry_position`,
`translation_elems`. -/
structure Sym where
  reduced : List Elem
  centro : Bool
  centre : Shift
  trans : List Shift

/-- `calc_full_symm_elems_by_reduced` with the fields of the crystal, structure_factor.py:450-452. -/
def Sym.full (s : Sym) : List Elem := fullByReduced s.reduced s.centro s.centre s.trans

/-- `calc_f_nucl` without stored data, structure_factor.py:422-552. -/
noncomputable def fNucl (s : Sym) (uc : Fin 6 → ℝ) (atoms : List Atom) (h : V3) : ℂ :=
  fByAsym (atoms.map fun a => (a.b, fAsym (multiplicity s.full (siteOf a.x)) s.reduced (dw uc h a) h a))
    (pr3 h s.trans) s.centro (pr4 h s.centre)

end Cryspy.Sf
