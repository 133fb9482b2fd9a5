import Verif.Sect.Model
import Verif.Gen.Powder

/-!
# The projections of a two-dimensional pattern on the scattering angle

`Pd2dProc.calc_projections_sum_difference`, C_item_loop_classes/cl_1_pd2d_proc.py:452-537.  The arrays over the detector are the list of their
pixels; numbers are exact reals, `nan` is `none`.
-/

namespace Cryspy.Proj

open Cryspy.Powder Cryspy.Sect

/-- what is measured in a pixel: the two intensities with errors, or the intensity with error; `none` is `nan` -/
inductive Exp
  | pol (plus minus : Option ℝ) (sPlus sMinus : ℝ)
  | unpol (int : Option ℝ) (s : ℝ)

/-- a pixel: its angles in degrees, calculated intensities, measurement and `excluded_points` -/
structure Px where
  gamma : ℝ
  nu : ℝ
  plus : ℝ
  minus : ℝ
  bkg : ℝ
  exp : Exp
  excluded : Bool

/-- `ttheta_2d`, cl_1_pd2d_proc.py:456-459 -/
noncomputable def Px.ttheta (p : Px) : ℝ := ttheta_by (p.gamma * Real.pi / 180) (p.nu * Real.pi / 180) * 180 / Real.pi

/-- sum with `nan` -/
def addO (a b : Option ℝ) : Option ℝ := match a, b with
  | some a, some b => some (a + b)
  | _, _ => none
/-- difference with `nan` -/
noncomputable def subO (a b : Option ℝ) : Option ℝ := match a, b with
  | some a, some b => some (a - b)
  | _, _ => none

/-- `signal_exp_sum`, cl_1_pd2d_proc.py:487, 491 -/
noncomputable def Px.expSum (p : Px) : Option ℝ := match p.exp with
  | .pol a b _ _ => addO a b
  | .unpol a _ => a
/-- `signal_exp_difference`, cl_1_pd2d_proc.py:488 (there is none for an unpolarised pattern) -/
noncomputable def Px.expDiff (p : Px) : Option ℝ := match p.exp with
  | .pol a b _ _ => subO a b
  | .unpol _ _ => none
/-- `signal_exp_sum_sigma_sq`, cl_1_pd2d_proc.py:489, 492 -/
noncomputable def Px.var (p : Px) : ℝ := match p.exp with
  | .pol _ _ s t => s ^ 2 + t ^ 2
  | .unpol _ s => s ^ 2
/-- `signal_sum`, cl_1_pd2d_proc.py:473 -/
noncomputable def Px.calcSum (p : Px) : ℝ := p.plus + p.minus + p.bkg
/-- `signal_difference`, cl_1_pd2d_proc.py:474 -/
noncomputable def Px.calcDiff (p : Px) : ℝ := p.plus - p.minus
/-- `included_points`, cl_1_pd2d_proc.py:494-497 -/
noncomputable def Px.included (p : Px) : Bool := !(p.excluded || p.expSum.isNone)
/-- `flag_nonan`, cl_1_pd2d_proc.py:506-507 -/
noncomputable def Px.nonan (p : Px) : Bool := !p.expDiff.isNone

/-- `ttheta_index`, cl_1_pd2d_proc.py:461-463: `g0`, `g1` are the first two angles `gamma`, `gmin` the least one -/
noncomputable def index (g0 g1 gmin : ℝ) (p : Px) : ℤ := rint ((p.ttheta - gmin) / round5 (g1 - g0))

/-- `ttheta_index.max()` -/
def maxIndex (l : List ℤ) : ℤ := match l with
  | [] => 0
  | a :: l => l.foldl max a

/-- `numpy.sum` of an array with `nan` -/
noncomputable def sumO (l : List (Option ℝ)) : Option ℝ := l.foldl addO (some 0)

/-- division of a number with `nan` -/
noncomputable def divO (a : Option ℝ) (n : ℝ) : Option ℝ := a.map (· / n)

/-- the three values of one bin, cl_1_pd2d_proc.py:512-523: the pixels with the index `i` and the flag -/
noncomputable def bin (idx : Px → ℤ) (flag : Px → Bool) (c : Px → ℝ) (e : Px → Option ℝ) (l : List Px) (i : ℤ) : Option ℝ × Option ℝ × Option ℝ :=
  let f := l.filter fun p => decide (idx p = i) && flag p
  let points := f.length
  if points ≠ 0 then
    (addO (some 0) (divO (sumO (f.map fun p => some (c p))) points), addO (some 0) (divO (sumO (f.map e)) points),
      addO (some 0) (divO (some (√((f.map Px.var).sum))) points))
  else (none, none, none)

/-- what the method gives: the angles and the calculated, the measured value and its error per angle, of the sum and of the difference -/
structure Out where
  ttheta : List ℝ
  sum : List (Option ℝ × Option ℝ × Option ℝ)
  diff : List (Option ℝ × Option ℝ × Option ℝ)

/-- `calc_projections_sum_difference`, cl_1_pd2d_proc.py:452-537.  `numpy.linspace` raises `ValueError` (here `none`) when the number of points is
negative; `linspace(a, b, n, endpoint=False)` is `a + k (b - a)/n`.  `polarized` says whether `intensity_plus` is there; without it the arrays of the
difference stay zero. -/
noncomputable def project (polarized : Bool) (g0 g1 gmin : ℝ) (l : List Px) : Option Out :=
  let step := round5 (g1 - g0)
  let idx := index g0 g1 gmin
  let m := maxIndex (l.map idx)
  if m < 0 then none
  else
    let n := m.toNat
    let stop := step * m + gmin
    let inds := List.range n
    some
      { ttheta := inds.map fun k : ℕ => gmin + k * ((stop - gmin) / n)
        sum := inds.map fun k : ℕ => bin idx Px.included Px.calcSum Px.expSum l k
        diff := inds.map fun k : ℕ => if polarized then bin idx Px.nonan Px.calcDiff Px.expDiff l k else (some 0, some 0, some 0) }

end Cryspy.Proj
