import Verif.Sect.Model
import Verif.Pts.Model

/-!
# Simulated powder patterns

`simulation_pd`, H_functions_global/simulations.py, with the writing of the calculated pattern to `PdProcL` (cl_2_pd.py:307-331) and of arrays to
the items of a loop (cl_2_loop.py:181-213).  Floats are real numbers.
-/

namespace Cryspy.Sim

open Cryspy.Sect

/-- `numpy.round(x, 3)` -/
noncomputable def round3 (x : ℝ) : ℝ := (rint (x * 10 ^ 3) : ℝ) / 10 ^ 3

/-- `n_step`, simulations.py:26 -/
noncomputable def nStep (s e h : ℝ) : ℤ := rint ((e - s) / h + 1)

/-- `numpy.round(numpy.linspace(ttheta_start, ttheta_end, n_step), 3)`, simulations.py:27 -/
noncomputable def grid (s e : ℝ) (n : ℕ) : List ℝ := (List.range n).map fun i : ℕ => round3 (s + i * (e - s) / ((n : ℝ) - 1))

/-- the calculated pattern: for the points that take part, intensities up and down and the background at each of them.  What they are is the subject
of other claims (C64) -/
structure Calc where
  plus : List ℝ → ℝ → ℝ
  minus : List ℝ → ℝ → ℝ
  bkg : List ℝ → ℝ → ℝ

/-- the points that take part: `Range(ttheta_min=ttheta_start, ttheta_max=ttheta_end)` with its limits put between 0 and 180, simulations.py:36,
cl_1_range.py:59-64, cl_2_pd.py:159-168 -/
noncomputable def inRange (s e : ℝ) (g : List ℝ) : List ℝ := g.filter fun t => decide (Pts.clip 0 180 s ≤ t) && decide (t ≤ Pts.clip 0 180 e)

/-- an item of `PdProcL` (the columns used here) -/
structure Proc where
  x : ℝ
  plus : ℝ
  minus : ℝ
  bkg : ℝ

/-- `pd_proc`, cl_2_pd.py:307-331: rounded to five digits -/
noncomputable def proc (c : Calc) (pts : List ℝ) : List Proc :=
  pts.map fun t => ⟨round5 t, round5 (c.plus pts t), round5 (c.minus pts t), round5 (c.bkg pts t)⟩

/-- the intensities of an item of `PdMeasL` -/
inductive Vals
  | sum (int : ℝ)
  | pol (plus minus : ℝ)

/-- an item of `PdMeasL` without the errors, which are 0.1, simulations.py:40-50 -/
structure Item where
  x : ℝ
  vals : Vals

/-- the new intensities of a line of `pd_proc`, simulations.py:64-71.  For polarized neutrons the line for `intensity_minus` reads
`numpy_intensity_plus_net` too -/
noncomputable def newVals (pol : Bool) (r : Proc) : Vals :=
  if pol then
    let plus := round3 (r.plus + 1 / 2 * r.bkg)
    let minus := round3 (r.plus + 1 / 2 * r.bkg)
    .pol (round3 plus) (round3 minus)
  else .sum (round3 (round3 (r.plus + r.minus + r.bkg)))

/-- `for item, val in zip(self.items, numpy_val): setattr(item, name, val)`, cl_2_loop.py:207-208 -/
def assign : List Item → List Vals → List Item
  | a :: as, v :: vs => { a with vals := v } :: assign as vs
  | as, [] => as
  | [], _ => []

/-- the result: the loops `pd_meas` and `pd_proc` with its new intensities -/
structure Result where
  meas : List Item
  proc : List (Proc × Vals)

/-- `simulation_pd`, simulations.py:20-75: a step of zero is a `ZeroDivisionError`, a negative number of points a `ValueError` of `linspace` -/
noncomputable def simulate (c : Calc) (s e h : ℝ) (pol : Bool) : Option Result :=
  if h = 0 then none
  else if nStep s e h < 0 then none
  else
    let g := grid s e (nStep s e h).toNat
    let zero : Vals := if pol then .pol 0 0 else .sum 0
    let p := proc c (inRange s e g)
    some { meas := assign (g.map fun t => ⟨t, zero⟩) (p.map (newVals pol)), proc := p.map fun r => (r, newVals pol r) }

end Cryspy.Sim
