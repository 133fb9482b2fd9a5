import Mathlib.Analysis.Real.Sqrt
import Mathlib.Algebra.BigOperators.Group.List.Basic
import Mathlib.Data.List.Sort

/-!
# The reports on measured flipping ratios

Model of `DiffrnReflnL` in
cryspy/C_item_loop_classes/cl_1_diffrn_refln.py: the agreement of Friedel pairs
(lines 105-169), the sum over the reflections that take part in a refinement
(171-189), the report on the agreement with the model (192-264) and the exclusion
of reflections by the size of the flipping ratio (399-423).

Simplifications: numbers are exact reals; what is modelled of a report is the list
of the numbers in it, not the text (the text is their formatting); the default text
for missing columns is not modelled (all the columns are given).
-/

namespace Cryspy.FrReport

open Classical

/-- An item of the loop (cl_1_diffrn_refln.py:15-80): indices, measured flipping
ratio, its error, the calculated one, and the mark of exclusion. -/
structure Row where
  h : ℤ
  k : ℤ
  l : ℤ
  fr : ℝ
  sigma : ℝ
  model : ℝ
  excluded : Bool

/-- `math.isclose(a, b)` with its default tolerances (relative 1e-9, absolute 0);
called in cl_1_diffrn_refln.py:127, 145, 213, 217. -/
def isClose (a b : ℝ) : Prop := |a - b| ≤ 1 / 10 ^ 9 * max |a| |b|

/-- `include_all_points`, lines 399-401. -/
def includeAll (rows : List Row) : List Row := rows.map fun r => { r with excluded := false }

/-- `exclude_by_fr_max`, lines 406-419. -/
noncomputable def excludeByMax (m : ℝ) (rows : List Row) : List Row :=
  let f1 := if 1 ≤ m then 1 / m else m
  let f2 := if 1 ≤ m then m else 1 / m
  rows.map fun r => if r.fr < f1 ∨ f2 < r.fr then { r with excluded := true } else r

/-- `calc_chi_sq_points`, lines 171-187. -/
noncomputable def chiPoints (rows : List Row) : ℝ × ℕ :=
  if rows.all (·.excluded) then (0, 0)
  else
    let used := rows.filter fun r => !r.excluded
    ((used.map fun r => ((r.fr - r.model) / r.sigma) ^ 2).sum, used.length)

/-! ## Report on the agreement with the model -/

/-- The counters and lists of the loop at lines 207-227. -/
structure Acc where
  n1 : ℕ
  n2 : ℕ
  n3 : ℕ
  worst : List Row
  chi : List ℝ
  afF : List ℝ
  afR : List ℝ

/-- `_diff` at line 211. -/
noncomputable def dev (r : Row) : ℝ := |(r.fr - r.model) / r.sigma|

/-- One turn of the loop, lines 210-227. -/
noncomputable def step (a : Acc) (r : Row) : Acc :=
  let d := dev r
  let chi := a.chi ++ [d ^ 2]
  let afF := a.afF ++ [if isClose r.fr 0 then |(r.fr - r.model) / r.sigma|
    else |(r.fr - r.model) / r.fr|]
  let afR := if isClose r.fr 1 then a.afR else a.afR ++ [|(r.fr - r.model) / (r.fr - 1)|]
  if d ≤ 1 then { a with n1 := a.n1 + 1, chi, afF, afR }
  else if d ≤ 2 then { a with n2 := a.n2 + 1, chi, afF, afR }
  else if d ≤ 3 then { a with n3 := a.n3 + 1, chi, afF, afR }
  else { a with worst := a.worst ++ [r], chi, afF, afR }

/-- A line of the table over sin(theta)/lambda (lines 250-261): the edges, and the
mean deviation with the number of points, or nothing ("None"). -/
structure Bin where
  lo : ℝ
  hi : ℝ
  shown : Option (ℝ × ℕ)

/-- Edge `i` of `numpy.histogram(x, bins=10)`, line 252: equal bins from the least to
the largest value; when all the values are the same, half a unit on either side. -/
noncomputable def edge (lo hi : ℝ) (i : ℕ) : ℝ :=
  if lo = hi then lo - 1 / 2 + i * (1 / 10) else lo + i * ((hi - lo) / 10)

/-- The number `numpy.histogram` gives for bin `i` of ten: the right edge belongs to
the last bin only. -/
noncomputable def histCount (lo hi : ℝ) (xs : List ℝ) (i : ℕ) : ℕ :=
  (xs.filter fun x => edge lo hi i ≤ x ∧
    (x < edge lo hi (i + 1) ∨ (i = 9 ∧ x = edge lo hi (i + 1)))).length

/-- Line `i` of the table, lines 255-261: the mean is over `[left, right)`. -/
noncomputable def binLine (lo hi : ℝ) (xs : List (ℝ × ℝ)) (i : ℕ) : Bin :=
  let res := (xs.filter fun p => edge lo hi i ≤ p.1 ∧ p.1 < edge lo hi (i + 1)).map (·.2)
  { lo := edge lo hi i
    hi := edge lo hi (i + 1)
    shown := if res = [] then none
      else some (res.sum / res.length, histCount lo hi (xs.map (·.1)) i) }

/-- The numbers of `report_chi_sq_exp`, lines 228-263. -/
structure ChiReport where
  n : ℕ
  chiPer : ℝ
  afFPer : ℝ
  afRPer : ℝ
  n1 : ℕ
  n2 : ℕ
  n3 : ℕ
  nMore : ℕ
  listed : List Row

/-- The loop at lines 207-227. -/
noncomputable def collect (rows : List Row) : Acc := rows.foldl step ⟨0, 0, 0, [], [], [], []⟩

/-- `report_chi_sq_exp` without a cell, lines 192-246. `none`: Python raises
`ZeroDivisionError` (an empty list, or an error of zero). The list of the worst is
sorted by a stable sort in descending order (line 241). -/
noncomputable def chiReport (rows : List Row) : Option ChiReport :=
  if rows = [] ∨ ∃ r ∈ rows, r.sigma = 0 then none
  else
    let a := collect rows
    let sorted := a.worst.mergeSort fun r s => decide (dev s ≤ dev r)
    some
      { n := rows.length
        chiPer := a.chi.sum / rows.length
        afFPer := a.afF.sum / rows.length
        afRPer := a.afR.sum / rows.length
        n1 := a.n1
        n2 := a.n2
        n3 := a.n3
        nMore := a.worst.length
        listed := if 1 < a.worst.length then sorted.take (min 10 a.worst.length) else [] }

/-- The table over sin(theta)/lambda when a cell is given, lines 247-262; `sthovl` is
the value `cell.calc_sthovl` gives for the indices, `lo` and `hi` the least and the
largest of them. -/
noncomputable def chiTable (sthovl : ℤ → ℤ → ℤ → ℝ) (lo hi : ℝ) (rows : List Row) : List Bin :=
  (List.range 10).map (binLine lo hi (rows.map fun r => (sthovl r.h r.k r.l, dev r)))

/-! ## Report on Friedel pairs -/

/-- The counters and lists of the loop at lines 115-150. -/
structure Ag where
  n0 : ℕ
  n1 : ℕ
  n2 : ℕ
  n3 : ℕ
  diff : List ℝ
  chi : List ℝ
  ag : List ℝ

/-- `_diff` at line 116. -/
noncomputable def asym (r : Row) : ℝ := |r.fr - 1| / r.sigma

/-- The value put in `l_diff`, lines 125-131. -/
noncomputable def diffOf (r : Row) : ℝ :=
  if r.fr ≤ 1 then
    if isClose r.fr 0 then 1 / (r.fr + r.sigma) - 1 else 1 / r.fr - 1
  else r.fr - 1

/-- `_fr_average` at lines 137-138. -/
noncomputable def average (r s : Row) : ℝ :=
  let sig := 1 / Real.sqrt (1 / r.sigma ^ 2 + 1 / s.sigma ^ 2)
  (r.fr * (1 / r.sigma ^ 2) + s.fr * (1 / s.sigma ^ 2)) * sig ^ 2

/-- `chi_sq_exp` at lines 139-140. -/
noncomputable def pairChi (r s : Row) : ℝ := (|r.fr - average r s| / r.sigma) ^ 2

/-- `ag_f_exp`, lines 142-145. -/
noncomputable def pairAg (r s : Row) : ℝ :=
  if isClose (r.fr - 1) 0 then |(r.fr - average r s) / (r.fr - 1 + r.sigma)|
  else |(r.fr - average r s) / (r.fr - 1)|

/-- The opposite of a reflection: the first in the list with all indices reversed,
lines 133-136. -/
def mate (rows : List Row) (r : Row) : Option Row :=
  rows.find? fun s => decide (s.h = -1 * r.h ∧ s.k = -1 * r.k ∧ s.l = -1 * r.l)

/-- One turn of the loop, lines 115-146. -/
noncomputable def agStep (rows : List Row) (a : Ag) (r : Row) : Ag :=
  let d := asym r
  let a := if 3 ≤ d then { a with n3 := a.n3 + 1 }
    else if 2 ≤ d then { a with n2 := a.n2 + 1 }
    else if 1 ≤ d then { a with n1 := a.n1 + 1 }
    else { a with n0 := a.n0 + 1 }
  let a := { a with diff := a.diff ++ [diffOf r] }
  match mate rows r with
  | some s => { a with chi := a.chi ++ [pairChi r s], ag := a.ag ++ [pairAg r s] }
  | none => a

/-- The loop, lines 115-146. -/
noncomputable def agCollect (rows : List Row) : Ag :=
  rows.foldl (agStep rows) ⟨0, 0, 0, 0, [], [], []⟩

/-- The numbers of `report_agreement_factor_exp`, lines 150-169. -/
structure AgReport where
  n : ℕ
  maxDiff : Option ℝ
  n0 : ℕ
  n1 : ℕ
  n2 : ℕ
  n3 : ℕ
  nFriedel : ℕ
  /-- mean of the squares and of the relative differences, when there are pairs -/
  perPair : Option (ℝ × ℝ)

/-- Python's `max` of a list. -/
noncomputable def maxOf : List ℝ → Option ℝ
  | [] => none
  | x :: xs => some (xs.foldl max x)

/-- `report_agreement_factor_exp`, lines 105-169. `none`: Python raises (an empty list,
or an error of zero). -/
noncomputable def agReport (rows : List Row) : Option AgReport :=
  if rows = [] ∨ ∃ r ∈ rows, r.sigma = 0 then none
  else
    let a := agCollect rows
    some
      { n := a.n0 + a.n1 + a.n2 + a.n3
        maxDiff := maxOf a.diff
        n0 := a.n0
        n1 := a.n1
        n2 := a.n2
        n3 := a.n3
        nFriedel := a.chi.length
        perPair := if a.chi.length = 0 then none
          else some (a.chi.sum / a.chi.length, a.ag.sum / a.chi.length) }

end Cryspy.FrReport
