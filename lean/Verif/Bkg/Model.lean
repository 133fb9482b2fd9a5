import Mathlib.Algebra.Order.Field.Basic

/-!
# Backgrounds through points

Model of `interpolate_by_points` (one-dimensional backgrounds), of `calc_background` of the
refinement and of `estimate_background`.  Numbers are the elements of an ordered field, so rounding
of double precision is left out; `none` stands for a Python exception.
-/

namespace Cryspy.Bkg

variable {K : Type*} [Field K] [LinearOrder K]

/-- `numpy.interp(t, xp, fp)` for `t` not left of the first node: the last node `j` with `xp[j] ≤ t`
decides; past the last node its value is returned.  Numpy finds `j` by bisection, which for
increasing nodes is the node found here. -/
def interpFrom : K × K → List (K × K) → K → K
  | a, [], _ => a.2
  | a, b :: rest, t =>
    if t < b.1 then (b.2 - a.2) / (b.1 - a.1) * (t - a.1) + a.2 else interpFrom b rest t

/-- `PdBackgroundL.interpolate_by_points`
(cryspy/C_item_loop_classes/cl_1_pd_background.py:81-90) and
`TOFBackgroundPointL.interpolate_by_points` (cl_1_tof_background_by_points.py:84-93) at one point:
zero without nodes, else `numpy.interp`, whose value left of the first node is that of the node. -/
def interpolate (nodes : List (K × K)) (t : K) : K :=
  match nodes with
  | [] => 0
  | a :: rest => if t < a.1 then a.2 else interpFrom a rest t

/-- The first node added when the measured range begins left of the nodes
(cryspy/procedure_rhochi/rhochi_pd.py:33-38).  Python's index error gives `none`. -/
def extendLeft (xMin : K) (xs ys : List K) : Option (List K × List K) := do
  let xpMin ← xs.min?
  if xpMin > xMin then
    let y1 ← ys[1]?
    let y0 ← ys[0]?
    let x0 ← xs[0]?
    let x1 ← xs[1]?
    some (xMin :: xs, ((y1 - y0) * (xMin - x0) / (x1 - x0) + y0) :: ys)
  else some (xs, ys)

/-- The last node added when the measured range reaches the last node
(cryspy/procedure_rhochi/rhochi_pd.py:39-43). -/
def extendRight (xMax : K) (xs ys : List K) : Option (List K × List K) := do
  let xpMax ← xs.max?
  if xpMax ≤ xMax then
    let xMax' := xMax + 1
    let y1 ← ys.reverse[0]?
    let y2 ← ys.reverse[1]?
    let x2 ← xs.reverse[1]?
    let x1 ← xs.reverse[0]?
    some (xs ++ [xMax'], ys ++ [(y1 - y2) * (xMax' - x2) / (x1 - x2) + y2])
  else some (xs, ys)

/-- The indices of the intervals `[xp[j], xp[j+1])` that contain `t`: one row of
`numpy.argwhere(flags)[:,1]` (cryspy/procedure_rhochi/rhochi_pd.py:44-47). -/
def columns (xp : List K) (t : K) : List ℕ :=
  (List.range (xp.length - 1)).filter fun j =>
    match xp[j]?, xp[j+1]? with
    | some l, some r => decide (l ≤ t) && decide (t < r)
    | _, _ => false

/-- The chord of interval `p0` at `t` (cryspy/procedure_rhochi/rhochi_pd.py:49). -/
def intervalValue (xp yp : List K) (t : K) (p0 : ℕ) : Option K := do
  let y1 ← yp[p0+1]?
  let y0 ← yp[p0]?
  let x0 ← xp[p0]?
  let x1 ← xp[p0+1]?
  some ((y1 - y0) * (t - x0) / (x1 - x0) + y0)

/-- `calc_background` (cryspy/procedure_rhochi/rhochi_pd.py:30-49), used for constant wavelength and
time of flight.  When the rows of `flags` do not hold exactly one true entry altogether, the shapes
of numpy's arrays differ and the last line raises (broadcasting of a single entry is not
modelled). -/
def calcBackground (tt xs ys : List K) : Option (List K) := do
  let xMin ← tt.min?
  let xMax ← tt.max?
  let (xp, yp) ← extendLeft xMin xs ys
  let (xp, yp) ← extendRight xMax xp yp
  let p0 := tt.flatMap (columns xp)
  if p0.length ≠ tt.length then none
  else (tt.zip p0).mapM fun q => intervalValue xp yp q.1 q.2

/-- The reported derivative of the background at every point over every node intensity
(cryspy/procedure_rhochi/rhochi_pd.py:54-60): the array of zeros, never filled. -/
def dBackground (tt xs : List K) : List (List K) := tt.map fun _ => xs.map fun _ => 0

/-- The index pair averaged for point `i` and distance `s`
(cryspy/C_item_loop_classes/cl_1_pd_background.py:151-162): a pair that leaves the data on the
left becomes `(0, 0)`, one that leaves it on the right `(n-1, n-1)`. -/
def neighbours (n i s : ℕ) : ℕ × ℕ :=
  let p : ℤ × ℤ := ((i : ℤ) - s, (i : ℤ) + s)
  let p := if p.1 < 0 then (0, 0) else p
  let p := if p.2 ≥ n then ((n : ℤ) - 1, (n : ℤ) - 1) else p
  (p.1.toNat, p.2.toNat)

/-- The average over the neighbours of point `i`
(cryspy/C_item_loop_classes/cl_1_pd_background.py:164-167). -/
def neighbourMean (y : List K) (stepN i : ℕ) : K :=
  ((List.range stepN).map fun s =>
    let p := neighbours y.length i (s + 1)
    y[p.1]?.getD 0 + y[p.2]?.getD 0).sum / (2 * stepN)

/-- One pass over all points; `clip` keeps every new value from exceeding the old one
(cryspy/C_item_loop_classes/cl_1_pd_background.py:149-173). -/
def smooth (stepN : ℕ) (clip : Bool) (y : List K) : List K :=
  let new := (List.range y.length).map (neighbourMean y stepN)
  if clip then (new.zip y).map fun p => if p.1 > p.2 then p.2 else p.1 else new

/-- `estimate_background` (cryspy/C_item_loop_classes/cl_1_pd_background.py:137-175): 99 clipped
passes and one unclipped. -/
def estimateBackground (y : List K) (stepN : ℕ) : List K :=
  smooth stepN false ((smooth stepN true)^[99] y)

end Cryspy.Bkg
