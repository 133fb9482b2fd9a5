import Verif.Bkg.Model
import Mathlib.Algebra.Order.Floor.Defs
import Mathlib.Algebra.Order.Round
import Mathlib.Analysis.SpecialFunctions.Trigonometric.Basic

/-!
# Backgrounds on a detector area and in cosines, and interpolation of a density

Model of `calc_background` of the two-dimensional refinement, of the background in cosines of the
time-of-flight experiment and of `tri_linear_interpolation`.
-/

namespace Cryspy.Bkg

section area
variable {K : Type*} [Field K] [LinearOrder K]

/-- The node positions after the two extensions, and which of them took place
(cryspy/procedure_rhochi/rhochi_pd2d.py:41-47 for gamma, 49-55 for nu). -/
def extendPositions (g p : List K) : Option (Bool × Bool × List K) := do
  let gMin ← g.min?
  let pMin ← p.min?
  let left := decide (gMin < pMin)
  let p1 := if left then gMin :: p else p
  let gMax ← g.max?
  let pMax ← p1.max?
  let right := decide (gMax ≥ pMax)
  some (left, right, if right then p1 ++ [gMax + 1 / 1000] else p1)

/-- The first entry repeated in front, the last one repeated behind: `numpy.insert(signal_p, 0,
signal_p[0,:])` and `numpy.append(signal_p, signal_p[-1:,:])`
(cryspy/procedure_rhochi/rhochi_pd2d.py:43-55). -/
def extendValues {β : Type*} (left right : Bool) (v : List β) : Option (List β) := do
  let v1 ← if left then v.head?.map (· :: v) else some v
  if right then v1.getLast?.map (fun x => v1 ++ [x]) else some v1

/-- One entry of the bilinear formula (cryspy/procedure_rhochi/rhochi_pd2d.py:75-86). -/
def bilinear (gaP nuP : List K) (signal : List (List K)) (ga nu : K) (i j : ℕ) : Option K := do
  let g1 ← gaP[i]?
  let g2 ← gaP[i+1]?
  let n1 ← nuP[j]?
  let n2 ← nuP[j+1]?
  let f11 ← (← signal[i]?)[j]?
  let f12 ← (← signal[i]?)[j+1]?
  let f21 ← (← signal[i+1]?)[j]?
  let f22 ← (← signal[i+1]?)[j+1]?
  let c11 := (g2 - ga) * (n2 - nu)
  let c12 := (g2 - ga) * (nu - n1)
  let c21 := (ga - g1) * (n2 - nu)
  let c22 := (ga - g1) * (nu - n1)
  let denom := (g2 - g1) * (n2 - n1)
  some ((c11 * f11 + c12 * f12 + c21 * f21 + c22 * f22) / denom)

/-- `calc_background` (cryspy/procedure_rhochi/rhochi_pd2d.py:28-87): the value at every pair of
measured angles. -/
def calcBackground2d (ga nu gaNodes nuNodes : List K) (signal : List (List K)) :
    Option (List (List K)) := do
  let (gl, gr, gaP) ← extendPositions ga gaNodes
  let s1 ← extendValues gl gr signal
  let (nl, nr, nuP) ← extendPositions nu nuNodes
  let s2 ← s1.mapM (extendValues nl nr)
  let ig := ga.flatMap (columns gaP)
  let jn := nu.flatMap (columns nuP)
  if ig.length ≠ ga.length ∨ jn.length ≠ nu.length then none
  else (ga.zip ig).mapM fun a => (nu.zip jn).mapM fun b => bilinear gaP nuP s2 a.1 b.1 a.2 b.2

/-- The reported derivative of the background over the node `(k, l)`
(cryspy/procedure_rhochi/rhochi_pd2d.py:88-94): `dder_b[:, :, A, B] += X[na, na, :, :]` adds the same
number for every measured point (the first two indices), and with repeated indices only the last
addition of each of the four statements survives.  `A`, `B` are the lower interval indices of the
measured points; the result does not depend on the measured point at all. -/
def dBackground2d (ga nu gaP nuP : List K) (ig jn : List ℕ) (k l : ℕ) : K :=
  let last (di dj : ℕ) (w : K → K → K → K → K → K → K) : K :=
    (((ga.zip ig).flatMap fun a => (nu.zip jn).map fun b => (a, b)).filter
        (fun q => q.1.2 + di == k && q.2.2 + dj == l)).getLast?.elim 0 fun q =>
      let g1 := gaP[q.1.2]?.getD 0
      let g2 := gaP[q.1.2 + 1]?.getD 0
      let n1 := nuP[q.2.2]?.getD 0
      let n2 := nuP[q.2.2 + 1]?.getD 0
      w g1 g2 n1 n2 q.1.1 q.2.1 / ((g2 - g1) * (n2 - n1))
  last 0 0 (fun _ g2 _ n2 g n => (g2 - g) * (n2 - n)) +
    last 0 1 (fun _ g2 n1 _ g n => (g2 - g) * (n - n1)) +
    last 1 0 (fun g1 _ _ n2 g n => (g - g1) * (n2 - n)) +
    last 1 1 (fun g1 _ n1 _ g n => (g - g1) * (n - n1))

end area

section cosines

/-- `calc_background_by_cosines` with its default `x_min = 0`, at the point `x` of the measured
times `xs` (cryspy/procedure_rhochi/rhochi_tof.py:37-50): the period is set by the largest measured
time, because the caller (rhochi_tof.py:152) passes no `x_max`. -/
noncomputable def calcCosines (xs coefficients : List ℝ) (x : ℝ) : ℝ :=
  let xMax := xs.max?.getD 0
  (coefficients.zipIdx.map fun c => c.1 * Real.cos (c.2 * ((x - 0) / xMax * Real.pi))).sum

/-- The reported derivative over the coefficient with index `k`
(cryspy/procedure_rhochi/rhochi_tof.py:43-49). -/
noncomputable def dCosines (xs : List ℝ) (k : ℕ) (x : ℝ) : ℝ :=
  Real.cos (k * ((x - 0) / xs.max?.getD 0 * Real.pi))

/-- `TOFBackground.calc_background`
(cryspy/C_item_loop_classes/cl_1_tof_background.py:88-162): `coeff` holds `coeff1 … coeff18`, `none`
for an attribute that is not set (the first is mandatory). -/
noncomputable def tofBackground (timeMax : ℝ) (coeff : List (Option ℝ)) (x : ℝ) : ℝ :=
  (coeff.zipIdx.map fun c =>
    match c.1 with
    | some v => v * Real.cos (c.2 * (x / timeMax * Real.pi))
    | none => 0).sum

/-- `TOFBackground.get_coefficients`
(cryspy/C_item_loop_classes/cl_1_tof_background.py:164-179): unset coefficients become zero and those
after the last set one are dropped (at least one stays). -/
noncomputable def getCoefficients (coeff : List (Option ℝ)) : List ℝ :=
  let lastNumber := coeff.zipIdx.foldl (fun n c => if c.1.isSome then c.2 + 1 else n) 1
  (coeff.map (·.getD 0)).take lastNumber

end cosines

section trilinear
variable {K : Type*} [Field K] [LinearOrder K] [FloorRing K]

/-- `tri_linear_interpolation` at one point, for a grid of `n` points per axis
(cryspy/A_functions_base/function_1_matrices.py:506-562).  `den` gives the density at a grid point. -/
def triLinear (n : Fin 3 → ℕ) (den : ℕ → ℕ → ℕ → K) (x y z : K) : K :=
  let ix0 := Int.floor x
  let ix1 := ix0 + 1
  let iy0 := Int.floor y
  let iy1 := iy0 + 1
  let iz0 := Int.floor z
  let iz1 := iz0 + 1
  let xd := (x - ix0) / ((ix1 : K) - ix0)
  let yd := (y - iy0) / ((iy1 : K) - iy0)
  let zd := (z - iz0) / ((iz1 : K) - iz0)
  let at_ (i j k : ℤ) : K := den (i % n 0).toNat (j % n 1).toNat (k % n 2).toNat
  let c00 := at_ ix0 iy0 iz0 * (1 - xd) + at_ ix1 iy0 iz0 * xd
  let c01 := at_ ix0 iy0 iz1 * (1 - xd) + at_ ix1 iy0 iz1 * xd
  let c10 := at_ ix0 iy1 iz0 * (1 - xd) + at_ ix1 iy1 iz0 * xd
  let c11 := at_ ix0 iy1 iz1 * (1 - xd) + at_ ix1 iy1 iz1 * xd
  let c0 := c00 * (1 - yd) + c10 * yd
  let c1 := c01 * (1 - yd) + c11 * yd
  c0 * (1 - zd) + c1 * zd

end trilinear

end Cryspy.Bkg
