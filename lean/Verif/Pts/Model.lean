import Mathlib.Data.Real.Basic
import Mathlib.Analysis.Real.Sqrt
import Mathlib.Analysis.SpecialFunctions.Trigonometric.Basic
import Verif.Gen.Powder

/-!
# Which measured points take part

`get_dictionary` of the powder experiments takes from the measured loop the points within the range and marks the excluded ones.  Numbers are
exact reals, `nan` of a numpy array is `none`.
-/

namespace Cryspy.Pts

open Cryspy.Powder

/-- the ways the methods raise -/
inductive Err
  | attr    -- `AttributeError`
  | type    -- `TypeError`: a number compared with `None`, or a complex number where a float is required
deriving DecidableEq

/-- what an attribute of an item can be: not there, `None` (read from `.` or `?`), or a number; cl_1_item.py:172-175, 216-222, 278-291 -/
inductive Val
  | missing
  | null
  | num (x : ℝ)

/-- `item.is_attribute(name)`, cl_1_item.py:278-291: `None` counts as defined -/
def Val.defined : Val → Bool
  | .missing => false
  | _ => true

/-- `getattr(item, name)` put into a float array: `None` becomes `nan`, cl_1_item.py:172-175, numpy.array(…, dtype=float) -/
def Val.float : Val → Except Err (Option ℝ)
  | .missing => .error .attr
  | .null => .ok none
  | .num x => .ok (some x)

/-- the writing of an attribute with limits, cl_1_item.py:226-238 (`D_MIN`, `D_MAX`) -/
noncomputable def clip (lo hi : ℝ) (x : ℝ) : ℝ :=
  let y := if x < lo then lo else x
  if y > hi then hi else y

/-! ## One measured point -/

/-- an item of `PdMeasL` or `TOFMeasL`, cl_1_pd_meas.py:20-31, cl_1_tof_meas.py; `x` is the attribute `ttheta` or `time` -/
structure Meas where
  x : Val
  plus : Val
  plusS : Val
  minus : Val
  minusS : Val
  int : Val
  intS : Val

/-- `(self.intensity)**0.5` written to a float attribute: the root of a negative number is complex in Python and `float` of it raises; `None**0.5`
raises as well; cl_1_pd_meas.py:80-85 -/
noncomputable def rootVal : Val → Except Err Val
  | .missing => .error .attr
  | .null => .error .type
  | .num x => if x < 0 then .error .type else .ok (.num (√x))

/-- one `if` of `PdMeas.apply_constraints`, cl_1_pd_meas.py:80-85 -/
noncomputable def fill (v s : Val) : Except Err Val :=
  if v.defined && !s.defined then rootVal v else .ok s

/-- `PdMeas.apply_constraints`, cl_1_pd_meas.py:77-85 -/
noncomputable def Meas.applyConstraints (m : Meas) : Except Err Meas := do
  let p ← fill m.plus m.plusS
  let n ← fill m.minus m.minusS
  let s ← fill m.int m.intS
  return { m with plusS := p, minusS := n, intS := s }

/-- `PdMeasL.apply_constraints`, cl_1_pd_meas.py:131-134 -/
noncomputable def applyConstraints (l : List Meas) : Except Err (List Meas) := l.mapM Meas.applyConstraints

/-! ## The dictionary of a pattern -/

/-- an interval of `Range` or an item of `ExcludeL` -/
structure Win where
  lo : Val
  hi : Val

/-- `Range(ttheta_min=…, ttheta_max=…)` or `Exclude(ttheta_min=…, ttheta_max=…)` with numbers, cl_1_range.py:59-64, cl_1_exclude.py:65-70: both
limits are put between 0 and 180 -/
noncomputable def Win.ofTtheta (lo hi : ℝ) : Win := ⟨.num (clip 0 180 lo), .num (clip 0 180 hi)⟩

/-- `array >= value` (`array <= value`): `nan` compares false, `None` raises unless the array is empty -/
noncomputable def cmp (r : ℝ → ℝ → Prop) [∀ a b, Decidable (r a b)] (xs : List (Option ℝ)) : Val → Except Err (List Bool)
  | .missing => .error .attr
  | .null => if xs.isEmpty then .ok [] else .error .type
  | .num v => .ok (xs.map fun x => match x with
      | none => false
      | some x => decide (r x v))

/-- `numpy.logical_and`, `numpy.logical_or` of arrays -/
def band (a b : List Bool) : List Bool := List.zipWith (· && ·) a b
/-- see `band` -/
def bor (a b : List Bool) : List Bool := List.zipWith (· || ·) a b

/-- reading `range_.ttheta_min` and the like raises when it is not there -/
def Val.read : Val → Except Err Unit
  | .missing => .error .attr
  | _ => .ok ()

/-- `numpy.logical_and(x >= lo, x <= hi)`, cl_2_pd.py:164-166, 183-185 -/
noncomputable def inside (xs : List (Option ℝ)) (w : Win) : Except Err (List Bool) := do
  let a ← cmp (· ≥ ·) xs w.lo
  let b ← cmp (· ≤ ·) xs w.hi
  return band a b

/-- `array[flags]` -/
def mask {α : Type} (flags : List Bool) (l : List α) : List α := ((flags.zip l).filter (·.1)).map (·.2)

/-- `numpy.array(pd_meas.name, dtype=float)`, cl_2_loop.py:130-134 -/
def column (l : List Meas) (f : Meas → Val) : Except Err (List (Option ℝ)) := l.mapM fun m => (f m).float

/-- the measured signals of the dictionary -/
inductive Signal
  | pol (plus plusS minus minusS : List (Option ℝ))
  | sum (int intS : List (Option ℝ))

/-- the keys `ttheta` (`time`), `signal_exp…` and `excluded_points` -/
structure PdDict where
  x : List (Option ℝ)
  signal : Signal
  excluded : List Bool

/-- the signals, cl_2_pd.py:169-179, cl_2_tof.py:150-170: plus and minus as soon as `intensity_plus` is defined in all items -/
def signals (flags : List Bool) (l : List Meas) : Except Err Signal :=
  if l.all (·.plus.defined) then do
    let p ← column l (·.plus)
    let ps ← column l (·.plusS)
    let n ← column l (·.minus)
    let ns ← column l (·.minusS)
    return .pol (mask flags p) (mask flags ps) (mask flags n) (mask flags ns)
  else do
    let i ← column l (·.int)
    let s ← column l (·.intS)
    return .sum (mask flags i) (mask flags s)

/-- one turn of the loop over the excluded intervals, cl_2_pd.py:183-187, cl_2_tof.py:174-178 -/
noncomputable def exclStep (xs : List (Option ℝ)) (fl : List Bool) (w : Win) : Except Err (List Bool) := do
  let a ← inside xs w
  return bor fl a

/-- the excluded points, cl_2_pd.py:180-188, cl_2_tof.py:171-179 -/
noncomputable def exclFlags (xs : List (Option ℝ)) (e : Option (List Win)) : Except Err (List Bool) :=
  match e with
  | none => .ok (xs.map fun _ => false)
  | some ws => ws.foldlM (exclStep xs) (xs.map fun _ => false)

/-- the measured part of `Pd.get_dictionary` (`scale = π/180`), cl_2_pd.py:159-188, and of `TOF.get_dictionary` (`scale = 1`), cl_2_tof.py:136-179;
the loop, the range and the excluded intervals are the first objects of their classes -/
noncomputable def points (scale : ℝ) (meas : List Meas) (range : Option Win) (excl : Option (List Win)) : Except Err PdDict := do
  let xs ← column meas (·.x)
  match range with
  | none => .error .attr
  | some w =>
    w.lo.read
    w.hi.read
    let fl ← inside xs w
    let sg ← signals fl meas
    let ex ← exclFlags (mask fl xs) excl
    return ⟨(mask fl xs).map fun x => x.map (· * scale), sg, ex⟩

/-! ## The two-dimensional pattern -/

/-- an item of `ExcludeL` for the two-dimensional pattern -/
structure Win2 where
  gamma : Win
  nu : Win
  ttheta : Win
  phi : Win

/-- is the rectangle in the angles of the detector (in the scattering angles) used: `is_attribute(…)` and not `None`, cl_2_pd2d.py:946-947, 957-958 -/
def Val.isNum : Val → Bool
  | .num _ => true
  | _ => false

/-- rows and columns: `flag_gamma_in_1[:, na] * flag_nu_in_1[na, :]`, cl_2_pd2d.py:954 -/
def outer (a b : List Bool) : List (List Bool) := a.map fun x => b.map fun y => x && y

/-- element by element, for arrays with two indices -/
def zip2 (f : Bool → Bool → Bool) (a b : List (List Bool)) : List (List Bool) := List.zipWith (List.zipWith f) a b

/-- comparing an array with two indices, see `inside`; the arrays `ttheta_in_range` and `phi_in_range` have no `nan` -/
noncomputable def inside2 (xs : List (List ℝ)) (w : Win) : Except Err (List (List Bool)) := do
  w.lo.read
  w.hi.read
  xs.mapM fun row => inside (row.map some) w

/-- one turn of the loop over the excluded rectangles, cl_2_pd2d.py:944-967 -/
noncomputable def exclStep2 (gs ns : List ℝ) (tt ph : List (List ℝ)) (fl : List (List Bool)) (w : Win2) : Except Err (List (List Bool)) := do
  let fl1 ← if w.gamma.lo.isNum then do
      let a ← inside (gs.map some) w.gamma
      let b ← inside (ns.map some) w.nu
      pure (zip2 (· || ·) fl (outer a b))
    else pure fl
  if w.ttheta.lo.isNum then do
      let a ← inside2 tt w.ttheta
      let b ← inside2 ph w.phi
      pure (zip2 (· || ·) fl1 (zip2 (· && ·) a b))
    else pure fl1

/-- `array[flag_gamma_in][:, flag_nu_in]`, cl_2_pd2d.py:926-936 -/
def mask2 {α : Type} (fg fn : List Bool) (m : List (List α)) : List (List α) := (mask fg m).map (mask fn)

/-- the result for the two-dimensional pattern: the two axes, the arrays of the signals, the excluded points -/
structure Pd2dDict where
  gamma : List ℝ
  nu : List ℝ
  signal : List (List (List ℝ))
  excluded : List (List Bool)

/-- the measured part of `Pd2d.get_dictionary`, cl_2_pd2d.py:902-969: `range` holds the limits of the angles `gamma` and `nu`, `og` and `on` are the
offsets in radians; `arrays` are the measured arrays with rows for `gamma` and columns for `nu` (plus, its error, minus, its error; or sum and
error) -/
noncomputable def points2 (gamma nu : List ℝ) (arrays : List (List (List ℝ))) (range : Option (Win × Win)) (excl : Option (List Win2))
    (og on : ℝ) : Except Err Pd2dDict :=
  match range with
  | none => .error .attr
  | some (wg, wn) => do
    let fg ← inside (gamma.map some) wg
    let fn ← inside (nu.map some) wn
    let gs := mask fg gamma
    let ns := mask fn nu
    let tt := gs.map fun g => ns.map fun n => ttheta_by (g * Real.pi / 180 - og) (n * Real.pi / 180 - on) * 180 / Real.pi
    let ph := gs.map fun g => ns.map fun n => phi_by (g * Real.pi / 180 - og) (n * Real.pi / 180 - on) * 180 / Real.pi
    let zero := gs.map fun _ => ns.map fun _ => false
    let ex ← match excl with
      | none => .ok zero
      | some ws => ws.foldlM (exclStep2 gs ns tt ph) zero
    return ⟨gs.map (· * Real.pi / 180), ns.map (· * Real.pi / 180), arrays.map (mask2 fg fn), ex⟩

end Cryspy.Pts
