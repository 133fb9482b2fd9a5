import Mathlib.Data.Rat.Defs
import Mathlib.Algebra.Order.Field.Rat
import Mathlib.Algebra.BigOperators.Group.List.Basic

/-!
# Density on the points of the asymmetric unit: normalisation and flat start

Arrays over the points are lists; numbers are exact rationals.  A division by zero raises (`none`) where Python floats are divided; where a
numpy array is divided the result would be NaN, the model gives zero there and the theorems exclude the case.
-/

namespace Cryspy.Mem

/-- a point of the asymmetric unit: label of the closest atom, number of points of its orbit, density -/
structure Pt where
  label : List Char
  mult : ℚ
  den : ℚ

/-- `(density*multiplicity).sum()` -/
def total (l : List Pt) : ℚ := (l.map fun p => p.den * p.mult).sum

/-- the points of a basin, `l[flag]` -/
def basin (a : List Char) (l : List Pt) : List Pt := l.filter fun p => p.label = a

/-! ## mempy.py -/

/-- `renormailize_density_col` for one channel, A_functions_base/mempy.py:134-140 -/
def renormCol (volume points : ℚ) (l : List Pt) : List Pt :=
  let coeff := points / volume
  l.map fun p => { p with den := coeff * p.den / total l }

/-- `get_uniform_density_col`, A_functions_base/mempy.py:143-147 -/
def uniformCol (volume points : ℚ) (l : List Pt) : List Pt := renormCol volume points (l.map fun p => { p with den := 1 })

/-- a point with the multiplicity of its atom -/
structure PtA extends Pt where
  amult : ℚ

/-- `numpy.sum(prod_den_mult, where=flag_1d)`, mempy.py:157-163 -/
def atomTotal (a : List Char) (l : List PtA) : ℚ :=
  ((l.filter fun p => p.label = a).map fun p => p.den * p.mult / p.amult).sum

/-- `renormailize_density_chi`, A_functions_base/mempy.py:150-166: the loop over the labels that occur; the sums are those of the density
handed over -/
def renormChi (volume points : ℚ) (l : List PtA) : Option (List PtA) :=
  let coeff := points / volume
  (l.map fun p => p.label).dedup.foldlM (fun (cur : List PtA) a =>
    if atomTotal a l = 0 then none
    else some (cur.map fun p => if p.label = a then { p with den := p.den * (coeff / atomTotal a l) } else p)) l

/-! ## DensityPointL -/

/-- a density point set: density per atom, and the two channels of the background -/
structure Cloud where
  atoms : List Pt
  ferro : List Pt
  anti : List Pt

/-- one atom in the loop of `renormalize_numpy_densities`, C_item_loop_classes/cl_3_density_point.py:1092-1102.  The label of a structured array
`"U10"` keeps ten characters.  An empty basin has nothing to change. -/
def renormAtom (coeff : ℚ) (l : List Pt) (at' : List Char × ℚ) : List Pt :=
  let a := at'.1.take 10
  let mAt := total (basin a l) * coeff
  let w := ((basin a l).map (·.mult)).sum
  let l' := if mAt = 0 then l.map fun p => if p.label = a then { p with den := at'.2 / (coeff * w) } else p else l
  let mAt' := if mAt = 0 then at'.2 else mAt
  l'.map fun p => if p.label = a then { p with den := p.den * (at'.2 / mAt') } else p

/-- `renormalize_numpy_densities`, C_item_loop_classes/cl_3_density_point.py:1069-1102 -/
def renormalize (volume points : ℚ) (atoms : List (List Char × ℚ)) (two : Bool) (c : Cloud) : Cloud :=
  let coeff := volume / points
  { ferro := c.ferro.map fun p => { p with den := p.den / (total c.ferro * coeff) }
    anti := c.anti.map fun p => { p with den := p.den / (total c.anti * coeff) }
    atoms := if two then c.atoms else atoms.foldl (renormAtom coeff) c.atoms }

/-- the first loop of `set_flat_density`, cl_3_density_point.py:318-332 -/
def flatAtom (volume points : ℚ) (l : List Pt) (at' : List Char × ℚ) : List Pt :=
  let a := at'.1.take 10
  let w := ((basin a l).map (·.mult)).sum
  if w == 0 then l else l.map fun p => if p.label = a then { p with den := points * at'.2 / (w * volume) } else p

/-- `set_flat_density`, C_item_loop_classes/cl_3_density_point.py:307-355; `none` is the division by zero when no point belongs to the
background -/
def setFlat (volume points : ℚ) (atoms : List (List Char × ℚ)) (magnetic : List (List Char)) (two : Bool) (pts : List Pt) : Option Cloud :=
  let zero := pts.map fun p => { p with den := 0 }
  let den := atoms.foldl (flatAtom volume points) zero
  let back (p : Pt) : Bool := two || !(magnetic.contains p.label)
  let w := ((pts.filter back).map (·.mult)).sum
  if w * volume = 0 then none
  else
    let b := pts.map fun p => { p with den := if back p then points / (w * volume) else 0 }
    some (renormalize volume points atoms two ⟨den, b, b⟩)

/-- electrons of a density per cell, as `calc_electrons_per_unit_cell` counts them, cl_3_density_point.py:1032-1067 -/
def electrons (volume points : ℚ) (l : List Pt) : ℚ := total l * (volume / points)

end Cryspy.Mem
