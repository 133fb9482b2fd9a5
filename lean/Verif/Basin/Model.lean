import Verif.Gen.UnitCell
import Verif.Symm.Model

/-!
# Nearest atoms and basins, A_functions_base/mempy.py

Model of `calc_index_atom_symmetry_closest_to_fract_xyz` and `form_basins`.  Numbers are reals; one point at a time.  An empty list of
atoms or of operations gives `none`: `numpy.min` over an axis of length zero raises.
-/

namespace Cryspy.Basin

open Symm

/-- `numpy.mod(rr_atom + fract_b, 1.)`, mempy.py:244-252. -/
noncomputable def atomS (e : Elem) (a : Fin 3 → ℝ) : Fin 3 → ℝ := fun k =>
  Int.fract (Mat.calc_m_v (K := ℝ) ![(e.r 0 0 : ℝ), e.r 0 1, e.r 0 2, e.r 1 0, e.r 1 1, e.r 1 2, e.r 2 0, e.r 2 1, e.r 2 2] a k +
    (e.bn k : ℝ) / e.bd)

/-- `diff_fract_1`, mempy.py:257-259, one component. -/
noncomputable def wrap (d : ℝ) : ℝ :=
  if 1 / 2 < |d| then d + (if 0 ≤ d then -1 else 1) else d

/-- `dist_sq_3d`, mempy.py:242, 254-264, for the point `p`, the atom at `a` and the operation `e`. -/
noncomputable def distSq (uc : Fin 6 → ℝ) (p a : Fin 3 → ℝ) (e : Elem) : ℝ :=
  let v := Mat.calc_m_v (Cell.calc_m_m uc) fun k => wrap (Int.fract (p k) - atomS e a k)
  v 0 ^ 2 + v 1 ^ 2 + v 2 ^ 2

/-- `numpy.min` of a list (0 when empty, see the head of the file). -/
noncomputable def minL : List ℝ → ℝ
  | [] => 0
  | x :: l => l.foldl min x

/-- `numpy.argmin`: the first place of the least element. -/
noncomputable def argminL (l : List ℝ) : ℕ :=
  haveI : DecidableEq ℝ := Classical.decEq ℝ
  l.findIdx fun x => decide (x = minL l)

/-- `calc_index_atom_symmetry_closest_to_fract_xyz`, mempy.py:226-272, one point: the index of the atom, the index of the operation,
the distance.  The same steps are in function_2_mem.py:70-143, used by cl_3_density_point.py:281. -/
noncomputable def closest (uc : Fin 6 → ℝ) (atoms : List (Fin 3 → ℝ)) (G : List Elem) (p : Fin 3 → ℝ) : Option (ℕ × ℕ × ℝ) :=
  if atoms.isEmpty || G.isEmpty then none
  else
    let overSym := atoms.map fun a => minL (G.map fun e => distSq uc p a e)
    let overAt := G.map fun e => minL (atoms.map fun a => distSq uc p a e)
    some (argminL overSym, argminL overAt, Real.sqrt (minL overSym))

/-- One atom of the list given to `form_basins`. -/
structure Atom where
  label : String
  pos : Fin 3 → ℝ
  mult : ℕ

/-- The value of `form_basins`: the flags of all points; labels, multiplicities, distances and operations of the flagged ones. -/
structure Basins where
  flags : List Bool
  labels : List String
  mults : List ℕ
  dists : List ℝ
  ops : List Elem

/-- `x[flag]` with an array of booleans. -/
def compress {α : Type} (flags : List Bool) (l : List α) : List α :=
  (flags.zip l).filterMap fun q => if q.1 then some q.2 else none

/-- `form_basins`, mempy.py:274-301; `pts` are the fractional coordinates of the points of the asymmetric unit (lines 280). -/
noncomputable def formBasins (uc : Fin 6 → ℝ) (atoms : List Atom) (G : List Elem) (mag : List String) (pts : List (Fin 3 → ℝ)) :
    Option Basins := do
  let cl ← pts.mapM (closest uc (atoms.map Atom.pos) G)
  let labels ← cl.mapM fun c => (atoms.map Atom.label)[c.1]?
  let mults ← cl.mapM fun c => (atoms.map Atom.mult)[c.1]?
  let ops ← cl.mapM fun c => G[c.2.1]?
  let flags := labels.map fun l => decide (l ∈ mag)
  pure ⟨flags, compress flags labels, compress flags mults, compress flags (cl.map fun c => c.2.2), compress flags ops⟩

end Cryspy.Basin
