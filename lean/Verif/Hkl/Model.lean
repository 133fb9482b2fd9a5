import Verif.Sf.Props2
import Mathlib.Data.List.ProdSigma

/-!
# The list of reflections of a powder pattern

`calc_index_hkl_multiplicity_in_range`, structure_factor.py:1067-1102.
-/

namespace Cryspy.Hkl

open Symm Sf Real

/-- `int(x)` of a float: truncation towards zero, structure_factor.py:1069-1071. -/
noncomputable def pyInt (x : ℝ) : ℤ := if 0 ≤ x then ⌊x⌋ else ⌈x⌉

/-- `numpy.arange(-m, m+1, 1)`, structure_factor.py:1073-1075. -/
def symRange (m : ℤ) : List ℤ := (List.range (2 * m + 1).toNat).map fun i : ℕ => -m + (i : ℤ)

/-- `meshgrid(..., indexing="ij")` flattened and stacked, structure_factor.py:1069-1079. -/
noncomputable def box (uc : Fin 6 → ℝ) (smax : ℝ) : List V3 :=
  (symRange (pyInt (2 * uc 0 * smax)) ×ˢ (symRange (pyInt (2 * uc 1 * smax)) ×ˢ symRange (pyInt (2 * uc 2 * smax)))).map
    fun p => ![p.1, p.2.1, p.2.2]

/-- `label_hkl_equivalent`, structure_factor.py:1082. -/
def label (v : V3) : ℤ := 1000000 * v 0 + 1000 * v 1 + v 2

/-- `calc_sthovl_by_unit_cell_parameters` for integer indices, structure_factor.py:1093. -/
noncomputable def sthovl (uc : Fin 6 → ℝ) (v : V3) : ℝ := Cell.calc_sthovl (hklR v) uc

/-- What `numpy.argsort` leaves open: which of several largest labels comes last (structure_factor.py:1083-1084) and the
order of reflections with the same `sin θ/λ` (structure_factor.py:1095-1098).  Every choice that sorts is allowed. -/
structure Choices (uc : Fin 6 → ℝ) where
  pick : List V3 → V3
  pick_mem : ∀ l, l ≠ [] → pick l ∈ l
  pick_max : ∀ l, ∀ v ∈ l, label v ≤ label (pick l)
  sort : List (V3 × ℕ) → List (V3 × ℕ)
  sort_perm : ∀ l, (sort l).Perm l
  sort_sorted : ∀ l, (sort l).Pairwise fun p q => sthovl uc p.1 ≤ sthovl uc q.1

/-- `numpy.unique(..., axis=1, return_counts=True)`, structure_factor.py:1085.  The order of the result is not modelled:
it is sorted afterwards. -/
def uniqueCounts (l : List V3) : List (V3 × ℕ) := l.dedup.map fun v => (v, l.count v)

open Classical in
/-- `calc_index_hkl_multiplicity_in_range`, structure_factor.py:1067-1102: the reflections with their multiplicities.
`numpy.isclose(pr_3, 0.)` is `|pr_3| ≤ 10⁻⁸`. -/
noncomputable def indexHkl (uc : Fin 6 → ℝ) (c : Choices uc) (smin smax : ℝ) (reduced : List Elem) (trans : List Shift)
    (centro : Bool) : List (V3 × ℕ) :=
  let reps := (box uc smax).map fun h => c.pick (equivReflections h reduced centro)
  let kept := (uniqueCounts reps).filter fun p => !decide (‖pr3 p.1 trans‖ ≤ 1 / 10 ^ 8)
  (c.sort kept).filter fun p => decide (smin ≤ sthovl uc p.1) && decide (sthovl uc p.1 ≤ smax)

end Cryspy.Hkl
