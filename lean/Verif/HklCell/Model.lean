import Verif.Hkl.Props

/-!
# Reflections listed by the crystal

`Crystal.calc_hkl` and `Crystal.calc_hkl_in_range` (E_data_classes/cl_1_crystal.py:332-375) are `Cell.calc_hkl` and `Cell.calc_hkl_in_range`
(C_item_loop_classes/cl_1_cell.py:379-459); `SpaceGroup.calc_hkl_equiv` is C_item_loop_classes/cl_2_space_group.py:411-433.  Numbers are real.
-/

namespace Cryspy.HklCell

open Symm Sf Real Hkl

/-- `range(0, m+1, 1)`, cl_1_cell.py:391, 408 -/
def halfRange (m : ℤ) : List ℤ := (List.range (m + 1).toNat).map fun i : ℕ => (i : ℤ)

/-- the three loops, lines 387-391, 408-410 -/
noncomputable def halfBox (uc : Fin 6 → ℝ) (smax : ℝ) : List V3 :=
  (halfRange (pyInt (2 * uc 0 * smax)) ×ˢ (symRange (pyInt (2 * uc 1 * smax)) ×ˢ symRange (pyInt (2 * uc 2 * smax)))).map
    fun p => ![p.1, p.2.1, p.2.2]

/-- the key of line 415 -/
def key (v : V3) : ℤ := 10000 * v 0 + 100 * v 1 + v 2

/-- the sum of line 411; `space_group.shift` are the translations of the centring -/
noncomputable def shiftSum (h : V3) (trans : List Shift) : ℂ :=
  (trans.map fun t => Complex.exp (2 * π * Complex.I * ((t.val 0 * h 0 + t.val 1 * h 1 + t.val 2 * h 2 : ℚ) : ℂ))).sum

/-- lines 413-414: the images by the reduced operations and their opposites -/
def images (h : V3) (reduced : List Elem) : List V3 := equivReflections h reduced true

/-- `lhkls.sort(key=...)` is stable, `lhkls[-1]` (an empty list, which raises, is not modelled), lines 415-416 -/
def last (l : List V3) : V3 := (l.mergeSort fun a b => decide (key a ≤ key b)).getLastD 0

open Classical in
/-- one turn of the loop, lines 411-418 -/
noncomputable def step (reduced : List Elem) (trans : List Shift) (acc : List (V3 × ℕ)) (h : V3) : List (V3 × ℕ) :=
  if ‖shiftSum h trans‖ > 1 / 10 ^ 5 then
    let l := images h reduced
    if last l ∈ acc.map Prod.fst then acc else acc ++ [(last l, l.dedup.length)]
  else acc

open Classical in
/-- `Cell.calc_hkl`, lines 379-431: the reflections with their multiplicities -/
noncomputable def calcHkl (uc : Fin 6 → ℝ) (smin smax : ℝ) (reduced : List Elem) (trans : List Shift) : List (V3 × ℕ) :=
  let l := (halfBox uc smax).foldl (step reduced trans) []
  (l.mergeSort fun p q => decide (sthovl uc p.1 ≤ sthovl uc q.1)).filter
    fun p => decide (sthovl uc p.1 > smin) && decide (sthovl uc p.1 < smax)

/-- What `numpy.argsort` leaves open in line 458: the order of reflections with the same `sin θ/λ`.  Every choice that sorts is allowed. -/
structure Order (uc : Fin 6 → ℝ) where
  sort : List V3 → List V3
  sort_perm : ∀ l, (sort l).Perm l
  sort_sorted : ∀ l, (sort l).Pairwise fun p q => sthovl uc p ≤ sthovl uc q

open Classical in
/-- `Cell.calc_hkl_in_range`, lines 433-459 -/
noncomputable def calcHklInRange (uc : Fin 6 → ℝ) (o : Order uc) (smin smax : ℝ) : List (V3 × ℕ) :=
  (o.sort ((box uc smax).filter fun v => decide (sthovl uc v ≥ smin) && decide (sthovl uc v ≤ smax))).map fun v => (v, 1)

/-- `calc_hkl_equiv`, cl_2_space_group.py:411-433: the distinct images (their order is not modelled) and the number called multiplicity -/
def calcHklEquiv (reduced : List Elem) (h : V3) : List V3 × ℤ :=
  let s := images h reduced
  (s.dedup, round ((s.length : ℚ) / s.dedup.length))

end Cryspy.HklCell
