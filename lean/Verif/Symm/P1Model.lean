import Verif.Symm.Model

/-!
# Model of `transform_to_p1`, A_functions_base/function_2_sym_elems.py:182-323
-/

namespace Cryspy.Symm

/-- Index of the image of grid point `p` under element `e` followed by the shift `s`,
function_2_sym_elems.py:266-299. -/
def p1Index (n : V3) (e : Elem) (s : Shift) (p : V3) : V3 :=
  let den : ℤ := Int.lcm (Int.lcm (n 0) (n 1)) (n 2)
  let num : V3 := fun k => p k * den / n k
  let denNew := e.bd * den
  fun k =>
    let numNew := (e.r k 0 * num 0 + e.r k 1 * num 1 + e.r k 2 * num 2) * e.bd + e.bn k * den + s.n k * denNew / s.d
    (numNew * n k / denNew) % n k

/-- `(-1*ind) % denom`, function_2_sym_elems.py:301-307. -/
def p1Neg (n : V3) (p : V3) : V3 := fun k => (-1 * p k) % n k

/-- The images with their densities before `numpy.unique`, in the order of the flattened arrays: point,
then element (direct, then inverted), then shift. -/
def p1List {D : Type} (n : V3) (G : List Elem) (T : List Shift) (centro : Bool) (pts : List (V3 × D)) : List (V3 × D) :=
  pts.flatMap fun pd =>
    let direct := G.flatMap fun e => T.map fun s => p1Index n e s pd.1
    (if centro then direct ++ direct.map (p1Neg n) else direct).map fun q => (q, pd.2)

/-- Lexicographic order of columns. -/
def lexLe (p q : V3) : Bool :=
  decide (p 0 < q 0 ∨ p 0 = q 0 ∧ (p 1 < q 1 ∨ p 1 = q 1 ∧ p 2 ≤ q 2))

/-- `numpy.unique(..., return_index=True, axis=1)` and the densities at the first occurrences,
function_2_sym_elems.py:321-323. -/
def uniqueFirst {D : Type} (l : List (V3 × D)) : List (V3 × D) :=
  (((l.map (·.1)).dedup).mergeSort lexLe).filterMap fun q => (l.find? (·.1 = q))

/-- `transform_to_p1`; `none` is the `ValueError` for a grid that a denominator does not divide,
function_2_sym_elems.py:236-261. -/
def transformToP1 {D : Type} (n : V3) (G : List Elem) (T : List Shift) (centro : Bool) (pts : List (V3 × D)) :
    Option (List (V3 × D)) :=
  if (∀ e ∈ G, ∀ k, n k % e.bd = 0) ∧ (∀ s ∈ T, ∀ k, n k % s.d = 0) then some (uniqueFirst (p1List n G T centro pts))
  else none

end Cryspy.Symm
