import Mathlib.Data.Int.GCD
import Mathlib.Algebra.GCDMonoid.Nat
import Mathlib.Data.List.Sort
import Mathlib.Data.List.Dedup
import Mathlib.Data.List.ProdSigma
import Mathlib.Data.Matrix.Basic

/-!
# Model of A_functions_base/symmetry_elements.py, symmetry_constraints.py and the rational helpers of
function_2_sym_elems.py

A column of `symm_elems` is `[numerator_x, numerator_y, numerator_z, denominator, r_11, ..., r_33]`.
Arrays over many elements / points are modelled pointwise and as lists.  numpy's `//` and `mod` on
integers are floor division; all divisors are positive in the theorems, where they agree with
Lean's `/` and `%` on `ℤ`.
-/

namespace Cryspy.Symm

/-- Integer triples. -/
abbrev V3 := Fin 3 → ℤ

/-- Integer 3x3 matrices. -/
abbrev M3 := Fin 3 → Fin 3 → ℤ

/-- One column of `symm_elems`, symmetry_elements.py:4-8. -/
structure Elem where
  bn : V3
  bd : ℤ
  r : M3

/-- Translation part: first four rows, `[numerator_x, numerator_y, numerator_z, denominator]`. -/
structure Shift where
  n : V3
  d : ℤ

def Elem.shift (e : Elem) : Shift := ⟨e.bn, e.bd⟩

/-- `apply_symm_elems_to_index_xyz`, symmetry_elements.py:215-231. -/
def applyIndex (e : Elem) (p n : V3) : V3 := fun k =>
  (e.r k 0 * p 0 + e.r k 1 * p 1 + e.r k 2 * p 2 + e.bn k * (n k / e.bd)) % n k

/-- `calc_symm_flags` for an atom given by its position only (4 rows),
symmetry_elements.py:30-89: `(R_s - E) x_a + b_s` is an integer vector. The position is
`xn / xd`. -/
def symmFlag (e : Elem) (x : Shift) : Bool :=
  let rse : M3 := fun i j => if i = j then e.r i j - 1 else e.r i j
  let p1 : V3 := fun k =>
    e.bd * (rse k 0 * x.n 0 + rse k 1 * x.n 1 + rse k 2 * x.n 2) + x.d * e.bn k
  decide (p1 0 % (e.bd * x.d) = 0) && (decide (p1 1 % (e.bd * x.d) = 0) &&
    decide (p1 2 % (e.bd * x.d) = 0))

/-- `calc_multiplicity_by_atom_symm_elems`, symmetry_elements.py:92-101, for one atom. -/
def multiplicity (G : List Elem) (x : Shift) : ℕ := G.length / (G.countP (symmFlag · x))

/-- `value_index = n_c*n_b*i_a + n_c*i_b + i_c`, symmetry_elements.py:135. -/
def valueIndex (n p : V3) : ℤ := n 2 * n 1 * p 0 + n 2 * p 1 + p 2

/-- `meshgrid(arange(n_a), arange(n_b), arange(n_c), indexing="ij")` flattened in C order,
symmetry_elements.py:118-121. -/
def gridPoints (na nb nc : ℕ) : List V3 :=
  (List.range na).flatMap fun (a : ℕ) => (List.range nb).flatMap fun (b : ℕ) =>
    (List.range nc).map fun (c : ℕ) =>
    ![(a : ℤ), (b : ℤ), (c : ℤ)]

/-- Smallest value index among the images of a point: `sort(...)[:, 0]`, symmetry_elements.py:135-139. -/
def minImage (G : List Elem) (n p : V3) : Option ℤ :=
  (G.map fun e => valueIndex n (applyIndex e p n)).min?

/-- `numpy.unique(l, return_index=True, return_counts=True)` without the values:
(index of first occurrence, count) for each distinct value in increasing order. -/
def npUnique (l : List ℤ) : List (ℕ × ℕ) :=
  ((l.dedup).mergeSort (· ≤ ·)).map fun v => (l.idxOf v, l.count v)

/-- `calc_asymmetric_unit_cell_indexes`, symmetry_elements.py:104-143 (the same function is repeated in
function_2_mem.py).  `none` is the `KeyError` for a grid that the denominators do not divide, or the
failure of `[:, 0]` on an empty list of elements. Result: representative points with counts. -/
def asymUnit (G : List Elem) (na nb nc : ℕ) : Option (List (V3 × ℕ)) :=
  let n : V3 := ![(na : ℤ), (nb : ℤ), (nc : ℤ)]
  if G.all (fun e => decide (∀ k, n k % e.bd = 0)) then
    if G.isEmpty then none
    else
      let pts := gridPoints na nb nc
      let mins := pts.filterMap (minImage G n)
      some ((npUnique mins).filterMap fun ic => (pts[ic.1]?).map fun p => (p, ic.2))
  else none

/-- `sum_elem_symm_b`, symmetry_elements.py:146-156: the *minimum* of the three gcds is divided out. -/
def sumElemSymmB (b1 b2 : Shift) : Shift :=
  let num : V3 := fun k => b1.n k * b2.d + b2.n k * b1.d
  let den : ℤ := b1.d * b2.d
  let g : ℤ := min (min (Int.gcd (num 0) den) (Int.gcd (num 1) den)) (Int.gcd (num 2) den)
  ⟨fun k => num k / g, den / g⟩

/-- `sum_b_elems`, symmetry_elements.py:234-245. -/
def sumB (b1 b2 : Shift) : Shift :=
  let dc : ℤ := Int.lcm b1.d b2.d
  let c1 := dc / b1.d
  let c2 := dc / b2.d
  let s : V3 := fun k => (b1.n k * c1 + b2.n k * c2) % dc
  let g : ℤ := Int.gcd (Int.gcd (Int.gcd (s 0) (s 1)) (s 2)) dc
  ⟨fun k => s k / g, dc / g⟩

/-- Product of 3x3 matrices, as `calc_m1_m2` (matrix_operations.py) writes it out. -/
def mmul (a b : M3) : M3 := fun i j =>
  a i 0 * b 0 j + a i 1 * b 1 j + a i 2 * b 2 j

/-- `calc_m_v`. -/
def mvec (a : M3) (v : V3) : V3 := fun i => a i 0 * v 0 + a i 1 * v 1 + a i 2 * v 2

/-- `calc_full_mag_elems` for one operation and one centring element without the time-reversal sign, symmetry_elements.py:159-184. -/
def fullMag (o c : Elem) : Elem :=
  let s := sumElemSymmB ⟨mvec c.r o.bn, o.bd⟩ c.shift
  ⟨s.n, s.d, mmul o.r c.r⟩

/-- `calc_full_mag_elems`: all pairs, operations outer, centrings inner (C-order reshape); the
time-reversal signs are multiplied, symmetry_elements.py:159-184. -/
def fullMagElems (os cs : List (Elem × ℤ)) : List (Elem × ℤ) :=
  os.flatMap fun o => cs.map fun c => (fullMag o.1 c.1, o.2 * c.2)

/-- `calc_full_symm_elems_by_reduced`, symmetry_elements.py:248-268: for each translation the reduced
elements with the translation added; then, if centrosymmetric, their inversions about the centre. -/
def fullByReduced (reduced : List Elem) (centro : Bool) (centre : Shift) (trans : List Shift) : List Elem :=
  let fseA := trans.flatMap fun te => reduced.map fun e =>
    let s := sumB e.shift te
    ⟨s.n, s.d, e.r⟩
  if centro then
    let dcp : Shift := ⟨fun k => 2 * centre.n k, centre.d⟩
    fseA ++ fseA.map fun e =>
      let s := sumB dcp ⟨fun k => -1 * e.bn k, e.bd⟩
      ⟨s.n, s.d, fun i j => -1 * e.r i j⟩
  else fseA

/-- Image of a reflection under one element, `h R` written out, symmetry_elements.py:278-281. -/
def hklImage (r : M3) (h : V3) : V3 := fun k =>
  r 0 k * h 0 + r 1 k * h 1 + r 2 k * h 2

/-- `calc_equivalent_reflections`, symmetry_elements.py:271-285. -/
def equivReflections (h : V3) (G : List Elem) (centro : Bool) : List V3 :=
  let l := G.map fun e => hklImage e.r h
  if centro then l ++ l.map (fun v => fun k => -1 * v k) else l

/-- `calc_numerators_and_common_denominator` on a list of (numerator, denominator),
function_2_sym_elems.py:145-165. -/
def commonDenominator (l : List (ℤ × ℤ)) : List ℤ × ℤ :=
  let dc : ℤ := l.foldl (fun a p => (Int.lcm a p.2 : ℤ)) 1
  (l.map fun p => p.1 * (dc / p.2), dc)

/-- `calc_rational_sum`, function_2_sym_elems.py:168-179. -/
def rationalSum (l : List (ℤ × ℤ)) : ℤ × ℤ :=
  let c := commonDenominator l
  let s := c.1.sum
  let g : ℤ := Int.gcd s c.2
  (s / g, c.2 / g)

end Cryspy.Symm
