import Mathlib.Data.Rat.Floor
import Mathlib.Algebra.Order.Floor.Ring
import Mathlib.Data.Fin.VecNotation

/-!
# Wyckoff positions: is a point on a special position?

Model of `is_solution_a_b`, `is_good_for_mask` (A_functions_base/function_2_space_group.py:1425-1491) and of
the methods of `SpaceGroupWyckoff` / `SpaceGroupWyckoffL` that use them
(C_item_loop_classes/cl_1_space_group_wyckoff.py).  The code works with Python fractions, so the
numbers are rationals and the arithmetic is exact.
-/

namespace Cryspy.Wyck

/-- A row of coefficients, a column of numbers. -/
abbrev V := Fin 3 → ℚ

/-- `x % 1` for fractions. -/
def mod1 (x : ℚ) : ℚ := x - ⌊x⌋

/-- The column of the first non-zero coefficient that is not excluded
(`one_line`, function_2_space_group.py:1437-1447). -/
def pivot (a : V) (excl : List (Fin 3)) : Option (Fin 3) :=
  (List.finRange 3).find? fun i => !decide (i ∈ excl) && decide (a i ≠ 0)

/-- `one_line` and `devide`, function_2_space_group.py:1425-1448: the equation divided by the
coefficient at the pivot, unchanged if there is none. -/
def oneLine (a : V) (b : ℚ) (excl : List (Fin 3)) : V × ℚ × Option (Fin 3) :=
  match pivot a excl with
  | some i => (fun j => a j / a i, b / a i, some i)
  | none => (a, b, none)

/-- One elimination: subtract `a i` times the divided equation, the right side modulo 1
(function_2_space_group.py:1461-1466 and 1473-1475). -/
def eliminate (a : V) (b : ℚ) (i : Fin 3) (a0 : V) (b0 : ℚ) : V × ℚ :=
  (fun j => a j - a i * a0 j, mod1 (b - a i * b0))

/-- The third equation of `is_solution_a_b`, function_2_space_group.py:1480-1485. -/
def step3 (a3 : V) (b3 : ℚ) (excl : List (Fin 3)) : Bool :=
  match (oneLine a3 b3 excl).2.2 with
  | some _ => true
  | none => decide (b3 = 0)

/-- The second equation and what follows, function_2_space_group.py:1470-1485. -/
def step2 (a2 : V) (b2 : ℚ) (a3 : V) (b3 : ℚ) (excl : List (Fin 3)) : Bool :=
  let l2 := oneLine a2 b2 excl
  match l2.2.2 with
  | some i2 =>
    let e := eliminate a3 b3 i2 l2.1 l2.2.1
    step3 e.1 e.2 (excl ++ [i2])
  | none => if b2 = 0 then step3 a3 b3 excl else false

/-- The first equation and what follows, function_2_space_group.py:1456-1485. -/
def step1 (a1 : V) (b1 : ℚ) (a2 : V) (b2 : ℚ) (a3 : V) (b3 : ℚ) : Bool :=
  let l1 := oneLine a1 b1 []
  match l1.2.2 with
  | some i1 =>
    let e2 := eliminate a2 b2 i1 l1.1 l1.2.1
    let e3 := eliminate a3 b3 i1 l1.1 l1.2.1
    step2 e2.1 e2.2 e3.1 e3.2 [i1]
  | none => if b1 = 0 then step2 a2 b2 a3 b3 [] else false

/-- `is_solution_a_b`, function_2_space_group.py:1451-1485. -/
def isSolution (a : Fin 3 → V) (b : V) : Bool :=
  if b 0 = 0 ∧ b 1 = 0 ∧ b 2 = 0 then true
  else step1 (a 0) (mod1 (b 0)) (a 1) (mod1 (b 1)) (a 2) (mod1 (b 2))

/-- The coordinates that a position describes as a function of the parameters `x`, `y`, `z`: rows of
coefficients and offsets (`r`, `b` of `transform_string_to_r_b`). -/
structure Pos where
  r : Fin 3 → V
  b : V

/-- `is_good_for_mask`, function_2_space_group.py:1488-1491. -/
def isGoodForMask (p : Pos) (x : V) : Bool := isSolution p.r fun k => mod1 (x k - p.b k)

/-- One Wyckoff position: multiplicity and the coordinates of all its points (`full_r`, `full_b`). -/
structure Item where
  id : ℕ
  multiplicity : ℕ
  positions : List Pos

/-- `is_valid_for_fract`, C_item_loop_classes/cl_1_space_group_wyckoff.py:107-120, for coordinates that
are fractions (`Fraction(x).limit_denominator(100000)` of the number given by the user). -/
def Item.isValid (w : Item) (x : V) : Bool := w.positions.any fun p => isGoodForMask p x

/-- One step of the search for the smallest multiplicity. -/
def better (best : Option Item) (w : Item) : Option Item :=
  match best with
  | none => some w
  | some v => if w.multiplicity < v.multiplicity then some w else some v

/-- `get_id_for_fract`, C_item_loop_classes/cl_1_space_group_wyckoff.py:263-269: of the positions that
contain the point the first with the smallest multiplicity (`sorted` is stable); `none` is the
exception for an empty list. -/
def getFor (l : List Item) (x : V) : Option Item :=
  (l.filter (·.isValid x)).foldl better none

/-- The points of `calc_xyz_mult`, C_item_loop_classes/cl_2_space_group.py:434-466: the coordinates of the
atom are put for the parameters `x`, `y`, `z` of the position. -/
def xyzMult (l : List Item) (x : V) : Option (List V × ℕ) :=
  (getFor l x).map fun w =>
    (w.positions.map fun p => fun k => mod1 (p.r k 0 * x 0 + p.r k 1 * x 1 + p.r k 2 * x 2 + p.b k), w.multiplicity)

end Cryspy.Wyck
