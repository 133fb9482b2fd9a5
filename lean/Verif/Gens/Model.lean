import Verif.Text.Model
import Mathlib.Data.Matrix.Mul
import Mathlib.Data.Fintype.Pi
import Mathlib.Data.List.OfFn
import Mathlib.LinearAlgebra.Matrix.Notation
import Mathlib.Data.Rat.Floor
import Mathlib.Algebra.BigOperators.Fin

/-!
# Symmetry operations from generators

`SpaceGroupSymop.get_symops_by_generator_xyz`, `SpaceGroupSymopL.create_by_generators_xyz`, `get_coords_xyz_by_coord_xyz` and `get_symop_for_x1_x2`,
C_item_loop_classes/cl_1_space_group_symop.py.  Fractions are exact; a text whose coefficients are not integers is left out of the model (`none`).
-/

namespace Cryspy.Gens

open Cryspy.Text

/-- an operation: rotation (integers) and translation -/
structure Op where
  r : Matrix (Fin 3) (Fin 3) ℤ
  b : Fin 3 → ℚ

instance : DecidableEq Op := fun a b => decidable_of_iff
  ((List.ofFn fun i => List.ofFn fun j => a.r i j) = (List.ofFn fun i => List.ofFn fun j => b.r i j) ∧ List.ofFn a.b = List.ofFn b.b)
  ⟨fun h => by
    obtain ⟨ar, ab⟩ := a
    obtain ⟨br, bb⟩ := b
    congr
    · exact Matrix.ext fun i j => congrFun (List.ofFn_injective (congrFun (List.ofFn_injective h.1) i)) j
    · exact List.ofFn_injective h.2, by rintro rfl; exact ⟨rfl, rfl⟩⟩

/-- `transform_r_b_to_string(r, b, labels=("x", "y", "z"))`, function_1_strings.py:361-363 -/
def write (o : Op) : Str := rbToString ['x', 'y', 'z'] (List.ofFn fun i => (List.ofFn fun j => Num.frac (o.r i j : ℚ), o.b i))

/-- the fields `r` and `b` of what was read -/
def toOp : List (List ℚ × ℚ) → Option Op
  | [([a, b, c], x), ([d, e, f], y), ([g, h, i], z)] =>
    if [a, b, c, d, e, f, g, h, i].all (·.den == 1) then
      some ⟨!![a.num, b.num, c.num; d.num, e.num, f.num; g.num, h.num, i.num], ![x, y, z]⟩
    else none
  | _ => none

/-- `transform_string_to_r_b(s, labels=("x", "y", "z"))`, function_1_strings.py:254-267; cl_1_space_group_symop.py:97-101 -/
def read (s : Str) : Option Op := (stringToRB ['x', 'y', 'z'] s).bind toOp

/-- `W_g·W_i`, `(W_g·w_i + w_g) % 1`, cl_1_space_group_symop.py:171-172, function_2_space_group.py:1327-1348 -/
def mul (g o : Op) : Op := ⟨g.r * o.r, fun i => Int.fract (∑ j, (g.r i j : ℚ) * o.b j + g.b i)⟩

/-- the operation with its translation in the cell, `b % 1`, cl_1_space_group_symop.py:164-165 -/
def norm (o : Op) : Op := ⟨o.r, fun i => Int.fract (o.b i)⟩

/-- the loop, cl_1_space_group_symop.py:168-178: `n` is the number of turns that may still add a text (`i_stop` from 2 to 100) -/
def powers (g : Op) : ℕ → Op → List Str → List Str
  | 0, _, acc => acc
  | n + 1, w, acc =>
    let w' := mul g w
    if write w' ∈ acc then acc else powers g n w' (acc ++ [write w'])

/-- the texts of `get_symops_by_generator_xyz`, cl_1_space_group_symop.py:157-181 -/
def byGenerator (g o : Op) : List Str := powers g 99 (norm o) [write (norm o)]

/-- the inner loop over the items so far, cl_1_space_group_symop.py:223-228 -/
def extend (items : List Str) (gen : Str) : Option (List Str) := do
  let g ← read gen
  let ls ← items.mapM fun t => (read t).map (byGenerator g)
  return ls.flatten

/-- the texts that are not in the list before, cl_1_space_group_symop.py:229-237 -/
def uniq : List Str → List Str → List Str
  | acc, [] => acc
  | acc, t :: ts => if t ∈ acc then uniq acc ts else uniq (acc ++ [t]) ts

/-- `create_by_generators_xyz`, cl_1_space_group_symop.py:203-240: the items with their `id` (written as text there) -/
def create (gens : List Str) : Option (List (ℕ × Str)) := do
  let l ← gens.foldlM extend ["x,y,z".toList]
  return (uniq [] l).mapIdx fun i t => (i + 1, t)

/-- `SpaceGroupSymopL.get_coords_xyz_by_coord_xyz`, cl_1_space_group_symop.py:183-187, 242-261, before the order is lost in the `frozenset` -/
def coords (items : List Op) (coord : Str) : Option (List Str) := do
  let c ← read coord
  return items.flatMap fun g => byGenerator g c

/-- `numpy.mod(x, 1)` of a number, and `numpy.allclose(a, b)` of two vectors -/
def modClose (a b : Fin 3 → ℚ) : Bool :=
  decide (∀ i, |Int.fract (a i) - Int.fract (b i)| ≤ 1 / 10 ^ 8 + 1 / 10 ^ 5 * |Int.fract (b i)|)

/-- `get_symop_for_x1_x2`, cl_1_space_group_symop.py:263-292 -/
def between (items : List Op) (x1 x2 : Fin 3 → ℚ) : List Op :=
  items.filter fun o => modClose (fun i => ∑ j, (o.r i j : ℚ) * x1 j + o.b i) x2

end Cryspy.Gens
