import Verif.Symm.Model
import Mathlib.Data.Rat.Defs
import Mathlib.Algebra.Field.Rat
import Mathlib.Algebra.Order.Ring.Rat
import Mathlib.Data.Fintype.Pi
import Mathlib.Order.Interval.Finset.Basic
import Mathlib.Data.Int.Interval

/-!
# Crystallographic meaning of symmetry elements

A symmetry element is the affine map `x ↦ R x + b` on fractional coordinates; points that differ by
integers are the same point of the crystal.
-/

namespace Cryspy.Symm

/-- Fractional coordinates. -/
abbrev Q3 := Fin 3 → ℚ

/-- `x ↦ R x + b`. -/
def act (e : Elem) (x : Q3) : Q3 := fun k => ∑ l, (e.r k l : ℚ) * x l + (e.bn k : ℚ) / e.bd

/-- The position that a `Shift` (numerators over a denominator) denotes. -/
def Shift.val (s : Shift) : Q3 := fun k => (s.n k : ℚ) / s.d

/-- Same point modulo lattice translations. -/
def Lat (x y : Q3) : Prop := ∀ k, ∃ z : ℤ, x k - y k = z

/-- Fractional coordinates of a grid point. -/
def fp (n p : V3) : Q3 := fun k => (p k : ℚ) / n k

/-- The point is in the unit cell. -/
def InCell (n p : V3) : Prop := ∀ k, 0 ≤ p k ∧ p k < n k

/-- The grid matches the element: positive sizes, the denominator of the translation divides them,
and axes mixed by the rotation have equal sizes. -/
structure Compat (e : Elem) (n : V3) : Prop where
  bd_pos : 0 < e.bd
  pos : ∀ k, 0 < n k
  dvd : ∀ k, e.bd ∣ n k
  mix : ∀ k l, e.r k l ≠ 0 → n k = n l

/-- Two elements are the same operation modulo lattice translations. -/
def SameOp (a b : Elem) : Prop := ∀ x, Lat (act a x) (act b x)

/-- `c` is "first `b`, then `a`" modulo lattice translations. -/
def IsProd (a b c : Elem) : Prop := ∀ x, Lat (act c x) (act a (act b x))

/-- A list of elements is a group modulo lattice translations. -/
structure IsGroup (G : List Elem) : Prop where
  one : ∃ e ∈ G, ∀ x, Lat (act e x) x
  mul : ∀ a ∈ G, ∀ b ∈ G, ∃ c ∈ G, IsProd a b c
  inv : ∀ a ∈ G, ∃ b ∈ G, ∀ x, Lat (act b (act a x)) x

/-- All grid points of the cell. -/
def cellPoints (n : V3) : Finset V3 := Fintype.piFinset fun k => Finset.Ico 0 (n k)

/-- Some symmetry element of the crystal carries the grid point `q` to the grid point `p` (modulo lattice
translations). -/
def EquivPoint (G : List Elem) (n q p : V3) : Prop := ∃ e ∈ G, Lat (act e (fp n q)) (fp n p)

end Cryspy.Symm

namespace Cryspy.Symm

/-- `l` lists the distinct positions (modulo lattice translations) to which the elements of `G` carry `x`. -/
structure IsOrbitList (G : List Elem) (x : Q3) (l : List Q3) : Prop where
  distinct : l.Pairwise (fun y z => ¬ Lat y z)
  covers : ∀ e ∈ G, ∃ y ∈ l, Lat (act e x) y
  onlyImages : ∀ y ∈ l, ∃ e ∈ G, Lat (act e x) y

/-- A fraction vector in canonical form: reduced modulo 1 and with no common factor. -/
structure Canonical (s : Shift) : Prop where
  d_pos : 0 < s.d
  range : ∀ k, 0 ≤ s.n k ∧ s.n k < s.d
  lowest : Int.gcd (Int.gcd (Int.gcd (s.n 0) (s.n 1)) (s.n 2)) s.d = 1

/-- The maps that the reduced elements, centring translations and centre of symmetry stand for. -/
def fullMaps (reduced : List Elem) (centro : Bool) (centre : Shift) (trans : List Shift) : List (Q3 → Q3) :=
  let direct : List (Q3 → Q3) := trans.flatMap fun t => reduced.map fun e => fun x k => act e x k + t.val k
  let inverted : List (Q3 → Q3) := trans.flatMap fun t => reduced.map fun e => fun x k =>
    2 * centre.val k - (act e x k + t.val k)
  if centro then direct ++ inverted else direct

/-- `h` as a row vector times the rotation. -/
def rowMul (h : V3) (r : M3) : V3 := fun k => ∑ l, h l * r l k

end Cryspy.Symm
