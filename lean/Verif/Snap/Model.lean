import Verif.Wyck.Model
import Verif.Wyck.Lemmas

/-!
# Atoms after the set-up of a crystal

Model of `SpaceGroupWyckoff.give_default_xyz` (C_item_loop_classes/cl_1_space_group_wyckoff.py:122-240) and of
`AtomSite.form_object`, `define_space_group_wyckoff`, `apply_constraints`
(C_item_loop_classes/cl_1_atom_site.py:95-139), which `Crystal.apply_constraints` calls for every atom
(E_data_classes/cl_1_crystal.py:117-140).

The coordinates are rationals.  `lim` stands for `Fraction(x).limit_denominator(10**5)`.
Simplification: the values tested and the new coordinates are not rounded to floats.
-/

namespace Cryspy.Snap

open Wyck

/-- The coordinates that a position gives for the parameters `t`. -/
def at' (p : Pos) (t : V) : V := fun k => dot (p.r k) t + p.b k

/-- The six orders in which the coordinates are tried (`l_ind`), cl_1_space_group_wyckoff.py:147. -/
def orders : List (Fin 3 → Fin 3) :=
  [![0, 1, 2], ![0, 2, 1], ![1, 0, 2], ![1, 2, 0], ![2, 0, 1], ![2, 1, 0]]

/-- The eight combinations of signs, in the order of the tests, cl_1_space_group_wyckoff.py:154-236. -/
def signs : List (Fin 3 → ℚ) :=
  [![1, 1, 1], ![-1, 1, 1], ![1, -1, 1], ![1, 1, -1], ![1, -1, -1], ![-1, 1, -1], ![-1, -1, 1], ![-1, -1, -1]]

/-- The parameters that are tried for an atom at `x`, cl_1_space_group_wyckoff.py:148-236. -/
def tried (x : V) : List V := orders.flatMap fun o => signs.map fun s => fun k => s k * x (o k)

/-- `numpy.isclose(numpy.mod(val, 1), 0.)`, cl_1_space_group_wyckoff.py:157-159: the absolute tolerance of
numpy is `1e-8` and `mod` is not negative. -/
def close (u : ℚ) : Bool := decide (mod1 u ≤ 1 / 10 ^ 8)

/-- `flag_1` … `flag_8`, cl_1_space_group_wyckoff.py:154-161: some listed coordinates are at `x` for the
parameters `t`. -/
def hits (full : List Pos) (x t : V) : Bool :=
  full.any fun p => close (at' p t 0 - x 0) && close (at' p t 1 - x 1) && close (at' p t 2 - x 2)

/-- The parameters taken (`_h`): the first that fit, cl_1_space_group_wyckoff.py:148-237, and the
coordinates themselves if none do, 238-239. -/
def chosen (full : List Pos) (x : V) : V := ((tried x).find? (hits full x)).getD x

/-- `give_default_xyz`, cl_1_space_group_wyckoff.py:122-240; `p0` is the position of `coord_xyz` (`r`, `b`),
`full` is `full_r`, `full_b`, `x` are the coordinates after `limit_denominator`. -/
def giveDefault (p0 : Pos) (full : List Pos) (x : V) : V := fun k => mod1 (at' p0 (chosen full x) k)

/-- A Wyckoff position: the item of `Wyck`, and the first listed coordinates
(`coord_xyz=_4[0]`, C_item_loop_classes/cl_2_space_group.py:385-394). -/
structure Place where
  item : Item
  first : Pos
  letter : String

/-- An atom: coordinates, flags of refinement, flags of constraint, and what the position gives:
multiplicity, letter, and the position itself (`space_group_wyckoff`). -/
structure Atom where
  x : V
  refined : Fin 3 → Bool
  constrained : Fin 3 → Bool
  multiplicity : Option ℕ
  letter : Option String
  place : Option Place

/-- `define_space_group_wyckoff`, cl_1_atom_site.py:126-131, with `get_id_for_fract`,
cl_1_space_group_wyckoff.py:263-269: of the positions that contain the atom the first with the smallest
multiplicity; `none` is the exception. -/
def define (lim : ℚ → ℚ) (l : List Place) (a : Atom) : Option Atom :=
  match getFor (l.map (·.item)) fun k => lim (a.x k) with
  | none => none
  | some w => (l.find? fun p => decide (p.item.id = w.id)).map fun p => { a with place := some p }

/-- `form_object` of `AtomSite`, cl_1_atom_site.py:95-121 (the scattering length is left out): the flags and
the coordinates of an atom whose position is known. -/
def form (lim : ℚ → ℚ) (a : Atom) : Atom :=
  match a.place with
  | none => a
  | some p =>
    { a with
      multiplicity := some p.item.multiplicity
      letter := some p.letter
      constrained := fun k => decide (p.first.r k k = 0)
      refined := fun k => if p.first.r k k = 0 then false else a.refined k
      x := giveDefault p.first p.item.positions fun k => lim (a.x k) }

/-- `apply_constraints`, cl_1_atom_site.py:133-139: the position is looked up only if the atom has none. -/
def apply (lim : ℚ → ℚ) (l : List Place) (a : Atom) : Option Atom :=
  match a.place with
  | some _ => some (form lim a)
  | none => (define lim l a).map (form lim)

/-- The user writes new coordinates: the internal attributes are deleted, but `space_group_wyckoff` is a
protected one (cl_1_atom_site.py:50, B_parent_classes/cl_1_item.py:262-276). -/
def write (a : Atom) (x : V) : Atom := { a with x := x }

end Cryspy.Snap
