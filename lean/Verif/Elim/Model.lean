import Verif.Constr.Model
import Mathlib.LinearAlgebra.Matrix.NonsingularInverse

/-!
# Model of the constraints on susceptibility tensors and exchange tensors

`AtomSiteSusceptibility.apply_space_group_constraint` and `AtomSiteExchange.apply_space_group_constraint` turn the projector of the
site (`calc_sc_chi`) into a matrix by elimination of rows, find the independent components and write values, errors and flags.

Simplifications: the numbers are exact, so the tests `numpy.isclose(.., 0.)` are equalities and the rounding of the result to ten
digits is left out.  The elements of the tensor are numbered 0..5 (11, 22, 33, 12, 13, 23).
-/

namespace Cryspy.Elim

open Matrix Classical

variable {K : Type} [Field K] {n : ℕ}

/-- a turn of the loop over the rows, cl_1_atom_site_susceptibility.py:39-47: if the diagonal element is not zero the row is divided
by it and its multiples are subtracted from the rows above -/
noncomputable def step (M : Matrix (Fin n) (Fin n) K) (i : Fin n) : Matrix (Fin n) (Fin n) K :=
  if M i i = 0 then M
  else Matrix.of fun k j => if k = i then M i j / M i i else if k < i then M k j - M i j / M i i * M k i else M k j

/-- the rows `n-1, …, 1` in the order of the loop, cl_1_atom_site_susceptibility.py:39 -/
def rows (n : ℕ) : List (Fin (n + 1)) := (List.finRange n).reverse.map Fin.succ

/-- `calc_constr_matrix`, cl_1_atom_site_susceptibility.py:32-50 -/
noncomputable def constrMatrix (P : Matrix (Fin (n + 1)) (Fin (n + 1)) K) : Matrix (Fin (n + 1)) (Fin (n + 1)) K :=
  1 - (rows n).foldl step (P - 1)

/-- the rows and columns of a list, `m[l, :][:, l]` -/
def pick (M : Matrix (Fin n) (Fin n) K) (l : List (Fin n)) : Matrix (Fin l.length) (Fin l.length) K := M.submatrix l.get l.get

/-- a turn of the loop of `calc_independent_lines`, cl_1_atom_site_susceptibility.py:24-28 -/
noncomputable def grow (M : Matrix (Fin n) (Fin n) K) (l : List (Fin n)) (i : Fin n) : List (Fin n) :=
  if (pick M (l ++ [i])).det = 0 then l else l ++ [i]

/-- `calc_independent_lines`, cl_1_atom_site_susceptibility.py:20-29 -/
noncomputable def independent (M : Matrix (Fin (n + 1)) (Fin (n + 1)) K) : List (Fin (n + 1)) :=
  ((List.finRange n).map Fin.succ).foldl (grow M) [0]

/-- what is kept of a tensor: values, errors, flags of refinement and of constraint -/
structure Tensor (n : ℕ) where
  val : Fin n → ℝ
  sig : Fin n → ℝ
  ref : Fin n → Bool
  con : Fin n → Bool

/-- `apply_space_group_constraint`, cl_1_atom_site_susceptibility.py:151-212, cl_1_atom_site_exchange.py:116-176, with `P` the
matrix `calc_sc_chi`; `cani` says that the type of the tensor is `Cani` (lines 141-143), otherwise nothing is done.
`sc_chi_bool.dot(chi_ref_i)` of arrays of flags is an `or` of `and`s. -/
noncomputable def applyGroup (P : Matrix (Fin (n + 1)) (Fin (n + 1)) ℝ) (cani : Bool) (t : Tensor (n + 1)) : Tensor (n + 1) :=
  if cani then
    let R := constrMatrix P
    let ind := independent R
    { val := R *ᵥ t.val
      sig := fun i => Real.sqrt (∑ j, R i j ^ 2 * t.sig j ^ 2)
      con := fun i => decide (i ∉ ind)
      ref := fun i => decide (∃ j, R i j ≠ 0 ∧ t.ref j) && decide (i ∈ ind) }
  else t

/-- `apply_chi_iso_constraint`, cl_1_atom_site_susceptibility.py:214-251, for the type `Ciso` -/
def applyIso (ciso : Bool) (t : Tensor 6) : Tensor 6 :=
  if ciso then
    { val := ![t.val 0, t.val 0, t.val 0, 0, 0, 0]
      sig := ![t.sig 0, t.sig 0, t.sig 0, 0, 0, 0]
      con := ![t.con 0, true, true, true, true, true]
      ref := ![t.ref 0, false, false, false, false, false] }
  else t

end Cryspy.Elim
