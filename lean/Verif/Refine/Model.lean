import Mathlib.LinearAlgebra.Matrix.NonsingularInverse
import Mathlib.Data.Real.Sqrt
import Mathlib.Data.List.Dedup
import Verif.Text.Model

/-!
# Refinement: correlation, numerical Hessian, constraints, least squares

Model of `inversed_hessian_to_correlation`, `estimate_inversed_hessian_matrix`,
`calc_shift_p_by_constraints_hamilton`, `form_matrix_q`, the constraints formed from marks, the
objective of `rhochi_rietveld_refinement_by_dictionary`, the loop of `rhochi_lsq_by_dictionary` and
the summation of derivatives over experiments.  Real numbers instead of doubles;
`numpy.linalg.inv` is the matrix inverse where the determinant is not zero, else an exception.
-/

namespace Cryspy.Refine

open Matrix

section correlation
variable {n : Type*}

/-- The sigmas (cryspy/C_item_loop_classes/cl_1_inversed_hessian.py:11-13). -/
noncomputable def sigmas (h : Matrix n n ℝ) (i : n) : ℝ := Real.sqrt |h i i|

/-- The correlation matrix (cryspy/C_item_loop_classes/cl_1_inversed_hessian.py:14-15).  A zero
diagonal element gives NaN or infinity in numpy; in the model division by zero is zero. -/
noncomputable def correlation (h : Matrix n n ℝ) : Matrix n n ℝ :=
  fun i j => h i j / (sigmas h i * sigmas h j)

/-- The matrix written when only correlations and sigmas are set
(cryspy/C_item_loop_classes/cl_1_inversed_hessian.py:157-162). -/
def fromCorrelation (c : Matrix n n ℝ) (s : n → ℝ) : Matrix n n ℝ := fun i j => c i j * s i * s j

end correlation

section hessian
variable {n : ℕ}

/-- The step of a parameter: one percent, at least 1e-5
(cryspy/A_functions_base/function_1_inversed_hessian.py:26-28 and 48-50). -/
noncomputable def step (p : ℝ) : ℝ :=
  let d := (1 / 100) * |p|
  if d < 1 / 100000 then 1 / 100000 else d

/-- `param[i] += d` on a copy. -/
def bump (p : Fin n → ℝ) (i : Fin n) (d : ℝ) : Fin n → ℝ := Function.update p i (p i + d)

/-- The second difference for the pair `(i, j)`
(cryspy/A_functions_base/function_1_inversed_hessian.py:37-65): first parameter `i` is moved by its
step in both directions, then `j`; for `j = i` both moves add up. -/
noncomputable def secondDifference (f : (Fin n → ℝ) → ℝ) (p : Fin n → ℝ) (i j : Fin n) : ℝ :=
  let di := step (p i)
  let dj := step (p j)
  let pp := bump (bump p i di) j dj
  let pm := bump (bump p i di) j (-dj)
  let mp := bump (bump p i (-di)) j dj
  let mm := bump (bump p i (-di)) j (-dj)
  (f pp + f mm - f pm - f mp) / (4 * di * dj)

/-- The Hessian filled by the double loop over `j ≤ i`, written to both triangles
(cryspy/A_functions_base/function_1_inversed_hessian.py:47-67). -/
noncomputable def numericHessian (f : (Fin n → ℝ) → ℝ) (p : Fin n → ℝ) : Matrix (Fin n) (Fin n) ℝ :=
  fun i j => if j ≤ i then secondDifference f p i j else secondDifference f p j i

open Classical in
/-- `estimate_inversed_hessian_matrix`
(cryspy/A_functions_base/function_1_inversed_hessian.py:17-79): the inverse (`none` when numpy finds
the matrix singular) and the vector of first derivatives, which stays zero. -/
noncomputable def estimateInverse (f : (Fin n → ℝ) → ℝ) (p : Fin n → ℝ) :
    Option (Matrix (Fin n) (Fin n) ℝ) × (Fin n → ℝ) :=
  (if (numericHessian f p).det = 0 then none else some (numericHessian f p)⁻¹, fun _ => 0)

end hessian

section hamilton
variable {m n : ℕ}

open Classical in
/-- `calc_shift_p_by_constraints_hamilton`
(cryspy/procedure_rhochi/rhochi_by_dictionary.py:69-77). -/
noncomputable def hamiltonShift (delta : Fin n → ℝ) (dder : Matrix (Fin n) (Fin n) ℝ)
    (q : Matrix (Fin m) (Fin n) ℝ) : Option (Fin n → ℝ) :=
  let qd := q * dder
  let qdq := qd * qᵀ
  if qdq.det = 0 then none
  else some (-(delta ᵥ* (qᵀ * (qdq⁻¹ * qd))))

/-- `form_matrix_q` (cryspy/procedure_rhochi/rhochi_by_dictionary.py:80-86): one row per constraint,
the coefficient is stored (not added) at the index of the name; an unknown name raises. -/
def formMatrixQ {N R : Type} [DecidableEq N] [Zero R] (constraints : List (List (R × N)))
    (names : List N) : Option (List (List R)) :=
  constraints.mapM fun c =>
    c.foldlM (fun row t => do
      let i ← names.findIdx? (· = t.2)
      some (row.set i t.1)) (List.replicate names.length 0)

end hamilton

section marks
variable {N : Type} [DecidableEq N]
open Cryspy.Text (Str)

/-- `hh.rstrip("-+")` (cryspy/B_parent_classes/cl_4_global.py:588). -/
def markLabel (mark : Str) : Str := (mark.reverse.dropWhile (fun c => c == '-' || c == '+')).reverse

/-- `-1` for a mark that ends with a minus, else `1`
(cryspy/B_parent_classes/cl_4_global.py:596-599). -/
def markSign (mark : Str) : ℝ := if mark.getLast? = some '-' then -1 else 1

/-- The constraints of one label: the first parameter that carries it against every later one
(cryspy/B_parent_classes/cl_4_global.py:591-606).  The second coefficient is `1` for a mark that ends
with a minus and `-1` otherwise. -/
noncomputable def labelConstraints (params : List (N × Str)) (label : Str) : List ((ℝ × N) × (ℝ × N)) :=
  match params.filter (fun p => markLabel p.2 = label) with
  | [] => []
  | first :: later =>
    later.map fun p => ((markSign first.2, first.1), (-markSign p.2, p.1))

/-- `GlobalN.get_dictionary`, the linear constraints
(cryspy/B_parent_classes/cl_4_global.py:583-608): `order` is the order in which Python happens to
run through the set of labels. -/
noncomputable def linearConstraints (params : List (N × Str)) (order : List Str) :
    List ((ℝ × N) × (ℝ × N)) :=
  order.flatMap (labelConstraints params)

/-- The parameters the minimiser varies
(cryspy/procedure_rhochi/rhochi_by_dictionary.py:134-135). -/
def freeNames (names : List N) (constraints : List ((ℝ × N) × (ℝ × N))) : List N :=
  names.filter fun w => w ∉ constraints.map (·.2.2)

/-- The first part of the objective (cryspy/procedure_rhochi/rhochi_by_dictionary.py:157-165): the
vector of the minimiser is written into the dictionary and then every constraint.  `none` is the
exception of `parameter_names_free.index`. -/
noncomputable def assign (free : List N) (constraints : List ((ℝ × N) × (ℝ × N))) (v : List ℝ)
    (dict : N → ℝ) : Option (N → ℝ) :=
  let d1 := (free.zip v).foldl (fun d t => Function.update d t.1 t.2) dict
  constraints.foldlM (fun d c => do
    let coeff := -c.2.1 / c.1.1
    let i ← free.findIdx? (· = c.1.2)
    let x ← v[i]?
    some (Function.update d c.2.2 (coeff * x))) d1

/-- `rhochi_rietveld_refinement_by_dictionary`, the minimisation
(cryspy/procedure_rhochi/rhochi_by_dictionary.py:156-199): `scipy.optimize.minimize` evaluates the
objective at the points of `trace` one after the other, and every evaluation writes its point into
the dictionary; afterwards `chi_sq` is calculated from what the dictionary contains then.  The answer
`res.x` of the minimiser is not written back. -/
noncomputable def refine (free : List N) (constraints : List ((ℝ × N) × (ℝ × N)))
    (chi : (N → ℝ) → ℝ) (trace : List (List ℝ)) (dict : N → ℝ) : Option ((N → ℝ) × ℝ) := do
  let d ← trace.foldlM (fun d v => assign free constraints v d) dict
  some (d, chi d)

end marks

section lsq
variable {V : Type*} [AddCommGroup V]

/-- The state of the loop of `rhochi_lsq_by_dictionary`
(cryspy/procedure_rhochi/rhochi_by_dictionary.py:203-233): the best `chi_sq` and its step, the
parameters, and for the two dictionaries of calculated data the parameters they were calculated
for.  `second` says that the name `dict_in_out` has been bound to the second dictionary. -/
structure Lsq (V : Type*) where
  chi : ℝ
  delta : V
  params : V
  dict1 : V
  dict2 : V
  second : Bool

/-- The first iteration (cryspy/procedure_rhochi/rhochi_by_dictionary.py:211-214 and 89-104): the
calculation at the starting parameters, then the step is added.  `eval` gives `chi_sq` and the
step for given parameters. -/
def lsqInit (eval : V → ℝ × V) (p : V) : Lsq V :=
  { chi := (eval p).1, delta := (eval p).2, params := p + (eval p).2, dict1 := p, dict2 := p,
    second := false }

open Classical in
/-- One pass of `while flag` (cryspy/procedure_rhochi/rhochi_by_dictionary.py:217-232): the second
dictionary is always the one that is filled.  The left result is the final state. -/
noncomputable def lsqStep (eval : V → ℝ × V) (s : Lsq V) : Lsq V ⊕ Lsq V :=
  let c2 := (eval s.params).1
  let d2 := (eval s.params).2
  let p2 := s.params + d2
  if c2 < s.chi then
    .inr { s with chi := c2, delta := d2, params := p2, dict2 := s.params, second := true }
  else .inl { s with params := p2 - d2 - s.delta, dict2 := s.params }

/-- The loop with a bound on the number of passes. -/
noncomputable def lsqLoop (eval : V → ℝ × V) : ℕ → Lsq V → Option (Lsq V)
  | 0, _ => none
  | k + 1, s => match lsqStep eval s with
    | .inl r => some r
    | .inr s' => lsqLoop eval k s'

/-- The parameters for which the returned `dict_in_out` was calculated. -/
def Lsq.output (s : Lsq V) : V := if s.second then s.dict2 else s.dict1

end lsq

section experiments
variable {N : Type*} [DecidableEq N]

/-- What one experiment returns: the names of its parameters, first and second derivatives. -/
structure Experiment (N : Type*) where
  names : List N
  der : ℕ → ℝ
  dder : ℕ → ℕ → ℝ

/-- The contribution of one experiment to the sums, by the names of the parameters
(cryspy/procedure_rhochi/rhochi_by_dictionary.py:360-370): the diagonal once, and for every pair of
positions `i < j` both triangles.  The arrays are indexed here by the name instead of its position
in `parameter_name_sum`. -/
noncomputable def addExperiment (e : Experiment N) (s : (N → ℝ) × (N → N → ℝ)) :
    (N → ℝ) × (N → N → ℝ) :=
  e.names.zipIdx.foldl (fun s a =>
    let d := fun w => if w = a.1 then s.1 w + e.der a.2 else s.1 w
    let h := fun w w' => if w = a.1 ∧ w' = a.1 then s.2 w w' + e.dder a.2 a.2 else s.2 w w'
    let h := ((e.names.drop (a.2 + 1)).zipIdx).foldl (fun h b =>
      let h := fun w w' => if w = a.1 ∧ w' = b.1 then h w w' + e.dder a.2 (b.2 + a.2 + 1) else h w w'
      fun w w' => if w = b.1 ∧ w' = a.1 then h w w' + e.dder (b.2 + a.2 + 1) a.2 else h w w') h
    (d, h)) s

/-- The sums over all experiments (cryspy/procedure_rhochi/rhochi_by_dictionary.py:354-370). -/
noncomputable def sumExperiments (l : List (Experiment N)) : (N → ℝ) × (N → N → ℝ) :=
  l.foldl (fun s e => addExperiment e s) (fun _ => 0, fun _ _ => 0)

end experiments

end Cryspy.Refine
