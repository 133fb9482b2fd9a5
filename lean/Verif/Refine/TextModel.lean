import Verif.Refine.Model
import Verif.Den.Model
import Mathlib.Data.Char
import Mathlib.Data.List.Lex

/-!
# The text of the inverse Hessian

Model of `InversedHessian.form_inversed_hessian` and `InversedHessian.form_object`.  Numbers are
rational; an exception of Python is `none`.
-/

namespace Cryspy.Refine

open Cryspy.Text (Str strip words)
open Cryspy.Den (fixedStr parseFlt joinNl)

/-- `numpy.argsort` of strings, by code points.  numpy leaves the order of equal labels open. -/
def argsort (labels : List Str) : List ℕ :=
  (List.range labels.length).mergeSort fun i j => decide (labels.getD i [] ≤ labels.getD j [])

/-- `a[ind]`: an index out of range raises. -/
def permute {A : Type} (ind : List ℕ) (l : List A) : Option (List A) := ind.mapM fun i => l[i]?

/-- `" ".join(l)` -/
def joinSp : List Str → Str
  | [] => []
  | [s] => s
  | s :: t => s ++ ' ' :: joinSp t

/-- A line of the text: `f"{lab:7} "` and the values with ten decimals
(cryspy/C_item_loop_classes/cl_1_inversed_hessian.py:150-151). -/
def hessLine (lab : Str) (row : List ℚ) : Str :=
  lab ++ List.replicate (7 - lab.length) ' ' ++ ' ' :: joinSp (row.map (fixedStr 10))

/-- The lines of the labels in sorted order
(cryspy/C_item_loop_classes/cl_1_inversed_hessian.py:128-138: labels, rows and columns are permuted). -/
def hessSorted (labels : List Str) (m : List (List ℚ)) : Option (List Str × List (List ℚ)) := do
  let ind := argsort labels
  let labs ← permute ind labels
  let rows ← permute ind m
  let rows ← rows.mapM (permute ind)
  some (labs, rows)

/-- `form_inversed_hessian` with labels and matrix set
(cryspy/C_item_loop_classes/cl_1_inversed_hessian.py:123-152). -/
def formText (labels : List Str) (m : List (List ℚ)) : Option Str := do
  let s ← hessSorted labels m
  some (joinNl (List.zipWith hessLine s.1 s.2))

/-- `s.split("\n")` -/
def splitNl : Str → List Str
  | [] => [[]]
  | c :: s =>
    if c = '\n' then [] :: splitNl s
    else match splitNl s with
      | [] => [[c]]
      | l :: ls => (c :: l) :: ls

/-- One line of `form_object` (cryspy/C_item_loop_classes/cl_1_inversed_hessian.py:91-94 and 99): an
empty line raises.  `strip()` before `split()` changes nothing and is left out. -/
def parseHessLine (line : Str) : Option (Str × List ℚ) :=
  match words line with
  | [] => none
  | lab :: vals => (vals.mapM parseFlt).map fun v => (lab, v)

/-- `form_object`, labels and matrix
(cryspy/C_item_loop_classes/cl_1_inversed_hessian.py:87-105). -/
def formObject (text : Str) : Option (List Str × List (List ℚ)) := do
  let rows ← (splitNl (strip text)).mapM parseHessLine
  hessSorted (rows.map (·.1)) (rows.map (·.2))

end Cryspy.Refine
