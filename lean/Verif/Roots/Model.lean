import Mathlib.Data.Int.Log
import Mathlib.Algebra.Order.Floor.Ring
import Mathlib.Tactic.Linarith

/-!
# Root finding, A_functions_base/function_1_roots.py

The numbers are those of an ordered field `K` (rationals, reals) instead of doubles.  The loops of
the code have no bound, so each function takes a number of allowed turns and answers `none` when
the loop has not ended by then; the theorems say for which inputs a number of turns exists.
-/

namespace Cryspy.Roots

variable {K : Type} [Field K] [LinearOrder K] [FloorRing K]

/-- The right end of the next interval, `x2 = x1 + dx`, cut at `b`
(cryspy/A_functions_base/function_1_roots.py:8-12 and 18-22).  The value of `f` there is computed
again after the cut; `f` is a function, so it is `f` of the result. -/
def nextPoint (b dx x : K) : K := if b < x + dx then b else x + dx

/-- The loop of `rootsearch` (cryspy/A_functions_base/function_1_roots.py:13-23): `none` if it is
still running after `fuel` turns, `some none` for the answer `(None, None)`. -/
def searchLoop (f : K → K) (b dx : K) : ℕ → K → K → Option (Option (K × K))
  | 0, _, _ => none
  | fuel + 1, x1, x2 =>
    if 0 < f x1 * f x2 then
      if b ≤ x1 then some none
      else searchLoop f b dx fuel x2 (nextPoint b dx x2)
    else some (some (x1, x2))

/-- `rootsearch`, cryspy/A_functions_base/function_1_roots.py:4-23. -/
def rootsearch (f : K → K) (a b dx : K) (fuel : ℕ) : Option (Option (K × K)) :=
  searchLoop f b dx fuel a (nextPoint b dx a)

/-- The number of halvings, `int(math.ceil(math.log(abs(x2 - x1)/epsilon)/math.log(2.0)))`
(cryspy/A_functions_base/function_1_roots.py:37): the rounded-up logarithm to base 2; `range` of a
negative number is empty. -/
def halvings (x1 x2 eps : K) : ℕ := (Int.clog 2 (|x2 - x1| / eps)).toNat

/-- The loop of `bisect`, cryspy/A_functions_base/function_1_roots.py:38-50. -/
def bisectLoop (f : K → K) (switch : Bool) : ℕ → K → K → Option K
  | 0, x1, x2 => some ((x1 + x2) / 2)
  | n + 1, x1, x2 =>
    let x3 := (1 / 2) * (x1 + x2)
    if switch = true ∧ |f x1| < |f x3| ∧ |f x2| < |f x3| then none
    else if f x3 = 0 then some x3
    else if f x2 * f x3 < 0 then bisectLoop f switch n x3 x2
    else bisectLoop f switch n x1 x3

/-- `bisect`, cryspy/A_functions_base/function_1_roots.py:26-51; `none` is the answer `None`.
`epsilon` is positive in all calls; otherwise `math.log` raises, which is not modelled. -/
def bisect (f : K → K) (x1 x2 : K) (switch : Bool) (eps : K) : Option K :=
  if f x1 = 0 then some x1
  else if f x2 = 0 then some x2
  else if 0 < f x1 * f x2 then none
  else bisectLoop f switch (halvings x1 x2 eps) x1 x2

/-- The default `epsilon: float = 1.0e-12` of `bisect`, cryspy/A_functions_base/function_1_roots.py:26. -/
def defaultEps : K := 1 / 10 ^ 12

/-- The outer loop of `calc_roots`, cryspy/A_functions_base/function_1_roots.py:66-74, with the
result of the last search.  `fuel` bounds the turns of this loop and of each search. -/
def rootsLoop (f : K → K) (b dx : K) (searchFuel : ℕ) : ℕ → Option (K × K) → List K → Option (List K)
  | 0, _, _ => none
  | _ + 1, none, res => some res
  | fuel + 1, some (x1, x2), res =>
    let res' := match bisect f x1 x2 true defaultEps with
      | some root => res ++ [root]
      | none => res
    match rootsearch f x2 b dx searchFuel with
    | none => none
    | some found => rootsLoop f b dx searchFuel fuel found res'

/-- `calc_roots`, cryspy/A_functions_base/function_1_roots.py:54-75. -/
def calcRoots (f : K → K) (a b eps : K) (fuel : ℕ) : Option (List K) :=
  let dx := if eps = 0 then |b - a| * 1 / 100 else eps
  match rootsearch f a b dx fuel with
  | none => none
  | some found => rootsLoop f b dx fuel fuel found []

end Cryspy.Roots
