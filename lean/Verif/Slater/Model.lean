import Mathlib.Analysis.Real.Sqrt
import Mathlib.Analysis.SpecialFunctions.Pow.Real
import Mathlib.Analysis.SpecialFunctions.Trigonometric.Basic
import Mathlib.Data.Nat.Factorial.Basic

/-!
# Model of `cryspy/A_functions_base/orbital_functions.py`: form factors from Slater functions

Arithmetic is exact; one value of sin(theta)/lambda is followed (the code does the same for every element of an array).  The
list `a` of the code has 17 entries, enough for `nn ≤ 16` and `l_max ≤ 15`; here it is a function of the index.
-/

namespace Cryspy.Slater

/-- the variables of `calc_transs` that survive a turn of the loops: the list `a` and the number `i3` (unbound at first) -/
structure St where
  a : ℕ → ℝ
  i3 : Option ℕ

/-- a turn of the inner loop, orbital_functions.py:51-55 -/
noncomputable def inner (tz d : ℝ) (l : ℕ) (st : St) (nx : ℕ) : St :=
  ⟨Function.update st.a (nx + 1) ((tz * nx * st.a nx - ((nx : ℝ) + l) * ((nx : ℝ) - (l + 1 : ℕ)) * st.a (nx - 1)) * 1 / d), some (nx + 2)⟩

/-- a turn of the outer loop, orbital_functions.py:46-55 -/
noncomputable def stage (n : ℕ) (tz d : ℝ) (st : St) (l : ℕ) : St :=
  let a := if l + 1 ≠ 1 then Function.update (Function.update st.a (l + 1) (st.a l * (4 * Real.pi) * l * 1 / d)) l 0 else st.a
  (List.range' (l + 1) (n + 1 - (l + 1))).foldl (inner tz d l) ⟨a, st.i3⟩

/-- the list `a` before the loops, orbital_functions.py:39, 42-43 -/
noncomputable def start (d : ℝ) : St := ⟨fun k => if k = 1 then 1 / d else 0, none⟩

/-- the variables after the turn `l` of the outer loop -/
noncomputable def after (n : ℕ) (tz d : ℝ) : ℕ → St
  | 0 => stage n tz d (start d) 0
  | l + 1 => stage n tz d (after n tz d l) (l + 1)

/-- `calc_transs`, orbital_functions.py:33-57: the entries of the returned list; `none` if `i3` is not bound. -/
noncomputable def transs (lmax nn : ℕ) (zeta sthovl : ℝ) : List (Option ℝ) :=
  let q := 4 * Real.pi * sthovl
  let d := q ^ 2 + zeta ^ 2
  (List.range (lmax + 1)).map fun l : ℕ =>
    let st := after (nn - 1) (2 * zeta) d l
    st.i3.map fun i3 => st.a (i3 - 1)

/-- a Slater function of an orbital: coefficient, principal number, exponent in inverse Bohr radii -/
structure Fn where
  coeff : ℝ
  n : ℕ
  zeta : ℝ

/-- `zeta_ang`, orbital_functions.py:62 -/
noncomputable def zetaAng (kappa : ℝ) (f : Fn) : ℝ := kappa * f.zeta / 0.529177

/-- `coeff_norm`, orbital_functions.py:63-64 -/
noncomputable def norm (z : ℝ) (n : ℕ) : ℝ := (2 * z) ^ ((n : ℝ) + 0.5) / Real.sqrt ((2 * n).factorial : ℝ)

/-- `calc_jl_per_2sthovll`, orbital_functions.py:60-79, one entry of the result -/
noncomputable def jlPer (sthovl : ℝ) (fs : List Fn) (kappa : ℝ) (lmax l : ℕ) : Option ℝ :=
  ((fs.product fs).mapM fun p : Fn × Fn => do
    let t ← (← (transs lmax (p.1.n + p.2.n) (zetaAng kappa p.1 + zetaAng kappa p.2) sthovl)[l]?)
    return p.1.coeff * p.2.coeff * (norm (zetaAng kappa p.1) p.1.n * norm (zetaAng kappa p.2) p.2.n) * t).map List.sum

/-- `calc_jl`, orbital_functions.py:82-87, one entry of the result -/
noncomputable def jl (sthovl : ℝ) (fs : List Fn) (kappa : ℝ) (lmax l : ℕ) : Option ℝ :=
  (jlPer sthovl fs kappa lmax l).map fun x => x * (2 * sthovl) ^ l

/-- `calc_rho_normalized`, orbital_functions.py:6-23, at one radius (in Angstrom) -/
noncomputable def rhoNormalized (radius : ℝ) (fs : List Fn) (kappa : ℝ) : ℝ :=
  (fs.map fun f =>
    let z := kappa * f.zeta / 0.52918
    f.coeff * norm z f.n * radius ^ (f.n - 1) * Real.exp (-z * radius)).sum

/-- the sum of `calc_jl_for_shell_of_ion`, charge_form_factor.py:124-146: number of electrons and functions of every orbital of
the shell (the lookup in the data base and the failure for a missing orbital are not modelled here) -/
noncomputable def jlShell (sthovl : ℝ) (orbs : List (ℕ × List Fn)) (kappa : ℝ) (lmax l : ℕ) : Option ℝ :=
  (orbs.mapM fun o : ℕ × List Fn => (jl sthovl o.2 kappa lmax l).map fun x : ℝ => x * (o.1 : ℝ)).map List.sum

end Cryspy.Slater
