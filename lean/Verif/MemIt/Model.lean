import Mathlib.Data.Real.Basic
import Mathlib.Analysis.Real.Sqrt
import Mathlib.Order.WithBot
import Mathlib.Algebra.BigOperators.Fin
import Mathlib.Analysis.SpecialFunctions.Exp
import Verif.Gen.FlipRatio

/-!
# The maximum entropy iteration

`mempy_reconstruction_by_dictionary`, procedure_mempy/mempy_by_dictionary.py:46-480, from the copies of the prior densities on.

Numbers are exact; of the special values of doubles the goodness of fit has infinity and NaN, a density with NaN in it is `none`.  Overflow is
not modelled.
-/

namespace Cryspy.MemIt

open Cryspy.Flip

/-! ## The loop, for any objective and any update -/

/-- a goodness of fit: `none` is NaN, `⊤` infinity -/
abbrev CV := Option (WithTop ℝ)

/-- `a > b` of doubles -/
def gt : CV → CV → Prop
  | some a, some b => b < a
  | _, _ => False

/-- `a <= b` of a double and a number -/
def le : CV → ℝ → Prop
  | some a, b => a ≤ (b : WithTop ℝ)
  | none, _ => False

/-- what the loop works with: value and derivative of the objective, the update, the three numbers that stop it -/
structure Task (D G : Type) where
  value : D → CV
  deriv : D → G
  update : ℝ → D → G → D
  desired : ℝ
  lamMin : ℝ
  iterMax : ℕ

/-- the variables of the loop.  `prev` is `density_..._previous`, not bound before the first acceptance; `den` is `density_...` at the end of the
turn; `tried` is the density the stored flip ratios were computed from (mempy_by_dictionary.py:351) -/
structure St (D G : Type) where
  next : D
  cPrev : CV
  prev : Option D
  derPrev : G
  den : D
  tried : D
  lam : ℝ
  iteration : ℕ

/-- before the loop, mempy_by_dictionary.py:278-303 -/
def initial {D G : Type} (prior : D) (zero : G) (lam : ℝ) : St D G := ⟨prior, some ⊤, none, zero, prior, prior, lam, 0⟩

open Classical in
/-- one turn, mempy_by_dictionary.py:304-450; `none` is `UnboundLocalError`.  The value `c` the stop tests see is `cPrev` of the new state: it
is set to it at 421 and stored in it at 429. -/
noncomputable def turn {D G : Type} (T : Task D G) (s : St D G) : Option (St D G) :=
  let d := s.next
  let c := T.value d
  let g := T.deriv d
  if gt c s.cPrev then
    match s.prev with
    | none => none
    | some p =>
      let lam := 1 / 2 * s.lam
      some ⟨T.update lam p s.derPrev, s.cPrev, some p, s.derPrev, p, d, lam, s.iteration + 1⟩
  else
    let lam := 103 / 100 * s.lam
    some ⟨T.update lam d g, c, some d, g, d, d, lam, s.iteration + 1⟩

/-- `flag_next = False`, mempy_by_dictionary.py:453-461 -/
def stop {D G : Type} (T : Task D G) (s : St D G) : Prop := T.iterMax ≤ s.iteration ∨ s.lam < T.lamMin ∨ le s.cPrev T.desired

theorem turn_iteration {D G : Type} {T : Task D G} {s s' : St D G} (h : turn T s = some s') : s'.iteration = s.iteration + 1 := by
  unfold turn at h
  dsimp only at h
  split_ifs at h
  · split at h
    · cases h
    · cases h; rfl
  · cases h; rfl

open Classical in
/-- the loop, mempy_by_dictionary.py:304-461: the state after the last turn -/
noncomputable def loop {D G : Type} (T : Task D G) (s : St D G) : Option (St D G) :=
  match h : turn T s with
  | none => none
  | some s' => if stop T s' then some s' else loop T s'
termination_by T.iterMax - s.iteration
decreasing_by
  have := turn_iteration h
  rename_i hs
  unfold stop at hs
  push Not at hs
  omega

/-- what the function leaves behind, mempy_by_dictionary.py:463-472 and 351: `c_best`, the density of the channel plus/minus, that of the channel
chi, the density the flip ratios belong to -/
structure Result (D : Type) where
  c : CV
  best : D
  den : D
  flips : D

/-- `mempy_reconstruction_by_dictionary` after the preparations -/
noncomputable def reconstruct {D G : Type} (T : Task D G) (prior : D) (zero : G) (lam : ℝ) : Option (Result D) :=
  match loop T (initial prior zero lam) with
  | none => none
  | some s =>
    match s.prev with
    | none => none
    | some p => some ⟨s.cPrev, p, s.den, s.tried⟩

/-! ## Densities, update, objective -/

/-- the density on `n` points of the channel plus/minus and `m` points of the channel chi (a channel that is switched off has no points) -/
structure Den (n m : ℕ) where
  plus : Fin n → ℝ
  minus : Fin n → ℝ
  chi : Fin m → ℝ

/-- points and cell: orbits of the points, the closest atom and its multiplicity, volume of the cell, number of points in the cell, the shift
`delta_density` -/
structure Grid (n m : ℕ) where
  multCol : Fin n → ℝ
  multChi : Fin m → ℝ
  label : Fin m → String
  amult : Fin m → ℝ
  volume : ℝ
  points : ℝ
  delta : ℝ

variable {n m : ℕ}

open Classical in
/-- `renormailize_density_col`, A_functions_base/mempy.py:134-140, one row; `none` is the NaN of 0/0 -/
noncomputable def renormCol (G : Grid n m) (v : Fin n → ℝ) : Option (Fin n → ℝ) :=
  let total := ∑ i, v i * G.multCol i
  if 0 < n ∧ total = 0 then none else some fun i => G.points / G.volume * v i / total

/-- `m_at`, A_functions_base/mempy.py:163 -/
noncomputable def atomTotal (G : Grid n m) (v : Fin m → ℝ) (a : String) : ℝ :=
  ∑ j, if G.label j = a then v j * G.multChi j / G.amult j else 0

open Classical in
/-- `renormailize_density_chi`, A_functions_base/mempy.py:150-166 (the loop over the labels is `Mem.renormChi`, here in closed form); `none` is the
NaN of 0·inf -/
noncomputable def renormChi (G : Grid n m) (v : Fin m → ℝ) : Option (Fin m → ℝ) :=
  if ∃ j, atomTotal G v (G.label j) = 0 then none
  else some fun j => v j * (G.points / G.volume / atomTotal G v (G.label j))

/-- `numpy.where(hh>0, hh, 0)` of `(density+delta)*exp(-coeff*der)-delta`, mempy_by_dictionary.py:440-450 -/
noncomputable def step (delta coeff x g : ℝ) : ℝ := max ((x + delta) * Real.exp (-coeff * g) - delta) 0

/-- the update of both channels, mempy_by_dictionary.py:438-450.  When the density has a NaN, so has every derivative; the points become 0 by
`numpy.where` and NaN again by the normalisation -/
noncomputable def update (G : Grid n m) (desired lam : ℝ) : Option (Den n m) → Option (Den n m) → Option (Den n m)
  | some d, some g =>
    let coeff := lam * G.points / (desired * G.volume)
    match renormCol G (fun i => step G.delta (coeff / G.multCol i) (d.plus i) (g.plus i)),
      renormCol G (fun i => step G.delta (coeff / G.multCol i) (d.minus i) (g.minus i)),
      renormChi G (fun j => step G.delta (coeff * G.amult j / G.multChi j) (d.chi j) (g.chi j)) with
    | some p, some q, some r => some ⟨p, q, r⟩
    | _, _, _ => none
  | _, _ => none

/-- a reflection: polarisation, flipper, nuclear structure factor, direction of the field, extinction as a function of F², measured flipping ratio
with error, and the arrays `mem_col`, `mem_chi` (real and imaginary parts) -/
structure Refl (n m : ℕ) where
  P : ℝ
  e : ℝ
  nRe : ℝ
  nIm : ℝ
  z : Fin 3 → ℝ
  y : ℝ → ℝ
  value : ℝ
  sigma : ℝ
  colRe : Fin 3 → Fin n → ℝ
  colIm : Fin 3 → Fin n → ℝ
  chiRe : Fin 3 → Fin m → ℝ
  chiIm : Fin 3 → Fin m → ℝ

/-- the measurement: what is fitted, the two magnetisations, the reflections of all experiments -/
structure Exp (n m : ℕ) where
  asymmetry : Bool
  magPlus : ℝ
  magMinus : ℝ
  refl : List (Refl n m)

/-- real part of `f_m_perp`, mempy_by_dictionary.py:316-326 -/
noncomputable def fRe (E : Exp n m) (d : Den n m) (r : Refl n m) (k : Fin 3) : ℝ :=
  (∑ i, (E.magPlus * d.plus i + E.magMinus * d.minus i) * r.colRe k i) + ∑ j, d.chi j * r.chiRe k j

/-- imaginary part of `f_m_perp` -/
noncomputable def fIm (E : Exp n m) (d : Den n m) (r : Refl n m) (k : Fin 3) : ℝ :=
  (∑ i, (E.magPlus * d.plus i + E.magMinus * d.minus i) * r.colIm k i) + ∑ j, d.chi j * r.chiIm k j

/-- `iint_plus`, `iint_minus`, mempy_by_dictionary.py:345-349 -/
noncomputable def iPlus (E : Exp n m) (d : Den n m) (r : Refl n m) : ℝ :=
  calc_iint_plus r.y (fun _ => 0) (fun _ => 0) r.P r.e r.nRe r.nIm (fRe E d r) (fIm E d r) r.z

noncomputable def iMinus (E : Exp n m) (d : Den n m) (r : Refl n m) : ℝ :=
  calc_iint_minus r.y (fun _ => 0) (fun _ => 0) r.P r.e r.nRe r.nIm (fRe E d r) (fIm E d r) r.z

/-- `model_exp`, mempy_by_dictionary.py:358-367 -/
noncomputable def model (E : Exp n m) (d : Den n m) (r : Refl n m) : ℝ :=
  if E.asymmetry then Cryspy.Flip.asymmetry (iPlus E d r) (iMinus E d r) else flip_ratio (iPlus E d r) (iMinus E d r)

/-- `exp_value_sigma`, mempy_by_dictionary.py:251-258 -/
noncomputable def measured (E : Exp n m) (r : Refl n m) : ℝ × ℝ :=
  if E.asymmetry then ((r.value - 1) / (r.value + 1), √2 * r.sigma * √(r.value ^ 2 + 1) / (r.value + 1) ^ 2) else (r.value, r.sigma)

/-- `c`, mempy_by_dictionary.py:400-401 -/
noncomputable def gof (E : Exp n m) (d : Den n m) : ℝ :=
  (E.refl.map fun r => (((measured E r).1 - model E d r) / (measured E r).2) ^ 2).sum / E.refl.length

/-- `der_model_int_plus`, `der_model_int_minus` -/
noncomputable def dModel (E : Exp n m) (d : Den n m) (r : Refl n m) : ℝ × ℝ :=
  if E.asymmetry then (d_asymmetry_plus (iPlus E d r) (iMinus E d r), d_asymmetry_minus (iPlus E d r) (iMinus E d r))
  else (d_flip_ratio_plus (iPlus E d r) (iMinus E d r), d_flip_ratio_minus (iPlus E d r) (iMinus E d r))

/-- `der_model_int_plus*der_int_plus_fm_perp_real + der_model_int_minus*der_int_minus_fm_perp_real`.  The extinction is called with
`flag_f_sq=False` (mempy_by_dictionary.py:336-343), so `calc_iint` takes its derivative for zero -/
noncomputable def wRe (E : Exp n m) (d : Den n m) (r : Refl n m) (k : Fin 3) : ℝ :=
  (dModel E d r).1 * d_plus_f_m_perp_real r.y (fun _ => 0) (fun _ => 0) r.P r.e r.nRe r.nIm (fRe E d r) (fIm E d r) r.z k +
  (dModel E d r).2 * d_minus_f_m_perp_real r.y (fun _ => 0) (fun _ => 0) r.P r.e r.nRe r.nIm (fRe E d r) (fIm E d r) r.z k

noncomputable def wIm (E : Exp n m) (d : Den n m) (r : Refl n m) (k : Fin 3) : ℝ :=
  (dModel E d r).1 * d_plus_f_m_perp_imag r.y (fun _ => 0) (fun _ => 0) r.P r.e r.nRe r.nIm (fRe E d r) (fIm E d r) r.z k +
  (dModel E d r).2 * d_minus_f_m_perp_imag r.y (fun _ => 0) (fun _ => 0) r.P r.e r.nRe r.nIm (fRe E d r) (fIm E d r) r.z k

/-- `der_model_den_pm_exp`, mempy_by_dictionary.py:373-382 -/
noncomputable def dCol (E : Exp n m) (d : Den n m) (r : Refl n m) (i : Fin n) : ℝ :=
  (∑ k, r.colRe k i * wRe E d r k) + ∑ k, r.colIm k i * wIm E d r k

/-- `der_model_den_chi_exp`, mempy_by_dictionary.py:385-394 -/
noncomputable def dChi (E : Exp n m) (d : Den n m) (r : Refl n m) (j : Fin m) : ℝ :=
  (∑ k, r.chiRe k j * wRe E d r k) + ∑ k, r.chiIm k j * wIm E d r k

/-- `der_c_den_col`, `der_c_den_chi`, mempy_by_dictionary.py:403-416 -/
noncomputable def grad (E : Exp n m) (d : Den n m) : Den n m :=
  let diff (r : Refl n m) := ((measured E r).1 - model E d r) / (measured E r).2
  let pm (i : Fin n) := -2 / (E.refl.length : ℝ) * (E.refl.map fun r => diff r / (measured E r).2 * dCol E d r i).sum
  ⟨fun i => E.magPlus * pm i, fun i => E.magMinus * pm i,
    fun j => -2 / (E.refl.length : ℝ) * (E.refl.map fun r => diff r / (measured E r).2 * dChi E d r j).sum⟩

/-- no division by zero in the objective -/
def Regular (E : Exp n m) (d : Den n m) : Prop :=
  E.refl ≠ [] ∧ ∀ r ∈ E.refl, (measured E r).2 ≠ 0 ∧ (if E.asymmetry then iPlus E d r + iMinus E d r ≠ 0 ∧ r.value + 1 ≠ 0 else iMinus E d r ≠ 0)

open Classical in
/-- the iteration of the program.  `odd` is what doubles give when a division by zero occurs; it is left open. -/
noncomputable def task (G : Grid n m) (E : Exp n m) (odd : Den n m → CV × Option (Den n m)) (desired lamMin : ℝ) (iterMax : ℕ) :
    Task (Option (Den n m)) (Option (Den n m)) where
  value
    | none => none
    | some d => if Regular E d then some (gof E d : ℝ) else (odd d).1
  deriv
    | none => none
    | some d => if Regular E d then some (grad E d) else (odd d).2
  update := update G desired
  desired := desired
  lamMin := lamMin
  iterMax := iterMax

end Cryspy.MemIt
