import Mathlib.Data.Real.Basic
import Mathlib.Data.Real.Sqrt
import Mathlib.Algebra.BigOperators.Group.List.Basic

/-!
# The calculated powder pattern and the three chi squared

Numbers are exact reals; numpy arrays over reflections and over points are lists.  The calculated pattern is a function of the point, so that
one definition serves the one-dimensional, the time-of-flight and the two-dimensional pattern (`P` is the type of points).  What the program
computes per phase from crystal and instrument (structure factors, positions, profiles, factors of the texture) is input here; these parts have
their own models.
-/

namespace Cryspy.Chi

/-- the ways the functions raise -/
inductive Err
  | missing    -- `ValueError` of `list.index`
  | unbound    -- `UnboundLocalError`
  | shape      -- `ValueError`: operands could not be broadcast together
  | index      -- `IndexError`
deriving DecidableEq

/-! ## The pattern -/

/-- a reflection of a list: indices, multiplicity, the two integrated intensities and the position of the peak -/
structure Hkl where
  h : ℤ
  k : ℤ
  l : ℤ
  mult : ℝ
  plus : ℝ
  minus : ℝ
  pos : ℝ

/-- a crystal: its name, its list of reflections, and the list in P1 that is made when the phase is textured
(procedure_rhochi/rhochi_pd.py:217-233, rhochi_pd2d.py:273-290, rhochi_tof.py:289-306) -/
structure Crystal where
  name : String
  own : List Hkl
  p1 : List Hkl

/-- a phase of the experiment: label, scale, profile as a function of the point and of the position of the peak -/
structure Phase (P : Type) where
  name : String
  scale : ℝ
  profile : P → ℝ → ℝ

/-- the table of textures: the column of names and the columns of parameters, the latter as the preferred orientation they give to a reflection -/
structure Texture (P : Type) where
  names : List String
  pars : List (Hkl → P → ℝ)

/-- the three programs -/
inductive Prog
  | pd
  | tof
  | pd2d
deriving DecidableEq

/-- the variables that live through the loop over the phases: the last preferred orientation, the columns of the texture, the two sums -/
structure St (P : Type) where
  po : Option (List (P → ℝ))
  pars : List (Hkl → P → ℝ)
  plus : P → ℝ
  minus : P → ℝ

/-- `0.5 * p_scale * lorentz_factor * (profile_pv * weights).sum`, rhochi_pd.py:376-384, rhochi_pd2d.py:450-458, rhochi_tof.py:418-432 -/
noncomputable def signal {P : Type} (L : P → ℝ) (ph : Phase P) (hs : List Hkl) (w : List (P → ℝ)) (t : P) : ℝ :=
  1 / 2 * ph.scale * L t * (List.zipWith (fun (h : Hkl) (x : P → ℝ) => ph.profile t h.pos * x t) hs w).sum

/-- the shape `iint *= preferred_orientation` takes in place: equal lengths, or one factor for all -/
def broadcast {P : Type} (n : ℕ) (po : List (P → ℝ)) : Option (List (P → ℝ)) :=
  if po.length = n then some po
  else match po with
    | [x] => some (List.replicate n x)
    | _ => none

/-- one turn of the loop over the phases, rhochi_pd.py:169-390, rhochi_tof.py:243-440, rhochi_pd2d.py:222-462.
`pd` and `tof` multiply by `preferred_orientation` when the experiment has a texture table at all, `pd2d` when the phase is in it; `tof` overwrites
the columns of the table by the row found (rhochi_tof.py:251-257).  Reuse of earlier results is not modelled (`flag_use_precalculated_data`
false). -/
noncomputable def phaseStep {P : Type} (prog : Prog) (L : P → ℝ) (crystals : List Crystal) (tex : Option (Texture P)) (st : St P) (ph : Phase P) :
    Except Err (St P) :=
  let name := ph.name.toLower
  let ind : Option ℕ := tex.bind fun T => T.names.findIdx? fun n => n == name
  match ind with
  | some i =>
    match st.pars[i]? with
    | none => Except.error .index
    | some par =>
      let pars := if prog = .tof then [par] else st.pars
      match crystals.find? fun c => c.name.toLower == name with
      | none => Except.error .missing
      | some c =>
        let po := c.p1.map par
        let wp := List.zipWith (fun (h : Hkl) (f : P → ℝ) => fun t => h.plus * h.mult * f t) c.p1 po
        let wm := List.zipWith (fun (h : Hkl) (f : P → ℝ) => fun t => h.minus * h.mult * f t) c.p1 po
        Except.ok ⟨some po, pars, fun t => st.plus t + signal L ph c.p1 wp t, fun t => st.minus t + signal L ph c.p1 wm t⟩
  | none =>
    match crystals.find? fun c => c.name.toLower == name with
    | none => Except.error .missing
    | some c =>
      if tex.isSome ∧ prog ≠ .pd2d then
        match st.po with
        | none => Except.error .unbound
        | some po =>
          match broadcast c.own.length po with
          | none => Except.error .shape
          | some fs =>
            let wp := List.zipWith (fun (h : Hkl) (f : P → ℝ) => fun t => h.plus * h.mult * f t) c.own fs
            let wm := List.zipWith (fun (h : Hkl) (f : P → ℝ) => fun t => h.minus * h.mult * f t) c.own fs
            Except.ok ⟨some po, st.pars, fun t => st.plus t + signal L ph c.own wp t, fun t => st.minus t + signal L ph c.own wm t⟩
      else
        let wp := c.own.map fun h => fun _ : P => h.plus * h.mult
        let wm := c.own.map fun h => fun _ : P => h.minus * h.mult
        Except.ok ⟨st.po, st.pars, fun t => st.plus t + signal L ph c.own wp t, fun t => st.minus t + signal L ph c.own wm t⟩

/-- the state before the loop -/
def initial {P : Type} (tex : Option (Texture P)) : St P :=
  ⟨none, (tex.map (·.pars)).getD [], fun _ => 0, fun _ => 0⟩

/-- `total_signal_plus`, `total_signal_minus` after the loop -/
noncomputable def pattern {P : Type} (prog : Prog) (L : P → ℝ) (crystals : List Crystal) (tex : Option (Texture P)) (phases : List (Phase P)) :
    Except Err ((P → ℝ) × (P → ℝ)) :=
  match phases.foldlM (m := Except Err) (phaseStep prog L crystals tex) (initial tex) with
  | .error e => .error e
  | .ok st => .ok (st.plus, st.minus)

/-! ## chi squared of a powder pattern -/

/-- what a double can be after a division, with reals for the finite values and without the sign of infinity, which the square removes -/
inductive Fl
  | fin (x : ℝ)
  | inf
  | nan

namespace Fl

/-- `numpy.square(x/s)` -/
noncomputable def sqDiv (x s : ℝ) : Fl := if s = 0 then (if x = 0 then .nan else .inf) else .fin ((x / s) ^ 2)

/-- times a boolean -/
def mask (b : Bool) : Fl → Fl
  | .fin x => .fin (if b then x else 0)
  | .inf => if b then .inf else .nan
  | .nan => .nan

/-- addition of non-negative numbers -/
noncomputable def add : Fl → Fl → Fl
  | .nan, _ => .nan
  | _, .nan => .nan
  | .inf, _ => .inf
  | _, .inf => .inf
  | .fin x, .fin y => .fin (x + y)

end Fl

/-- a point: the two measured intensities with their errors, whether it is excluded, the two calculated ones, the background -/
structure Point where
  expPlus : ℝ
  sPlus : ℝ
  expMinus : ℝ
  sMinus : ℝ
  excluded : Bool
  calcPlus : ℝ
  calcMinus : ℝ
  bkg : ℝ

/-- `(numpy.square((signal_exp - total_signal_sum)/signal_sigma)*in_points).sum`, rhochi_pd.py:404-406, 423-428, rhochi_tof.py:461-482 -/
noncomputable def chiSum (l : List Point) : Fl :=
  (l.map fun p => Fl.mask (!p.excluded) (Fl.sqDiv (p.expPlus + p.expMinus - (p.calcPlus + p.calcMinus + p.bkg)) (√(p.sPlus ^ 2 + p.sMinus ^ 2)))).foldl
    Fl.add (.fin 0)

/-- `numpy.square((signal_exp_diff - total_signal_diff)/signal_sigma_diff).sum`, rhochi_pd.py:430-436, rhochi_tof.py:484-492: the excluded points
are not left out -/
noncomputable def chiDiff (l : List Point) : Fl :=
  (l.map fun p => Fl.sqDiv (p.expPlus - p.expMinus - (p.calcPlus - p.calcMinus)) (√(p.sPlus ^ 2 + p.sMinus ^ 2))).foldl Fl.add (.fin 0)

/-- `chi_sq` and `n_point` of a polarized powder pattern, rhochi_pd.py:420-440 -/
noncomputable def chiPowder (fSum fDiff : Bool) (l : List Point) : Fl × ℕ :=
  let c := Fl.add (Fl.add (.fin 0) (if fSum then chiSum l else .fin 0)) (if fDiff then chiDiff l else .fin 0)
  let n := (if fSum then (l.filter fun p => !p.excluded).length else 0) + (if fDiff then l.length else 0)
  (match c with
    | .nan => .fin (10 ^ 30)
    | c => c, n)

/-! ## chi squared of a single crystal -/

/-- a measured reflection with its calculated intensities and their derivatives over `p` parameters -/
structure Obs (p : ℕ) where
  value : ℝ
  sigma : ℝ
  excluded : Bool
  plus : ℝ
  minus : ℝ
  dplus : Fin p → ℝ
  dminus : Fin p → ℝ

/-- what is fitted: the flipping ratio, the asymmetry, or the intensity with a scale -/
inductive Kind
  | ratio
  | asymmetry
  | intensity (scale : ℝ)

/-- `exp_value`, procedure_rhochi/rhochi_diffrn.py:222-251: value and error -/
noncomputable def expValue {p : ℕ} : Kind → Obs p → ℝ × ℝ
  | .ratio, o => (o.value, o.sigma)
  | .asymmetry, o => ((o.value - 1) / (o.value + 1), √2 * o.sigma * √(o.value ^ 2 + 1) / (o.value + 1) ^ 2)
  | .intensity _, o => (o.value, o.sigma)

/-- `model_exp`, rhochi_diffrn.py:227-250 (the half wavelength enters through the two intensities, `calc_intensities_by_structure_factors`, C25); `calc_flip_ratio_by_iint`, `calc_asymmetry_by_iint` in
A_functions_base/flip_ratio.py:339-397 -/
noncomputable def modelExp {p : ℕ} : Kind → Obs p → ℝ
  | .ratio, o => o.plus / o.minus
  | .asymmetry, o => (o.plus - o.minus) / (o.plus + o.minus)
  | .intensity c, o => (o.plus + o.minus) * c

/-- `dder_model_exp`: the derivatives of the fitted quantity over the two intensities, flip_ratio.py:339-397, rhochi_diffrn.py:237-240 -/
noncomputable def dModel {p : ℕ} : Kind → Obs p → ℝ × ℝ
  | .ratio, o => (1 / o.minus, -1 * (o.plus / o.minus) / o.minus)
  | .asymmetry, o => (1 / (o.plus + o.minus) - (o.plus - o.minus) / (o.plus + o.minus) ^ 2,
      -1 / (o.plus + o.minus) - (o.plus - o.minus) / (o.plus + o.minus) ^ 2)
  | .intensity c, _ => (c, c)

/-- `chi_sq`, rhochi_diffrn.py:253-254 -/
noncomputable def chiCrystal {p : ℕ} (k : Kind) (l : List (Obs p)) : ℝ :=
  ((l.filter fun o => !o.excluded).map fun o => (((expValue k o).1 - modelExp k o) / (expValue k o).2) ^ 2).sum

/-- `n_hkl`, rhochi_diffrn.py:258 -/
def nHkl {p : ℕ} (l : List (Obs p)) : ℕ := (l.filter fun o => !o.excluded).length

/-- numpy multiplication of a column and the rows of a matrix over the reflections: equal numbers, or one of them repeated -/
def pairUp {α β : Type} (a : List α) (b : List β) : Option (List (α × β)) :=
  if a.length = b.length then some (a.zip b)
  else match a, b with
    | [x], b => some (b.map fun y => (x, y))
    | a, [y] => some (a.map fun x => (x, y))
    | _, _ => none

/-- `der_model_p`, rhochi_diffrn.py:368-371: over all reflections -/
noncomputable def derModel {p : ℕ} (k : Kind) (l : List (Obs p)) : List (Fin p → ℝ) :=
  l.map fun o j => (dModel k o).1 * o.dplus j + (dModel k o).2 * o.dminus j

/-- `der_chi_sq`, rhochi_diffrn.py:262-263, 372: the column belongs to the reflections that are not excluded, the rows to all; `none` is the
`ValueError` -/
noncomputable def gradCrystal {p : ℕ} (k : Kind) (l : List (Obs p)) : Option (Fin p → ℝ) :=
  let col := (l.filter fun o => !o.excluded).map fun o => ((expValue k o).1 - modelExp k o) * (1 / (expValue k o).2 ^ 2)
  (pairUp col (derModel k l)).map fun prs j => -2 * (prs.map fun x => x.1 * x.2 j).sum

/-- `dder_chi_sq`, rhochi_diffrn.py:373 -/
noncomputable def hessCrystal {p : ℕ} (k : Kind) (l : List (Obs p)) : Option (Fin p → Fin p → ℝ) :=
  let col := (l.filter fun o => !o.excluded).map fun o => 1 / (expValue k o).2 ^ 2
  (pairUp col (derModel k l)).map fun prs i j => 2 * (prs.map fun x => x.1 * (x.2 i * x.2 j)).sum

end Cryspy.Chi
