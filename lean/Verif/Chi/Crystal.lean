import Verif.Chi.Model
import Mathlib.Analysis.Calculus.Deriv.Pow
import Mathlib.Analysis.Calculus.Deriv.Add
import Mathlib.Analysis.Calculus.Deriv.Mul
import Mathlib.Analysis.Calculus.Deriv.Inv
import Mathlib.Algebra.Order.BigOperators.Group.List
import Mathlib.Algebra.BigOperators.Ring.List
import Mathlib.Tactic.Ring
import Mathlib.Tactic.FieldSimp
import Mathlib.Tactic.Linarith
import Mathlib.Tactic.Positivity
import Mathlib.Tactic.NormNum

/-!
# C66: chi squared of a single crystal, its derivative and its second derivative
-/

namespace Cryspy.Chi

variable {p : ℕ}

/-! ### specification -/

/-- specification: the quantity the program fits, as a function of the two intensities -/
noncomputable def Kind.calc (k : Kind) (plus minus : ℝ) : ℝ :=
  match k with
  | .ratio => plus / minus
  | .asymmetry => (plus - minus) / (plus + minus)
  | .intensity c => c * (plus + minus)

/-- specification: the same for the measurement, which is a flipping ratio or an intensity -/
noncomputable def Kind.measured (k : Kind) (v : ℝ) : ℝ :=
  match k with
  | .asymmetry => (v - 1) / (v + 1)
  | _ => v

/-- specification: the intensities meet no division by zero -/
def Kind.Regular (k : Kind) (plus minus : ℝ) : Prop :=
  match k with
  | .ratio => minus ≠ 0
  | .asymmetry => plus + minus ≠ 0
  | .intensity _ => True

/-! ### theorems -/

/-- **C66.** chi squared is the weighted sum of squares over the reflections that are not excluded -/
theorem chiCrystal_spec (k : Kind) (l : List (Obs p)) :
    chiCrystal k l = (l.map fun o => if o.excluded then 0 else ((k.measured o.value - k.calc o.plus o.minus) / (expValue k o).2) ^ 2).sum := by
  unfold chiCrystal
  induction l with
  | nil => rfl
  | cons o l ih =>
    rw [List.map_cons, List.sum_cons, ← ih]
    by_cases h : o.excluded = true
    · rw [List.filter_cons_of_neg (by simp [h]), if_pos h, zero_add]
    · rw [List.filter_cons_of_pos (by simp [h]), if_neg h, List.map_cons, List.sum_cons]
      congr 3
      cases k <;> simp [expValue, modelExp, Kind.measured, Kind.calc, mul_comm]

/-- excluded reflections do not matter -/
theorem chiCrystal_excluded (k : Kind) {l l' : List (Obs p)} (h : (l.filter fun o => !o.excluded) = l'.filter fun o => !o.excluded) :
    chiCrystal k l = chiCrystal k l' ∧ nHkl l = nHkl l' := by
  unfold chiCrystal nHkl
  rw [h]
  exact ⟨rfl, rfl⟩

/-- neither does the order of the reflections -/
theorem chiCrystal_perm (k : Kind) {l l' : List (Obs p)} (h : l.Perm l') : chiCrystal k l = chiCrystal k l' := by
  rw [chiCrystal_spec, chiCrystal_spec]
  exact (h.map _).sum_eq

theorem chiCrystal_nonneg (k : Kind) (l : List (Obs p)) : 0 ≤ chiCrystal k l := by
  unfold chiCrystal
  apply List.sum_nonneg
  intro x hx
  obtain ⟨o, -, rfl⟩ := List.mem_map.1 hx
  exact sq_nonneg _

/-- it vanishes exactly when every reflection that is not excluded is met -/
theorem chiCrystal_zero_iff (k : Kind) {l : List (Obs p)} (h : ∀ o ∈ l, (expValue k o).2 ≠ 0) :
    chiCrystal k l = 0 ↔ ∀ o ∈ l, o.excluded = false → k.measured o.value = k.calc o.plus o.minus := by
  rw [chiCrystal_spec]
  induction l with
  | nil => simp
  | cons o l ih =>
    have i := ih fun o ho => h o (by simp [ho])
    have hs := h o (by simp)
    have n1 : 0 ≤ (if o.excluded then 0 else ((k.measured o.value - k.calc o.plus o.minus) / (expValue k o).2) ^ 2) := by
      split
      · exact le_rfl
      · exact sq_nonneg _
    have n2 := chiCrystal_nonneg k l
    rw [chiCrystal_spec] at n2
    rw [List.map_cons, List.sum_cons, List.forall_mem_cons, ← i]
    have z : (if o.excluded then 0 else ((k.measured o.value - k.calc o.plus o.minus) / (expValue k o).2) ^ 2) = 0 ↔
        (o.excluded = false → k.measured o.value = k.calc o.plus o.minus) := by
      cases hx : o.excluded
      · simp only [Bool.false_eq_true, if_false, forall_const]
        rw [sq_eq_zero_iff, div_eq_zero_iff, or_iff_left hs, sub_eq_zero]
      · simp
    rw [← z]
    constructor
    · intro h; constructor <;> linarith
    · rintro ⟨h1, h2⟩; rw [h1, h2, add_zero]

/-! ### derivative -/

/-- a path through the intensities: the derivatives the program stores for the parameter `j` are those along the path -/
structure Path (j : Fin p) (l : List (Obs p)) (x : ℝ) where
  plus : Obs p → ℝ → ℝ
  minus : Obs p → ℝ → ℝ
  plus_at : ∀ o ∈ l, plus o x = o.plus
  minus_at : ∀ o ∈ l, minus o x = o.minus
  plus_deriv : ∀ o ∈ l, HasDerivAt (plus o) (o.dplus j) x
  minus_deriv : ∀ o ∈ l, HasDerivAt (minus o) (o.dminus j) x

/-- the reflections with the intensities at another value of the parameter -/
def Path.at {j : Fin p} {l : List (Obs p)} {x : ℝ} (P : Path j l x) (y : ℝ) : List (Obs p) :=
  l.map fun o => { o with plus := P.plus o y, minus := P.minus o y }

theorem model_deriv (k : Kind) {o : Obs p} {j : Fin p} {x : ℝ} {f g : ℝ → ℝ} (hf : f x = o.plus) (hg : g x = o.minus)
    (hf' : HasDerivAt f (o.dplus j) x) (hg' : HasDerivAt g (o.dminus j) x) (hr : k.Regular o.plus o.minus) :
    HasDerivAt (fun y => k.calc (f y) (g y)) ((dModel k o).1 * o.dplus j + (dModel k o).2 * o.dminus j) x := by
  cases k with
  | ratio =>
    have hm : o.minus ≠ 0 := hr
    have := hf'.div hg' (by rw [hg]; exact hm)
    refine this.congr_deriv ?_
    rw [hf, hg]
    simp only [dModel]
    field_simp
    ring
  | asymmetry =>
    have hm : o.plus + o.minus ≠ 0 := hr
    have := (hf'.sub hg').div (hf'.add hg') (by simp only [Pi.add_apply]; rw [hf, hg]; exact hm)
    refine this.congr_deriv ?_
    simp only [Pi.add_apply, Pi.sub_apply]
    rw [hf, hg]
    simp only [dModel]
    field_simp
    ring
  | intensity c =>
    have := (hf'.add hg').const_mul c
    refine this.congr_deriv ?_
    simp only [dModel]
    ring

theorem grad_none_excluded (k : Kind) {l : List (Obs p)} (h : ∀ o ∈ l, o.excluded = false) :
    gradCrystal k l = some fun j => -2 * (l.map fun o => ((expValue k o).1 - modelExp k o) * (1 / (expValue k o).2 ^ 2) *
      ((dModel k o).1 * o.dplus j + (dModel k o).2 * o.dminus j)).sum := by
  have hf : (l.filter fun o => !o.excluded) = l := List.filter_eq_self.2 fun o ho => by simp [h o ho]
  unfold gradCrystal
  dsimp only
  rw [hf]
  unfold pairUp derModel
  rw [if_pos (by simp), Option.map_some]
  congr 1
  funext j
  congr 2
  induction l with
  | nil => rfl
  | cons o l ih =>
    simp only [List.map_cons, List.zip_cons_cons]
    congr 1
    exact ih (fun o ho => h o (by simp [ho])) (List.filter_eq_self.2 fun q hq => by simp [h q (by simp [hq])])

theorem hess_none_excluded (k : Kind) {l : List (Obs p)} (h : ∀ o ∈ l, o.excluded = false) :
    hessCrystal k l = some fun i j => 2 * (l.map fun o => 1 / (expValue k o).2 ^ 2 *
      (((dModel k o).1 * o.dplus i + (dModel k o).2 * o.dminus i) * ((dModel k o).1 * o.dplus j + (dModel k o).2 * o.dminus j))).sum := by
  have hf : (l.filter fun o => !o.excluded) = l := List.filter_eq_self.2 fun o ho => by simp [h o ho]
  unfold hessCrystal
  dsimp only
  rw [hf]
  unfold pairUp derModel
  rw [if_pos (by simp), Option.map_some]
  congr 1
  funext i j
  congr 2
  induction l with
  | nil => rfl
  | cons o l ih =>
    simp only [List.map_cons, List.zip_cons_cons]
    congr 1
    exact ih (fun o ho => h o (by simp [ho])) (List.filter_eq_self.2 fun q hq => by simp [h q (by simp [hq])])

/-- **C66.** When no reflection is excluded, the stored derivative of chi squared is its derivative over the parameter, provided the derivatives of
the intensities are -/
theorem grad_spec (k : Kind) {l : List (Obs p)} (hx : ∀ o ∈ l, o.excluded = false) (hr : ∀ o ∈ l, k.Regular o.plus o.minus) {j : Fin p} {x : ℝ}
    (P : Path j l x) : ∃ g, gradCrystal k l = some g ∧ HasDerivAt (fun y => chiCrystal k (P.at y)) (g j) x := by
  refine ⟨_, grad_none_excluded k hx, ?_⟩
  have hfun : (fun y => chiCrystal k (P.at y)) =
      fun y => (l.map fun o => ((k.measured o.value - k.calc (P.plus o y) (P.minus o y)) / (expValue k o).2) ^ 2).sum := by
    funext y
    rw [chiCrystal_spec]
    unfold Path.at
    rw [List.map_map]
    refine congrArg List.sum (List.map_congr_left fun o ho => ?_)
    simp only [Function.comp, hx o ho, Bool.false_eq_true, if_false]
    cases k <;> rfl
  rw [hfun]
  have key : ∀ L : List (Obs p), (∀ o ∈ L, o ∈ l) →
      HasDerivAt (fun y => (L.map fun o => ((k.measured o.value - k.calc (P.plus o y) (P.minus o y)) / (expValue k o).2) ^ 2).sum)
        (-2 * (L.map fun o => ((expValue k o).1 - modelExp k o) * (1 / (expValue k o).2 ^ 2) *
          ((dModel k o).1 * o.dplus j + (dModel k o).2 * o.dminus j)).sum) x := by
    intro L hL
    induction L with
    | nil => simpa using hasDerivAt_const x (0 : ℝ)
    | cons o L ih =>
      have i := ih fun q hq => hL q (by simp [hq])
      have ho := hL o (by simp)
      have d := model_deriv k (P.plus_at o ho) (P.minus_at o ho) (P.plus_deriv o ho) (P.minus_deriv o ho) (hr o ho)
      have d2 := ((d.const_sub (k.measured o.value)).div_const (expValue k o).2).pow 2
      have d3 := d2.add i
      have hf : (fun y => (List.map (fun o => ((k.measured o.value - k.calc (P.plus o y) (P.minus o y)) / (expValue k o).2) ^ 2) (o :: L)).sum) =
          (fun y => (k.measured o.value - k.calc (P.plus o y) (P.minus o y)) / (expValue k o).2) ^ 2 + fun y =>
            (L.map fun o => ((k.measured o.value - k.calc (P.plus o y) (P.minus o y)) / (expValue k o).2) ^ 2).sum := by
        funext y
        simp only [List.map_cons, List.sum_cons, Pi.add_apply, Pi.pow_apply]
      rw [hf]
      refine HasDerivAt.congr_deriv d3 ?_
      · simp only [List.map_cons, List.sum_cons]
        rw [P.plus_at o ho, P.minus_at o ho]
        have e1 : (expValue k o).1 = k.measured o.value := by cases k <;> rfl
        have e2 : modelExp k o = k.calc o.plus o.minus := by cases k <;> simp [modelExp, Kind.calc, mul_comm]
        rw [e1, e2]
        push_cast
        ring
  exact key l fun o ho => ho

/-- failure: for the scale of an unpolarised measurement the program puts zeros for the derivatives (rhochi_diffrn.py:335-337, "FIXME"), so the
reported derivative of chi squared is 0, which is the derivative only where the weighted differences vanish on average -/
theorem scale_derivative_wrong (c : ℝ) {l : List (Obs p)} (hx : ∀ o ∈ l, o.excluded = false) {j : Fin p}
    (hz : ∀ o ∈ l, o.dplus j = 0 ∧ o.dminus j = 0) :
    ∃ g, gradCrystal (.intensity c) l = some g ∧ g j = 0 ∧
      (HasDerivAt (fun s => chiCrystal (.intensity s) l) (g j) c ↔
        (l.map fun o => (o.value - c * (o.plus + o.minus)) * (o.plus + o.minus) / o.sigma ^ 2).sum = 0) := by
  refine ⟨_, grad_none_excluded _ hx, ?_⟩
  have hg : -2 * (l.map fun o => ((expValue (.intensity c) o).1 - modelExp (.intensity c) o) * (1 / (expValue (.intensity c) o).2 ^ 2) *
      ((dModel (.intensity c) o).1 * o.dplus j + (dModel (.intensity c) o).2 * o.dminus j)).sum = 0 := by
    have : ∀ L : List (Obs p), (∀ o ∈ L, o ∈ l) → (L.map fun o => ((expValue (.intensity c) o).1 - modelExp (.intensity c) o) *
        (1 / (expValue (.intensity c) o).2 ^ 2) * ((dModel (.intensity c) o).1 * o.dplus j + (dModel (.intensity c) o).2 * o.dminus j)).sum = 0 := by
      intro L hL
      induction L with
      | nil => rfl
      | cons o L ih =>
        rw [List.map_cons, List.sum_cons, ih fun q hq => hL q (by simp [hq]), (hz o (hL o (by simp))).1, (hz o (hL o (by simp))).2]
        ring
    rw [this l fun o ho => ho, mul_zero]
  have hd : HasDerivAt (fun s => chiCrystal (.intensity s) l)
      (-2 * (l.map fun o => (o.value - c * (o.plus + o.minus)) * (o.plus + o.minus) / o.sigma ^ 2).sum) c := by
    have hfun : (fun s => chiCrystal (.intensity s) l) =
        fun s => (l.map fun o => ((o.value - s * (o.plus + o.minus)) / o.sigma) ^ 2).sum := by
      funext s
      rw [chiCrystal_spec]
      refine congrArg List.sum (List.map_congr_left fun o ho => ?_)
      simp only [hx o ho, Bool.false_eq_true, if_false]
      rfl
    rw [hfun]
    clear hfun hg hx hz
    induction l with
    | nil => simpa using hasDerivAt_const c (0 : ℝ)
    | cons o L ih =>
      have d := ((((hasDerivAt_id c).mul_const (o.plus + o.minus)).const_sub o.value).div_const o.sigma).pow 2
      have d3 := d.add ih
      have hf : (fun s => (List.map (fun o : Obs p => ((o.value - s * (o.plus + o.minus)) / o.sigma) ^ 2) (o :: L)).sum) =
          (fun s => (o.value - id s * (o.plus + o.minus)) / o.sigma) ^ 2 +
            fun s => (L.map fun o => ((o.value - s * (o.plus + o.minus)) / o.sigma) ^ 2).sum := by
        funext s
        simp only [List.map_cons, List.sum_cons, Pi.add_apply, Pi.pow_apply, id]
      rw [hf]
      refine HasDerivAt.congr_deriv d3 ?_
      simp only [List.map_cons, List.sum_cons, id]
      push_cast
      ring
  refine ⟨hg, ?_⟩
  rw [hg]
  constructor
  · intro h
    have := h.unique hd
    linarith
  · intro h
    rw [h, mul_zero] at hd
    exact hd

/-- an instance: one reflection, measured 2, calculated 1 -/
example : ∃ g, gradCrystal (.intensity 1) [(⟨2, 1, false, 1, 0, fun _ => 0, fun _ => 0⟩ : Obs 1)] = some g ∧ g 0 = 0 ∧
    ¬ HasDerivAt (fun s => chiCrystal (.intensity s) [(⟨2, 1, false, 1, 0, fun _ => 0, fun _ => 0⟩ : Obs 1)]) (g 0) 1 := by
  obtain ⟨g, h1, h2, h3⟩ := scale_derivative_wrong (p := 1) 1 (l := [⟨2, 1, false, 1, 0, fun _ => 0, fun _ => 0⟩]) (j := 0) (by simp) (by simp)
  exact ⟨g, h1, h2, fun h => by have := h3.1 h; norm_num at this⟩

/-- the second derivative is symmetric and never negative, whatever is excluded -/
theorem hess_symm (k : Kind) {l : List (Obs p)} {h : Fin p → Fin p → ℝ} (hh : hessCrystal k l = some h) (i j : Fin p) : h i j = h j i := by
  unfold hessCrystal at hh
  dsimp only at hh
  rw [Option.map_eq_some_iff] at hh
  obtain ⟨prs, -, rfl⟩ := hh
  dsimp only
  congr 2
  exact List.map_congr_left fun x _ => by ring

theorem hess_nonneg (k : Kind) {l : List (Obs p)} (hx : ∀ o ∈ l, o.excluded = false) {h : Fin p → Fin p → ℝ} (hh : hessCrystal k l = some h)
    (v : List (Fin p × ℝ)) : 0 ≤ (v.map fun a => (v.map fun b => a.2 * h a.1 b.1 * b.2).sum).sum := by
  rw [hess_none_excluded k hx] at hh
  cases hh
  have e : ∀ L : List (Obs p), (v.map fun a => (v.map fun b => a.2 * (2 * (L.map fun o => 1 / (expValue k o).2 ^ 2 *
      (((dModel k o).1 * o.dplus a.1 + (dModel k o).2 * o.dminus a.1) * ((dModel k o).1 * o.dplus b.1 + (dModel k o).2 * o.dminus b.1))).sum) * b.2).sum).sum =
      (L.map fun o => 2 * (1 / (expValue k o).2 ^ 2) * ((v.map fun a => a.2 * ((dModel k o).1 * o.dplus a.1 + (dModel k o).2 * o.dminus a.1)).sum) ^ 2).sum := by
    intro L
    induction L with
    | nil => simp
    | cons o L ih =>
      rw [List.map_cons, List.sum_cons, ← ih]
      simp only [List.map_cons, List.sum_cons]
      rw [sq (List.sum _), ← List.sum_map_mul_right, ← List.sum_map_mul_left, ← List.sum_map_add]
      refine congrArg List.sum (List.map_congr_left fun a _ => ?_)
      rw [← List.sum_map_mul_left, ← List.sum_map_mul_left, ← List.sum_map_add]
      refine congrArg List.sum (List.map_congr_left fun b _ => ?_)
      ring
  rw [e]
  apply List.sum_nonneg
  intro y hy
  obtain ⟨o, -, rfl⟩ := List.mem_map.1 hy
  positivity

/-! ### defects -/

/-- defect: as soon as a reflection is excluded and at least two are not, the derivatives raise -/
theorem grad_excluded_raises (k : Kind) {l : List (Obs p)} (h1 : nHkl l ≠ l.length) (h2 : 2 ≤ nHkl l) : gradCrystal k l = none ∧ hessCrystal k l = none := by
  have hlen : ∀ (α : Type) (g : Obs p → α), pairUp ((l.filter fun o => !o.excluded).map g) (derModel k l) = none := by
    intro α g
    unfold nHkl at h1 h2
    have hle : (l.filter fun o => !o.excluded).length ≤ l.length := List.length_filter_le _ _
    unfold pairUp derModel
    rw [if_neg (by simpa using h1)]
    generalize hA : (l.filter fun o => !o.excluded).map g = A
    generalize hB : (l.map fun o j => (dModel k o).1 * o.dplus j + (dModel k o).2 * o.dminus j) = B
    have hA' : 2 ≤ A.length := by rw [← hA, List.length_map]; exact h2
    have hB' : 2 ≤ B.length := by rw [← hB, List.length_map]; omega
    match A, B with
    | _ :: _ :: _, _ :: _ :: _ => rfl
    | [_], _ => simp at hA'
    | [], _ => simp at hA'
    | _ :: _ :: _, [_] => simp at hB'
    | _ :: _ :: _, [] => simp at hB'
  unfold gradCrystal hessCrystal
  dsimp only
  rw [hlen, hlen]
  exact ⟨rfl, rfl⟩

/-- defect: with a single reflection left the excluded ones enter the derivative -/
theorem grad_single_wrong : ∃ l : List (Obs 1), chiCrystal .ratio l = 1 ∧ (∀ o ∈ l, o.excluded = false → o.dplus 0 = 0 ∧ o.dminus 0 = 0) ∧
    gradCrystal .ratio l = some fun _ => -2 := by
  refine ⟨[⟨2, 1, false, 1, 1, fun _ => 0, fun _ => 0⟩, ⟨0, 1, true, 1, 1, fun _ => 1, fun _ => 0⟩], ?_, ?_, ?_⟩
  · norm_num [chiCrystal, expValue, modelExp]
  · intro o ho he
    simp only [List.mem_cons, List.not_mem_nil, or_false] at ho
    rcases ho with rfl | rfl
    · exact ⟨rfl, rfl⟩
    · cases he
  · unfold gradCrystal derModel
    simp only [List.filter_cons, Bool.not_false, Bool.not_true, if_true, Bool.false_eq_true, if_false, List.filter_nil, List.map_cons, List.map_nil, pairUp,
      List.length_cons, List.length_nil, Option.map_some, expValue, modelExp, dModel]
    norm_num

/-- specification: the error of `f R` for an error `σ` of `R` in first order is `|f' R| σ` -/
def FirstOrder (f : ℝ → ℝ) (R σ e : ℝ) : Prop := ∃ d, HasDerivAt f d R ∧ e = |d| * σ

/-- defect: the error given to the asymmetry is that of first order only for `R = 1` (or `R = -1`, where nothing is defined) -/
theorem asymmetry_error_wrong (o : Obs p) (hR : o.value + 1 ≠ 0) (hs : o.sigma ≠ 0) :
    FirstOrder (fun R => (R - 1) / (R + 1)) o.value o.sigma (expValue .asymmetry o).2 ↔ o.value = 1 := by
  have hd : HasDerivAt (fun R : ℝ => (R - 1) / (R + 1)) (2 / (o.value + 1) ^ 2) o.value := by
    have := ((hasDerivAt_id o.value).sub_const 1).div ((hasDerivAt_id o.value).add_const 1) (by simpa using hR)
    refine this.congr_deriv ?_
    simp only [id]
    ring
  have hpos : 0 < (o.value + 1) ^ 2 := lt_of_le_of_ne (sq_nonneg _) (Ne.symm (pow_ne_zero 2 hR))
  have habs : |2 / (o.value + 1) ^ 2| = 2 / (o.value + 1) ^ 2 := abs_of_pos (by positivity)
  have e2 : √2 * √(o.value ^ 2 + 1) = √(2 * (o.value ^ 2 + 1)) := (Real.sqrt_mul (by norm_num) _).symm
  have main : (expValue .asymmetry o).2 = 2 / (o.value + 1) ^ 2 * o.sigma ↔ o.value = 1 := by
    show √2 * o.sigma * √(o.value ^ 2 + 1) / (o.value + 1) ^ 2 = _ ↔ _
    rw [div_eq_iff hpos.ne']
    rw [show 2 / (o.value + 1) ^ 2 * o.sigma * (o.value + 1) ^ 2 = 2 * o.sigma by field_simp]
    rw [show √2 * o.sigma * √(o.value ^ 2 + 1) = √(2 * (o.value ^ 2 + 1)) * o.sigma by rw [← e2]; ring]
    rw [mul_left_inj' hs, Real.sqrt_eq_iff_mul_self_eq (by positivity) (by norm_num)]
    constructor
    · intro h
      have h2 : (o.value - 1) * (o.value + 1) = 0 := by linarith
      rcases mul_eq_zero.1 h2 with h | h
      · linarith
      · exact absurd h hR
    · intro h; rw [h]; norm_num
  constructor
  · rintro ⟨d, hd', e⟩
    rw [hd'.unique hd, habs] at e
    exact main.1 e
  · intro h
    exact ⟨_, hd, by rw [habs]; exact main.2 h⟩

/-- non-vacuity: a path whose intensities depend linearly on the parameter -/
example : ∃ (l : List (Obs 1)) (_ : Path 0 l 0), l.length = 2 ∧ ∀ o ∈ l, o.excluded = false ∧ Kind.Regular .ratio o.plus o.minus := by
  refine ⟨[⟨2, 1, false, 1, 1, fun _ => 3, fun _ => 0⟩, ⟨1, 1, false, 4, 2, fun _ => 3, fun _ => 0⟩],
    ⟨fun o y => o.plus + y * 3, fun o _ => o.minus, ?_, ?_, ?_, ?_⟩, rfl, ?_⟩
  · intro o _; simp
  · intro o _; rfl
  · intro o ho
    have hd : o.dplus 0 = 3 := by
      simp only [List.mem_cons, List.not_mem_nil, or_false] at ho
      rcases ho with rfl | rfl <;> rfl
    rw [hd]
    simpa using ((hasDerivAt_id (0 : ℝ)).mul_const 3).const_add o.plus
  · intro o ho
    have hd : o.dminus 0 = 0 := by
      simp only [List.mem_cons, List.not_mem_nil, or_false] at ho
      rcases ho with rfl | rfl <;> rfl
    rw [hd]
    exact hasDerivAt_const _ _
  · intro o ho
    simp only [List.mem_cons, List.not_mem_nil, or_false] at ho
    rcases ho with rfl | rfl <;> exact ⟨rfl, by norm_num [Kind.Regular]⟩

end Cryspy.Chi
