import Verif.Simplex.Model
import Mathlib.Tactic.Linarith
import Mathlib.Tactic.FieldSimp
import Mathlib.Tactic.Ring
import Mathlib.Tactic.FinCases
import Mathlib.Tactic.NormNum.Abs

/-!
# The errors estimated from a simplex

Specification: a chi squared that is exactly quadratic around the first vertex `t`, with value `c`, gradient `g` and Hessian
`H` there: `f (t + x) = c + g·x + x·H x / 2`.  The minimum then is at `t - H⁻¹ g`, and least squares theory gives the
covariance `s² (H / 2)⁻¹` with `s²` the chi squared per observation.
-/

namespace Cryspy.Simplex

open Matrix

variable {n : ℕ}

/-- `f` is quadratic around `t` with value `c`, gradient `g` and (symmetric) Hessian `H` -/
def Quadratic (f : Pt n → ℝ) (t : Pt n) (c : ℝ) (g : Pt n) (H : Matrix (Fin n) (Fin n) ℝ) : Prop :=
  Hᵀ = H ∧ ∀ x, f (t + x) = c + g ⬝ᵥ x + x ⬝ᵥ (H *ᵥ x) / 2

/-- a simplex with its first vertex `t` and the others on the axes through it, at the positive distances `r` -/
def Aligned (v : Fin (n + 1) → Pt n) (r : Pt n) : Prop := ∀ i, 0 < r i ∧ v i.succ = v 0 + Pi.single i (r i)

theorem quad_two {f : Pt n → ℝ} {t : Pt n} {c : ℝ} {g : Pt n} {H : Matrix (Fin n) (Fin n) ℝ} (h : Quadratic f t c g H) (i j : Fin n) (a b : ℝ) :
    f (t + (Pi.single i a + Pi.single j b)) = c + (g i * a + g j * b) + (H i i * a ^ 2 + 2 * H i j * a * b + H j j * b ^ 2) / 2 := by
  have hs : H j i = H i j := by
    have := congrFun (congrFun h.1 i) j
    rwa [Matrix.transpose_apply] at this
  rw [h.2]
  simp only [Matrix.mulVec_add, dotProduct_add, add_dotProduct, Matrix.mulVec_single, dotProduct_single, single_dotProduct,
    Pi.smul_apply, MulOpposite.smul_eq_mul_unop, MulOpposite.unop_op, Matrix.col_apply, hs]
  ring

theorem quad_one {f : Pt n → ℝ} {t : Pt n} {c : ℝ} {g : Pt n} {H : Matrix (Fin n) (Fin n) ℝ} (h : Quadratic f t c g H) (i : Fin n) (a : ℝ) :
    f (t + Pi.single i a) = c + g i * a + H i i * a ^ 2 / 2 := by
  have := quad_two h i i a 0
  rw [Pi.single_zero, add_zero] at this
  rw [this]
  ring

theorem mid_axis (v : Fin (n + 1) → Pt n) (i : Fin n) : mid (v 0) (axis v i) = v 0 + Pi.single i (radius v i / 2) := by
  funext j
  by_cases h : j = i
  · subst h
    simp only [mid, axis, Pi.add_apply, Pi.single_eq_same]
    ring
  · simp only [mid, axis, Pi.add_apply, Pi.single_eq_of_ne h]
    ring

theorem mid_axes (v : Fin (n + 1) → Pt n) (i j : Fin n) :
    mid (axis v i) (axis v j) = v 0 + (Pi.single i (radius v i / 2) + Pi.single j (radius v j / 2)) := by
  funext k
  have e : ∀ (i : Fin n) (a : ℝ), (Pi.single i (a / 2) : Pt n) k = (Pi.single i a : Pt n) k / 2 := by
    intro i a
    by_cases h : k = i
    · subst h; simp
    · simp [Pi.single_eq_of_ne h]
  simp only [mid, axis, Pi.add_apply, e]
  ring

theorem quad_start {f : Pt n → ℝ} {t : Pt n} {c : ℝ} {g : Pt n} {H : Matrix (Fin n) (Fin n) ℝ} (h : Quadratic f t c g H) : f t = c := by
  have := h.2 0
  simpa using this

theorem matQ_eq (v : Fin (n + 1) → Pt n) : matQ v = diagonal (radius v) := by
  ext i j
  simp only [matQ, axis, Pi.sub_apply, Pi.add_apply, add_sub_cancel_left, diagonal_apply]
  by_cases h : i = j
  · subst h; simp
  · rw [if_neg h, Pi.single_eq_of_ne (Ne.symm h)]

/-- For every simplex and every quadratic chi squared the matrix is half the Hessian in units of the radii, plus a diagonal
error: twice the difference of the chi squared at the vertices of the argument and at the vertices on the axes. -/
theorem matB_general {f : Pt n → ℝ} {v : Fin (n + 1) → Pt n} {c : ℝ} {g : Pt n} {H : Matrix (Fin n) (Fin n) ℝ}
    (h : Quadratic f (v 0) c g H) :
    matB f v = (1 / 2 : ℝ) • (diagonal (radius v) * H * diagonal (radius v)) +
      diagonal fun i => 2 * (f (v i.succ) - f (axis v i)) := by
  have hs : ∀ i j, H j i = H i j := fun i j => by
    have := congrFun (congrFun h.1 i) j
    rwa [Matrix.transpose_apply] at this
  ext i j
  simp only [Matrix.add_apply, Matrix.smul_apply, Matrix.mul_diagonal, Matrix.diagonal_mul, smul_eq_mul, matB, diagonal_apply]
  by_cases hij : i = j
  · subst hij
    rw [if_pos rfl, if_pos rfl, mid_axis, quad_one h, quad_start h, axis, quad_one h]
    ring
  · rw [if_neg hij, if_neg hij, mid_axes, mid_axis, mid_axis, quad_one h, quad_one h, quad_two h, quad_start h]
    rcases lt_or_gt_of_ne hij with hl | hl
    · rw [min_eq_left hl.le, max_eq_right hl.le]
      ring
    · rw [min_eq_right hl.le, max_eq_left hl.le, hs i j]
      ring

/-! ### a simplex along the axes -/

theorem foldl_max_const (l : List (Fin n)) (w : Fin n → ℝ) (m : ℝ) (h : ∀ i ∈ l, w i ≤ m) :
    l.foldl (fun m i => max m (w i)) m = m := by
  induction l with
  | nil => rfl
  | cons a l ih =>
    rw [List.foldl_cons, max_eq_left (h a (by simp))]
    exact ih fun i hi => h i (by simp [hi])

theorem foldl_max_eq (l : List (Fin n)) (w : Fin n → ℝ) (m M : ℝ) (hm : m ≤ M) (h : ∀ i ∈ l, w i ≤ M) (j : Fin n) (hj : j ∈ l) (hw : w j = M) :
    l.foldl (fun m i => max m (w i)) m = M := by
  induction l generalizing m with
  | nil => cases hj
  | cons a l ih =>
    rw [List.foldl_cons]
    rcases List.mem_cons.1 hj with rfl | hj
    · rw [hw, max_eq_right hm]
      exact foldl_max_const l w M fun i hi => h i (by simp [hi])
    · exact ih _ (max_le hm (h a (by simp))) (fun i hi => h i (by simp [hi])) hj

theorem aligned_radius {v : Fin (n + 1) → Pt n} {r : Pt n} (h : Aligned v r) : radius v = r := by
  funext j
  unfold radius
  refine foldl_max_eq _ (fun i => |v i.succ j - v 0 j|) 0 (r j) (h j).1.le (fun i _ => ?_) j (List.mem_finRange j) ?_
  · rw [(h i).2, Pi.add_apply, add_sub_cancel_left]
    by_cases hij : j = i
    · subst hij
      rw [Pi.single_eq_same, abs_of_pos (h j).1]
    · rw [Pi.single_eq_of_ne hij, abs_zero]
      exact (h j).1.le
  · rw [(h j).2, Pi.add_apply, add_sub_cancel_left, Pi.single_eq_same, abs_of_pos (h j).1]

theorem aligned_axis {v : Fin (n + 1) → Pt n} {r : Pt n} (h : Aligned v r) (i : Fin n) : axis v i = v i.succ := by
  rw [axis, aligned_radius h, (h i).2]

theorem aligned_inv {f : Pt n → ℝ} {v : Fin (n + 1) → Pt n} {r : Pt n} {c : ℝ} {g : Pt n} {H : Matrix (Fin n) (Fin n) ℝ}
    (ha : Aligned v r) (h : Quadratic f (v 0) c g H) (hH : IsUnit H.det) :
    (matB f v)⁻¹ = (2 : ℝ) • (diagonal (fun i => (r i)⁻¹) * H⁻¹ * diagonal (fun i => (r i)⁻¹)) := by
  have hd : diagonal r * diagonal (fun i => (r i)⁻¹) = (1 : Matrix (Fin n) (Fin n) ℝ) := by
    rw [diagonal_mul_diagonal]
    convert diagonal_one with i
    exact mul_inv_cancel₀ (ha i).1.ne'
  refine Matrix.inv_eq_right_inv ?_
  have hB : matB f v = (1 / 2 : ℝ) • (diagonal r * H * diagonal r) := by
    rw [matB_general h, aligned_radius ha]
    have : (diagonal fun i => 2 * (f (v i.succ) - f (axis v i))) = (0 : Matrix (Fin n) (Fin n) ℝ) := by
      rw [← diagonal_zero]
      congr 1
      funext i
      rw [aligned_axis ha]
      ring
    rw [this, add_zero]
  rw [hB, Matrix.smul_mul, Matrix.mul_smul, smul_smul]
  have : (1 / 2 : ℝ) * 2 = 1 := by norm_num
  rw [this, one_smul]
  calc diagonal r * H * diagonal r * (diagonal (fun i => (r i)⁻¹) * H⁻¹ * diagonal (fun i => (r i)⁻¹))
      = diagonal r * H * (diagonal r * diagonal (fun i => (r i)⁻¹)) * H⁻¹ * diagonal (fun i => (r i)⁻¹) := by
        simp only [Matrix.mul_assoc]
    _ = diagonal r * (H * H⁻¹) * diagonal (fun i => (r i)⁻¹) := by rw [hd, Matrix.mul_one]; simp only [Matrix.mul_assoc]
    _ = 1 := by rw [Matrix.mul_nonsing_inv _ hH, Matrix.mul_one, hd]

/-- For a simplex along the axes the error matrix is four times the chi squared times the inverse of the Hessian. -/
theorem error_aligned {f : Pt n → ℝ} {v : Fin (n + 1) → Pt n} {r : Pt n} {c : ℝ} {g : Pt n} {H : Matrix (Fin n) (Fin n) ℝ}
    (ha : Aligned v r) (h : Quadratic f (v 0) c g H) (hH : IsUnit H.det) : matError f v = (4 * c) • H⁻¹ := by
  have hd : diagonal r * diagonal (fun i => (r i)⁻¹) = (1 : Matrix (Fin n) (Fin n) ℝ) := by
    rw [diagonal_mul_diagonal]
    convert diagonal_one with i
    exact mul_inv_cancel₀ (ha i).1.ne'
  have hd' : diagonal (fun i => (r i)⁻¹) * diagonal r = (1 : Matrix (Fin n) (Fin n) ℝ) := by
    rw [diagonal_mul_diagonal]
    convert diagonal_one with i
    exact inv_mul_cancel₀ (ha i).1.ne'
  rw [matError, aligned_inv ha h hH, matQ_eq, aligned_radius ha, quad_start h, diagonal_transpose, Matrix.mul_smul, Matrix.smul_mul, smul_smul]
  have : diagonal r * (diagonal (fun i => (r i)⁻¹) * H⁻¹ * diagonal (fun i => (r i)⁻¹)) * diagonal r = H⁻¹ := by
    calc _ = (diagonal r * diagonal (fun i => (r i)⁻¹)) * H⁻¹ * (diagonal (fun i => (r i)⁻¹) * diagonal r) := by
          simp only [Matrix.mul_assoc]
      _ = H⁻¹ := by rw [hd, hd', Matrix.one_mul, Matrix.mul_one]
  rw [this]
  congr 1
  ring

/-- For a simplex along the axes the second result is twice the distance from the first vertex to the minimum. -/
theorem dist_aligned {f : Pt n → ℝ} {v : Fin (n + 1) → Pt n} {r : Pt n} {c : ℝ} {g : Pt n} {H : Matrix (Fin n) (Fin n) ℝ}
    (ha : Aligned v r) (h : Quadratic f (v 0) c g H) (hH : IsUnit H.det) (i : Fin n) : dist f v i = 2 * |(H⁻¹ *ᵥ g) i| := by
  have hd : diagonal r * diagonal (fun i => (r i)⁻¹) = (1 : Matrix (Fin n) (Fin n) ℝ) := by
    rw [diagonal_mul_diagonal]
    convert diagonal_one with i
    exact mul_inv_cancel₀ (ha i).1.ne'
  have hA : vecA f v = diagonal r *ᵥ g := by
    funext j
    rw [vecA, mid_axis, aligned_radius ha, quad_one h, quad_start h, ← aligned_axis ha, axis, aligned_radius ha, quad_one h,
      Matrix.mulVec_diagonal]
    ring
  have hd' : diagonal (fun i => (r i)⁻¹) * diagonal r = (1 : Matrix (Fin n) (Fin n) ℝ) := by
    rw [diagonal_mul_diagonal]
    convert diagonal_one with i
    exact inv_mul_cancel₀ (ha i).1.ne'
  have hm : (matQ v * (matB f v)⁻¹) *ᵥ vecA f v = (2 : ℝ) • (H⁻¹ *ᵥ g) := by
    rw [hA, Matrix.mulVec_mulVec, aligned_inv ha h hH, matQ_eq, aligned_radius ha, Matrix.mul_smul, Matrix.smul_mul, Matrix.smul_mulVec]
    congr 2
    calc diagonal r * (diagonal (fun i => (r i)⁻¹) * H⁻¹ * diagonal (fun i => (r i)⁻¹)) * diagonal r
        = (diagonal r * diagonal (fun i => (r i)⁻¹)) * H⁻¹ * (diagonal (fun i => (r i)⁻¹) * diagonal r) := by
          simp only [Matrix.mul_assoc]
      _ = H⁻¹ := by rw [hd, hd', Matrix.one_mul, Matrix.mul_one]
  rw [dist, hm, Pi.smul_apply, smul_eq_mul, abs_mul]
  norm_num

/-- the gradient vanishes at `t - H⁻¹ g`: the chi squared there is below that of every other point when `H` is positive -/
theorem minimum {f : Pt n → ℝ} {t : Pt n} {c : ℝ} {g : Pt n} {H : Matrix (Fin n) (Fin n) ℝ} (h : Quadratic f t c g H) (hH : IsUnit H.det)
    (hp : ∀ x, 0 ≤ x ⬝ᵥ (H *ᵥ x)) (y : Pt n) : f (t - H⁻¹ *ᵥ g) ≤ f y := by
  have hHm : H *ᵥ (H⁻¹ *ᵥ g) = g := by rw [Matrix.mulVec_mulVec, Matrix.mul_nonsing_inv _ hH, Matrix.one_mulVec]
  have e1 : f (t - H⁻¹ *ᵥ g) = c - g ⬝ᵥ (H⁻¹ *ᵥ g) / 2 := by
    rw [sub_eq_add_neg, h.2, Matrix.mulVec_neg, hHm, dotProduct_neg, neg_dotProduct_neg, dotProduct_comm (H⁻¹ *ᵥ g) g]
    ring
  have e2 : y = t + (y - t) := by rw [add_sub_cancel]
  set x := y - t
  have h0 := hp (x + H⁻¹ *ᵥ g)
  have hsym : (H⁻¹ *ᵥ g) ⬝ᵥ (H *ᵥ x) = g ⬝ᵥ x := by
    rw [Matrix.dotProduct_mulVec, ← Matrix.mulVec_transpose, h.1, hHm]
  rw [Matrix.mulVec_add, hHm, add_dotProduct, dotProduct_add, dotProduct_add, hsym, dotProduct_comm x g,
    dotProduct_comm (H⁻¹ *ᵥ g) g] at h0
  rw [e1, e2, h.2]
  linarith

/-- The standard uncertainty for `num` observations at the minimum itself: its square is twice the variance of least squares,
`(chi squared / num) (H / 2)⁻¹`. -/
theorem sigma_aligned {f : Pt n → ℝ} {v : Fin (n + 1) → Pt n} {r : Pt n} {c : ℝ} {H : Matrix (Fin n) (Fin n) ℝ}
    (ha : Aligned v r) (h : Quadratic f (v 0) c 0 H) (hH : IsUnit H.det) (hc : 0 ≤ c) {num : ℕ} (i : Fin n) (hi : 0 ≤ H⁻¹ i i) :
    sigma f v num i ^ 2 = 2 * (c / num * ((1 / 2 : ℝ) • H)⁻¹ i i) := by
  have hinv : ((1 / 2 : ℝ) • H)⁻¹ = (2 : ℝ) • H⁻¹ := by
    refine Matrix.inv_eq_right_inv ?_
    rw [Matrix.smul_mul, Matrix.mul_smul, smul_smul, Matrix.mul_nonsing_inv _ hH]
    norm_num
  have hd : dist f v i = 0 := by rw [dist_aligned ha h hH]; simp
  rw [sigma, hd, max_eq_left (Real.sqrt_nonneg _), error_aligned ha h hH, hinv]
  have h4 : 0 ≤ 4 * c * H⁻¹ i i := by positivity
  simp only [Matrix.smul_apply, smul_eq_mul]
  rw [abs_of_nonneg h4, Real.sq_sqrt (by positivity)]
  ring

/-- The standard uncertainty is never smaller than either estimate. -/
theorem sigma_ge (f : Pt n → ℝ) (v : Fin (n + 1) → Pt n) (num : ℕ) (i : Fin n) :
    Real.sqrt (|matError f v i i| / num) ≤ sigma f v num i ∧ dist f v i ≤ sigma f v num i := by
  constructor
  · rw [sigma, mul_one]; exact le_max_left _ _
  · exact le_max_right _ _

/-! ### examples -/

/-- one parameter, `f x = c + g x + h x²/2` -/
noncomputable def parabola (c g h : ℝ) : Pt 1 → ℝ := fun x => c + g * x 0 + h * x 0 ^ 2 / 2

theorem parabola_quadratic (c g h : ℝ) : Quadratic (parabola c g h) 0 c (fun _ => g) (diagonal fun _ => h) := by
  refine ⟨diagonal_transpose _, fun x => ?_⟩
  simp only [parabola, Pi.add_apply, Pi.zero_apply, zero_add, dotProduct, Matrix.mulVec_diagonal, Finset.univ_unique, Finset.sum_singleton,
    Fin.default_eq_zero]
  ring

/-- the simplex of the points `0` and `a` -/
noncomputable def segment (a : ℝ) : Fin 2 → Pt 1 := fun i _ => if i = 0 then 0 else a

theorem segment_zero (a : ℝ) : segment a 0 = 0 := by funext j; simp [segment]

theorem segment_aligned {a : ℝ} (h : 0 < a) : Aligned (segment a) fun _ => a := by
  intro i
  refine ⟨h, ?_⟩
  funext j
  have : j = i := Subsingleton.elim _ _
  subst this
  simp [segment]

/-- The hypotheses are met: a parabola with its minimum one tenth from the first vertex. -/
theorem aligned_example : dist (parabola 1 (1 / 5) 2) (segment (1 / 2)) 0 = 2 * |(1 : ℝ) / 10| := by
  have hq := parabola_quadratic 1 (1 / 5) 2
  rw [← segment_zero (1 / 2)] at hq
  have hdet : IsUnit (Matrix.det (diagonal fun _ => 2 : Matrix (Fin 1) (Fin 1) ℝ)) := by
    rw [Matrix.det_diagonal]; exact isUnit_iff_ne_zero.2 (by norm_num)
  rw [dist_aligned (segment_aligned (by norm_num)) hq hdet]
  have hinv : (diagonal fun _ => 2 : Matrix (Fin 1) (Fin 1) ℝ)⁻¹ = diagonal fun _ => 1 / 2 := by
    refine Matrix.inv_eq_right_inv ?_
    rw [diagonal_mul_diagonal]
    norm_num
  rw [hinv, Matrix.mulVec_diagonal]
  norm_num

/-- A simplex that is not along the axes in the positive direction gives nonsense even for a parabola: with its other vertex
at `-a` the matrix of `1 + a x/4 + x²` vanishes (the code raises). -/
theorem not_aligned_singular (a : ℝ) (ha : 0 < a) : matB (parabola 1 (a / 4) 2) (segment (-a)) = 0 := by
  have hr : radius (segment (-a)) = fun _ => a := by
    funext j
    have h0 : j = 0 := Subsingleton.elim _ _
    subst h0
    have : List.finRange 1 = [0] := rfl
    simp only [radius, this, List.foldl_cons, List.foldl_nil, segment]
    simp [abs_of_pos ha, ha.le]
  have hq := parabola_quadratic 1 (a / 4) 2
  rw [← segment_zero (-a)] at hq
  rw [matB_general hq, hr]
  ext i j
  have hi : i = 0 := Subsingleton.elim _ _
  have hj : j = 0 := Subsingleton.elim _ _
  subst hi hj
  simp only [Matrix.add_apply, Matrix.smul_apply, Matrix.mul_diagonal, Matrix.diagonal_mul, smul_eq_mul, diagonal_apply, if_true,
    Matrix.zero_apply, axis, hr, parabola, segment, Pi.add_apply, Pi.single_eq_same]
  simp
  ring

end Cryspy.Simplex
