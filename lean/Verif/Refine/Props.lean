import Verif.Refine.Model
import Mathlib.Analysis.Matrix.PosDef
import Mathlib.Algebra.Order.Star.Real
import Mathlib.Algebra.BigOperators.Field
import Mathlib.Tactic.Ring
import Mathlib.Tactic.FieldSimp
import Mathlib.Tactic.Linarith
import Mathlib.Tactic.NormNum
import Mathlib.Tactic.Positivity
import Mathlib.Tactic.FinCases
import Mathlib.Data.Fin.VecNotation
import Mathlib.LinearAlgebra.Matrix.Notation
import Mathlib.LinearAlgebra.Matrix.Determinant.Basic

/-!
# Properties of correlation (C36), the numerical Hessian (C49), Hamilton constraints (C41)
-/

namespace Cryspy.Refine

open Matrix

/-! ### Correlation matrix and sigmas -/

section
variable {n : Type*}

theorem sigmas_sq (h : Matrix n n ℝ) (i : n) : sigmas h i ^ 2 = |h i i| :=
  Real.sq_sqrt (abs_nonneg _)

theorem sigmas_pos (h : Matrix n n ℝ) (i : n) (hi : h i i ≠ 0) : 0 < sigmas h i :=
  Real.sqrt_pos.mpr (abs_pos.mpr hi)

/-- Correlations and sigmas together give the inverse Hessian back. -/
theorem correlation_reproduces (h : Matrix n n ℝ) (hd : ∀ i, h i i ≠ 0) :
    fromCorrelation (correlation h) (sigmas h) = h := by
  ext i j
  have hi := (sigmas_pos h i (hd i)).ne'
  have hj := (sigmas_pos h j (hd j)).ne'
  simp only [fromCorrelation, correlation]
  field_simp

/-- The diagonal of the correlation matrix is one, minus one where the variance came out negative. -/
theorem correlation_diag (h : Matrix n n ℝ) (i : n) :
    (0 < h i i → correlation h i i = 1) ∧ (h i i < 0 → correlation h i i = -1) := by
  have e : correlation h i i = h i i / |h i i| := by
    simp only [correlation]; rw [← pow_two, sigmas_sq]
  constructor
  · intro hi; rw [e, abs_of_pos hi, div_self hi.ne']
  · intro hi; rw [e, abs_of_neg hi, div_neg, div_self hi.ne]

/-- Conversely, unit diagonal correlations and positive sigmas are recovered from their matrix. -/
theorem correlation_fromCorrelation (c : Matrix n n ℝ) (s : n → ℝ) (hs : ∀ i, 0 < s i)
    (hc : ∀ i, c i i = 1) :
    sigmas (fromCorrelation c s) = s ∧ correlation (fromCorrelation c s) = c := by
  have h1 : sigmas (fromCorrelation c s) = s := by
    funext i
    simp only [sigmas, fromCorrelation, hc, one_mul]
    rw [abs_of_pos (mul_pos (hs i) (hs i)), Real.sqrt_mul_self (hs i).le]
  refine ⟨h1, ?_⟩
  ext i j
  have hi := (hs i).ne'
  have hj := (hs j).ne'
  simp only [correlation, h1, fromCorrelation]
  field_simp

/-- For a symmetric matrix the correlations are symmetric. -/
theorem correlation_symm (h : Matrix n n ℝ) (hs : h.IsSymm) : (correlation h).IsSymm := by
  ext i j
  have := hs.apply i j
  simp only [transpose_apply, correlation, this, mul_comm]

/-- For a covariance matrix (positive semidefinite) all correlations lie between -1 and 1. -/
theorem correlation_le_one [Fintype n] [DecidableEq n] (h : Matrix n n ℝ) (hp : h.PosSemidef) (i j : n)
    (hi : h i i ≠ 0) (hj : h j j ≠ 0) : |correlation h i j| ≤ 1 := by
  have quad : ∀ a b : ℝ, 0 ≤ a * a * h i i + a * b * h i j + b * a * h j i + b * b * h j j := by
    intro a b
    have := hp.dotProduct_mulVec_nonneg (Pi.single i a + Pi.single j b)
    simp only [star_trivial, mulVec_add, dotProduct_add, add_dotProduct, mulVec_single,
      single_dotProduct, Pi.smul_apply, MulOpposite.smul_eq_mul_unop, MulOpposite.unop_op,
      col_apply] at this
    linarith
  have hsym : h j i = h i j := by
    have := hp.isHermitian.apply i j
    simpa using this
  have hii : 0 < h i i := lt_of_le_of_ne (by have := quad 1 0; linarith) (Ne.symm hi)
  have hjj : 0 < h j j := lt_of_le_of_ne (by have := quad 0 1; linarith) (Ne.symm hj)
  have hdet : h i j ^ 2 ≤ h i i * h j j := by
    have := quad (h i j) (-(h i i))
    rw [hsym] at this
    have h3 : 0 ≤ h i i * (h i i * h j j - h i j ^ 2) := by nlinarith
    have := nonneg_of_mul_nonneg_right h3 hii
    linarith
  have hsi := sigmas_pos h i hi
  have hsj := sigmas_pos h j hj
  simp only [correlation]
  rw [abs_div, abs_of_pos (mul_pos hsi hsj), div_le_one (mul_pos hsi hsj)]
  apply abs_le_of_sq_le_sq _ (mul_pos hsi hsj).le
  rw [mul_pow, sigmas_sq, sigmas_sq, abs_of_pos hii, abs_of_pos hjj]
  exact hdet

end

example : ∃ h : Matrix (Fin 2) (Fin 2) ℝ, h.IsSymm ∧ (∀ i, h i i ≠ 0) ∧ correlation h 0 1 = 1 / 2 := by
  refine ⟨!![4, 1; 1, 1], ?_, ?_, ?_⟩
  · ext i j; fin_cases i <;> fin_cases j <;> rfl
  · intro i; fin_cases i <;> norm_num
  · have h4 : Real.sqrt 4 = 2 := by
      rw [show (4 : ℝ) = 2 ^ 2 by norm_num]; exact Real.sqrt_sq (by norm_num)
    simp [correlation, sigmas, h4]

/-! ### The numerical Hessian -/

section
variable {n : ℕ}

theorem step_pos (p : ℝ) : 0 < step p := by
  unfold step
  simp only
  split_ifs with h
  · norm_num
  · push Not at h
    exact lt_of_lt_of_le (by norm_num) h

theorem bump_eq (p : Fin n → ℝ) (i : Fin n) (d : ℝ) : bump p i d = p + Pi.single i d := by
  funext k
  unfold bump
  by_cases hk : k = i
  · subst hk; simp
  · simp [hk]

/-- A quadratic function of the parameters. -/
def quadratic (c : ℝ) (g : Fin n → ℝ) (a : Matrix (Fin n) (Fin n) ℝ) (p : Fin n → ℝ) : ℝ :=
  c + g ⬝ᵥ p + p ⬝ᵥ a *ᵥ p

/-- For every quadratic function, whatever the parameters and hence the steps, the numerical Hessian
is the exact matrix of second derivatives. -/
theorem numericHessian_quadratic (c : ℝ) (g : Fin n → ℝ) (a : Matrix (Fin n) (Fin n) ℝ)
    (p : Fin n → ℝ) : numericHessian (quadratic c g a) p = a + aᵀ := by
  have key : ∀ i j, secondDifference (quadratic c g a) p i j = a i j + a j i := by
    intro i j
    have hi := (step_pos (p i)).ne'
    have hj := (step_pos (p j)).ne'
    unfold secondDifference quadratic
    simp only [bump_eq]
    rw [div_eq_iff (by positivity)]
    simp only [mulVec_add, dotProduct_add, add_dotProduct, mulVec_single,
      single_dotProduct, Pi.smul_apply, MulOpposite.smul_eq_mul_unop, MulOpposite.unop_op,
      col_apply, Pi.add_apply, dotProduct_single, dotProduct_smul]
    ring
  ext i j
  unfold numericHessian
  simp only [Matrix.add_apply, transpose_apply]
  split_ifs
  · exact key i j
  · rw [key j i, add_comm]

/-- So the estimated inverse Hessian is exact for quadratic functions. -/
theorem estimateInverse_quadratic (c : ℝ) (g : Fin n → ℝ) (a : Matrix (Fin n) (Fin n) ℝ)
    (p : Fin n → ℝ) (ha : (a + aᵀ).det ≠ 0) :
    (estimateInverse (quadratic c g a) p).1 = some (a + aᵀ)⁻¹ := by
  unfold estimateInverse
  simp only [numericHessian_quadratic, if_neg ha]

/-- The numerical Hessian is symmetric for every function. -/
theorem numericHessian_symm (f : (Fin n → ℝ) → ℝ) (p : Fin n → ℝ) : (numericHessian f p).IsSymm := by
  ext i j
  simp only [transpose_apply, numericHessian]
  rcases lt_trichotomy i j with h | h | h
  · rw [if_pos h.le, if_neg (not_le.mpr h)]
  · subst h; rfl
  · rw [if_neg (not_le.mpr h), if_pos h.le]

/-- The first derivatives it returns beside are zero whatever the function, also where the gradient
is not. -/
theorem first_derivative_wrong (f : (Fin n → ℝ) → ℝ) (p : Fin n → ℝ) :
    (estimateInverse f p).2 = 0 := rfl

/-- The sum of weighted squares of a linear model: data `y`, errors `s`, design matrix `j`. -/
noncomputable def chiSq {k : ℕ} (y s : Fin k → ℝ) (j : Matrix (Fin k) (Fin n) ℝ) (p : Fin n → ℝ) : ℝ :=
  ∑ a, ((y a - (j *ᵥ p) a) / s a) ^ 2

/-- The normal matrix of the least-squares problem; its inverse is the covariance matrix of the
estimated parameters. -/
noncomputable def normalMatrix {k : ℕ} (s : Fin k → ℝ) (j : Matrix (Fin k) (Fin n) ℝ) :
    Matrix (Fin n) (Fin n) ℝ :=
  jᵀ * Matrix.diagonal (fun a => 1 / s a ^ 2) * j

/-- The matrix from which the program takes the errors of the parameters is half the covariance
matrix: the reported errors are smaller than the standard errors of least squares by the square
root of two. -/
theorem errors_too_small {k : ℕ} (y s : Fin k → ℝ) (j : Matrix (Fin k) (Fin n) ℝ) (p : Fin n → ℝ)
    (hN : (normalMatrix s j).det ≠ 0) :
    (estimateInverse (chiSq y s j) p).1 = some ((1 / 2 : ℝ) • (normalMatrix s j)⁻¹) := by
  have e : chiSq y s j = quadratic (∑ a, (y a / s a) ^ 2)
      (fun i => -2 * ∑ a, y a * j a i / s a ^ 2) (normalMatrix s j) := by
    funext p
    unfold chiSq quadratic normalMatrix
    have h1 : p ⬝ᵥ (jᵀ * Matrix.diagonal (fun a => 1 / s a ^ 2) * j) *ᵥ p =
        ∑ a, (j *ᵥ p) a ^ 2 / s a ^ 2 := by
      rw [← mulVec_mulVec, ← mulVec_mulVec, dotProduct_mulVec, vecMul_transpose]
      simp only [dotProduct, mulVec_diagonal]
      refine Finset.sum_congr rfl fun a _ => ?_
      ring
    have h2 : (fun i => -2 * ∑ a, y a * j a i / s a ^ 2) ⬝ᵥ p =
        ∑ a, -2 * y a * (j *ᵥ p) a / s a ^ 2 := by
      simp only [dotProduct, mulVec, Finset.mul_sum, Finset.sum_mul, Finset.sum_div]
      rw [Finset.sum_comm]
      refine Finset.sum_congr rfl fun a _ => Finset.sum_congr rfl fun i _ => ?_
      ring
    rw [h1, h2, ← Finset.sum_add_distrib, ← Finset.sum_add_distrib]
    refine Finset.sum_congr rfl fun a _ => ?_
    rw [div_pow, div_pow, ← add_div, ← add_div]
    ring
  have hsymm : (normalMatrix s j)ᵀ = normalMatrix s j := by
    unfold normalMatrix
    rw [transpose_mul, transpose_mul, transpose_transpose, diagonal_transpose, Matrix.mul_assoc]
  have e2 : normalMatrix s j + (normalMatrix s j)ᵀ = (2 : ℝ) • normalMatrix s j := by
    rw [hsymm, two_smul]
  have hdet : ((2 : ℝ) • normalMatrix s j).det ≠ 0 := by
    rw [det_smul]; exact mul_ne_zero (pow_ne_zero _ (by norm_num)) hN
  rw [e, estimateInverse_quadratic _ _ _ _ (by rw [e2]; exact hdet), e2]
  congr 1
  have hu : IsUnit (normalMatrix s j).det := isUnit_iff_ne_zero.mpr hN
  apply inv_eq_right_inv
  rw [smul_mul_smul_comm, mul_nonsing_inv _ hu]
  norm_num

example : (normalMatrix ![1] !![1] : Matrix (Fin 1) (Fin 1) ℝ).det ≠ 0 := by
  simp [normalMatrix, Matrix.mul_apply]

end

/-! ### Hamilton's constraints -/

section
variable {m n : ℕ}

/-- After the shift the step satisfies every constraint exactly. -/
theorem hamilton_satisfies (delta : Fin n → ℝ) (dder : Matrix (Fin n) (Fin n) ℝ)
    (q : Matrix (Fin m) (Fin n) ℝ) (shift : Fin n → ℝ)
    (h : hamiltonShift delta dder q = some shift) : q *ᵥ (delta + shift) = 0 := by
  unfold hamiltonShift at h
  simp only at h
  split_ifs at h with hd
  have hu : IsUnit (q * dder * qᵀ).det := isUnit_iff_ne_zero.mpr hd
  cases h
  rw [mulVec_add, mulVec_neg, ← vecMul_transpose, ← vecMul_transpose, vecMul_vecMul]
  have : qᵀ * ((q * dder * qᵀ)⁻¹ * (q * dder)) * qᵀ = qᵀ := by
    rw [Matrix.mul_assoc, Matrix.mul_assoc, nonsing_inv_mul _ hu, Matrix.mul_one]
  rw [this]
  simp

/-- A step that satisfies the constraints already is not changed. -/
theorem hamilton_keeps (delta : Fin n → ℝ) (dder : Matrix (Fin n) (Fin n) ℝ)
    (q : Matrix (Fin m) (Fin n) ℝ) (shift : Fin n → ℝ)
    (h : hamiltonShift delta dder q = some shift) (hq : q *ᵥ delta = 0) : shift = 0 := by
  unfold hamiltonShift at h
  simp only at h
  split_ifs at h with hd
  cases h
  rw [← vecMul_vecMul, vecMul_transpose, hq]
  simp

/-- When the matrix `Q V Qᵀ` is singular the program raises. -/
theorem hamilton_singular (delta : Fin n → ℝ) (dder : Matrix (Fin n) (Fin n) ℝ)
    (q : Matrix (Fin m) (Fin n) ℝ) : hamiltonShift delta dder q = none ↔ (q * dder * qᵀ).det = 0 := by
  unfold hamiltonShift
  simp only
  split_ifs with h <;> simp [h]

/-- The quadratic model of `chi_sq` for a step `x`: gradient `g`, matrix of second derivatives `v`. -/
noncomputable def quadraticModel (g : Fin n → ℝ) (v : Matrix (Fin n) (Fin n) ℝ) (x : Fin n → ℝ) : ℝ :=
  g ⬝ᵥ x + (1 / 2) * (x ⬝ᵥ v *ᵥ x)

/-- Hamilton's step is the best one among those that satisfy the constraints when the matrix given
is the inverse of the second derivatives. -/
theorem hamilton_with_inverse_minimal (g : Fin n → ℝ) (v : Matrix (Fin n) (Fin n) ℝ)
    (hv : v.PosDef) (q : Matrix (Fin m) (Fin n) ℝ) (shift : Fin n → ℝ)
    (h : hamiltonShift (-(v⁻¹ *ᵥ g)) v⁻¹ q = some shift) (x : Fin n → ℝ) (hx : q *ᵥ x = 0) :
    quadraticModel g v (-(v⁻¹ *ᵥ g) + shift) ≤ quadraticModel g v x := by
  have hq := hamilton_satisfies _ _ _ _ h
  have hu : IsUnit v.det := isUnit_iff_ne_zero.mpr hv.det_pos.ne'
  have hsym : vᵀ = v := by
    have := hv.isHermitian; rw [IsHermitian, conjTranspose_eq_transpose_of_trivial] at this
    exact this
  have hisym : (v⁻¹)ᵀ = v⁻¹ := by rw [transpose_nonsing_inv, hsym]
  set d := -(v⁻¹ *ᵥ g) with hd
  have hvd : v *ᵥ d = -g := by
    rw [hd, mulVec_neg, mulVec_mulVec, mul_nonsing_inv _ hu, one_mulVec]
  obtain ⟨lam, hl⟩ : ∃ lam : Fin m → ℝ, v *ᵥ shift = qᵀ *ᵥ lam := by
    unfold hamiltonShift at h
    simp only at h
    split_ifs at h
    cases h
    refine ⟨-(d ᵥ* (qᵀ * (q * v⁻¹ * qᵀ)⁻¹)), ?_⟩
    rw [mulVec_neg, mulVec_neg, ← vecMul_transpose v, hsym]
    rw [mulVec_transpose, vecMul_vecMul, vecMul_vecMul]
    congr 2
    simp only [Matrix.mul_assoc]
    rw [nonsing_inv_mul _ hu, Matrix.mul_one]
  set y := d + shift with hy
  set w := x - y with hw
  have hqw : q *ᵥ w = 0 := by rw [hw, mulVec_sub, hx, hq, sub_zero]
  have hcross : w ⬝ᵥ (v *ᵥ shift) = 0 := by
    rw [hl, dotProduct_mulVec, vecMul_transpose, hqw, zero_dotProduct]
  have hxy : x = y + w := by rw [hw]; abel
  have hsw : ∀ a b : Fin n → ℝ, a ⬝ᵥ v *ᵥ b = b ⬝ᵥ v *ᵥ a := by
    intro a b
    rw [dotProduct_mulVec, dotProduct_comm, ← mulVec_transpose, hsym]
  have hpos : 0 ≤ w ⬝ᵥ v *ᵥ w := by
    have := hv.posSemidef.dotProduct_mulVec_nonneg w
    simpa using this
  have hgw : g ⬝ᵥ w = -(w ⬝ᵥ v *ᵥ d) := by rw [hvd, dotProduct_neg, neg_neg, dotProduct_comm]
  have hvy : w ⬝ᵥ v *ᵥ y = w ⬝ᵥ v *ᵥ d := by rw [hy, mulVec_add, dotProduct_add, hcross, add_zero]
  unfold quadraticModel
  rw [hxy]
  simp only [mulVec_add, dotProduct_add, add_dotProduct]
  rw [hsw y w, hvy, hgw]
  linarith

/-- The program gives the second derivatives themselves, and its step is not the best: here it
satisfies the constraint `x₀ = x₁` but does not lower `chi_sq` at all, while another allowed step
does. -/
theorem hamilton_not_minimal :
    ∃ (g : Fin 2 → ℝ) (v : Matrix (Fin 2) (Fin 2) ℝ) (q : Matrix (Fin 1) (Fin 2) ℝ)
      (shift x : Fin 2 → ℝ), v.PosDef ∧ hamiltonShift (-(v⁻¹ *ᵥ g)) v q = some shift ∧
      q *ᵥ x = 0 ∧ quadraticModel g v x < quadraticModel g v (-(v⁻¹ *ᵥ g) + shift) ∧
      quadraticModel g v (-(v⁻¹ *ᵥ g) + shift) = quadraticModel g v 0 := by
  have hinv : (!![1, 0; 0, 2] : Matrix (Fin 2) (Fin 2) ℝ)⁻¹ = !![1, 0; 0, 1 / 2] := by
    apply inv_eq_right_inv
    ext i j; fin_cases i <;> fin_cases j <;> simp [Matrix.mul_apply, Fin.sum_univ_two]
  have hdelta : -((!![1, 0; 0, 2] : Matrix (Fin 2) (Fin 2) ℝ)⁻¹ *ᵥ ![-1, 0]) = ![1, 0] := by
    rw [hinv]; ext i; fin_cases i <;> simp
  refine ⟨![-1, 0], !![1, 0; 0, 2], !![1, -1], ![-1 / 3, 2 / 3], ![1 / 3, 1 / 3], ?_, ?_, ?_, ?_, ?_⟩
  · have : (!![1, 0; 0, 2] : Matrix (Fin 2) (Fin 2) ℝ) = diagonal ![1, 2] := by
      ext i j; fin_cases i <;> fin_cases j <;> simp
    rw [this]
    apply PosDef.diagonal
    intro i; fin_cases i <;> simp
  · rw [hdelta]
    have hq : (!![1, -1] : Matrix (Fin 1) (Fin 2) ℝ) * (!![1, 0; 0, 2] : Matrix (Fin 2) (Fin 2) ℝ) *
        (!![1, -1] : Matrix (Fin 1) (Fin 2) ℝ)ᵀ = !![3] := by
      ext i j; fin_cases i; fin_cases j
      simp [Matrix.mul_apply, Fin.sum_univ_two]; norm_num
    have hqi : (!![3] : Matrix (Fin 1) (Fin 1) ℝ)⁻¹ = !![1 / 3] := by
      apply inv_eq_right_inv
      ext i j; fin_cases i; fin_cases j; simp
    unfold hamiltonShift
    simp only
    rw [hq, if_neg (by simp), hqi]
    congr 1
    ext i; fin_cases i <;>
      simp [vecMul, dotProduct, Matrix.mul_apply, Fin.sum_univ_two] <;> norm_num
  · ext i; fin_cases i; simp
  · rw [hdelta]
    simp [quadraticModel, dotProduct, mulVec, Fin.sum_univ_two]; norm_num
  · rw [hdelta]
    simp [quadraticModel, dotProduct, mulVec, Fin.sum_univ_two]; norm_num

end

end Cryspy.Refine
