import Verif.Gen.MatrixOps
import Verif.Mat.Lemmas

/-!
# C18: the flat functions of matrix_operations.py are matrix algebra

Left of each equation is the library's function on flat arrays, right of it Mathlib's matrices (`toM`, `toQ` of Spec.lean).
-/

namespace Cryspy.Mat

open Matrix

variable {K : Type} [Field K]

/-- a non-degenerate matrix used as the example of the hypotheses below -/
def exM : Fin 9 → ℝ := ![1, 2, 0, 0, 3, 1, 4, 0, 1]
/-- a quadratic form used in examples -/
def exQ : Fin 6 → ℝ := ![1, 2, 3, 4, 5, 6]

theorem toM_exM_det : (toM exM).det = 11 := by
  simp [toM, exM, Matrix.det_fin_three]; norm_num

/-! ### values -/

/-- C18: `transpose_m` is the transpose. -/
theorem transpose_m_spec (m : Fin 9 → K) : toM (transpose_m m) = (toM m)ᵀ := by
  apply m_ext <;> simp [toM, transpose_m]

example : toM (transpose_m exM) ≠ toM exM := by
  intro h; have := congrFun (congrFun h 0) 1; simp [toM, transpose_m, exM] at this

/-- C18: `calc_m1_m2` is the product of matrices. -/
theorem calc_m1_m2_spec (a b : Fin 9 → K) : toM (calc_m1_m2 a b) = toM a * toM b := by
  apply m_ext <;> simp [toM, calc_m1_m2, Matrix.mul_apply, Fin.sum_univ_three]

example : calc_m1_m2 exM exM 0 = 1 := by simp [calc_m1_m2, exM]

/-- C18: `calc_m_v` is the product of a matrix and a vector. -/
theorem calc_m_v_spec (m : Fin 9 → K) (v : Fin 3 → K) : calc_m_v m v = toM m *ᵥ v := by
  apply v_ext <;> simp [toM, calc_m_v, Matrix.mulVec, dotProduct, Fin.sum_univ_three]

/-- C18: `calc_q_v` is the product of a symmetric matrix and a vector. -/
theorem calc_q_v_spec (q : Fin 6 → K) (v : Fin 3 → K) : calc_q_v q v = toQ q *ᵥ v := by
  apply v_ext <;> simp [toQ, calc_q_v, Matrix.mulVec, dotProduct, Fin.sum_univ_three]

/-- C18: `calc_vt_m_v` is the form `vᵀ m v`. -/
theorem calc_vt_m_v_spec (m : Fin 9 → K) (v : Fin 3 → K) : calc_vt_m_v m v = v ⬝ᵥ toM m *ᵥ v := by
  simp [toM, calc_vt_m_v, Matrix.mulVec, dotProduct, Fin.sum_univ_three]; ring

/-- C18: `calc_vt_q_v` is the form `vᵀ q v`. -/
theorem calc_vt_q_v_spec (q : Fin 6 → K) (v : Fin 3 → K) : calc_vt_q_v q v = v ⬝ᵥ toQ q *ᵥ v := by
  simp [toQ, calc_vt_q_v, Matrix.mulVec, dotProduct, Fin.sum_univ_three]; ring

/-- C18: `calc_m_q_mt` is `m q mᵀ`. -/
theorem calc_m_q_mt_spec (m : Fin 9 → K) (q : Fin 6 → K) : toQ (calc_m_q_mt m q) = toM m * toQ q * (toM m)ᵀ := by
  apply m_ext <;> simp [toM, toQ, calc_m_q_mt, Matrix.mul_apply, Fin.sum_univ_three] <;> ring

/-- C18: `calc_mt_q_m` is `mᵀ q m`. -/
theorem calc_mt_q_m_spec (m : Fin 9 → K) (q : Fin 6 → K) : toQ (calc_mt_q_m m q) = (toM m)ᵀ * toQ q * toM m := by
  apply m_ext <;> simp [toM, toQ, calc_mt_q_m, Matrix.mul_apply, Fin.sum_univ_three] <;> ring

/-- C18: `calc_mt_m` is `mᵀ m`. -/
theorem calc_mt_m_spec (m : Fin 9 → K) : toQ (calc_mt_m m) = (toM m)ᵀ * toM m := by
  apply m_ext <;> simp [toM, toQ, calc_mt_m, Matrix.mul_apply, Fin.sum_univ_three] <;> ring

/-- C18: `calc_q1_q2_q1` is `q₁ q₂ q₁`. -/
theorem calc_q1_q2_q1_spec (p q : Fin 6 → K) : toQ (calc_q1_q2_q1 p q) = toQ p * toQ q * toQ p := by
  apply m_ext <;> simp [toQ, calc_q1_q2_q1, Matrix.mul_apply, Fin.sum_univ_three] <;> ring

/-- C18: `calc_q_sq` is the square of a symmetric matrix. -/
theorem calc_q_sq_spec (q : Fin 6 → K) : toQ (calc_q_sq q) = toQ q * toQ q := by
  apply m_ext <;> simp [toQ, calc_q_sq, Matrix.mul_apply, Fin.sum_univ_three] <;> ring

/-- C18: `calc_m1_m2_m1t` is `m₁ m₂ m₁ᵀ`. -/
theorem calc_m1_m2_m1t_spec (a b : Fin 9 → K) : toM (calc_m1_m2_m1t a b) = toM a * toM b * (toM a)ᵀ := by
  apply m_ext <;> simp [toM, calc_m1_m2_m1t, Matrix.mul_apply, Fin.sum_univ_three] <;> ring

/-- C18: `calc_det_m` is the determinant. -/
theorem calc_det_m_spec (m : Fin 9 → K) : calc_det_m m = (toM m).det := by
  simp [calc_det_m, Matrix.det_fin_three, toM]

/-- C18: `calc_m_q_inv_m` is `m q m⁻¹` for every invertible `m`. -/
theorem calc_m_q_inv_m_spec (m : Fin 9 → K) (q : Fin 6 → K) (h : (toM m).det ≠ 0) :
    toM (calc_m_q_inv_m m q) = toM m * toQ q * (toM m)⁻¹ := by
  apply eq_mul_inv h
  rw [← calc_det_m_spec] at h
  apply m_ext <;> simp [toM, toQ, calc_m_q_inv_m, Matrix.mul_apply, Fin.sum_univ_three] <;> field_simp <;>
    unfold calc_det_m <;> ring

example : (toM exM).det ≠ 0 := by rw [toM_exM_det]; norm_num

/-- C18: `calc_m1_m2_inv_m1` is `m₁ m₂ m₁⁻¹` for every invertible `m₁`. -/
theorem calc_m1_m2_inv_m1_spec (a b : Fin 9 → K) (h : (toM a).det ≠ 0) :
    toM (calc_m1_m2_inv_m1 a b) = toM a * toM b * (toM a)⁻¹ := by
  apply eq_mul_inv h
  rw [← calc_det_m_spec] at h
  unfold calc_det_m at h
  unfold calc_m1_m2_inv_m1
  dsimp only at h ⊢
  generalize hD : a 0 * a 4 * a 8 - a 0 * a 5 * a 7 - a 1 * a 3 * a 8 + a 1 * a 5 * a 6 + a 2 * a 3 * a 7 -
    a 2 * a 4 * a 6 = D at h ⊢
  apply m_ext <;> simp [toM, Matrix.mul_apply, Fin.sum_univ_three] <;> field_simp <;> rw [← hD] <;> ring

example : (toM exM).det ≠ 0 := by rw [toM_exM_det]; norm_num

/-- C18: the nine-by-six matrix `calc_mm_as_m_q_inv_m m` acts on a quadratic form as `q ↦ m q m⁻¹`. -/
theorem calc_mm_as_m_q_inv_m_spec (m : Fin 9 → K) (q : Fin 6 → K) (h : (toM m).det ≠ 0) :
    toM (fun i => ∑ j, calc_mm_as_m_q_inv_m m i j * q j) = toM m * toQ q * (toM m)⁻¹ := by
  rw [← calc_m_q_inv_m_spec m q h]
  congr 1
  funext i
  revert i
  apply fin9 <;> rw [Fin.sum_univ_six] <;> unfold calc_mm_as_m_q_inv_m calc_m_q_inv_m calc_det_m <;>
    simp only [Matrix.cons_val] <;> ring

example : (toM exM).det ≠ 0 := by rw [toM_exM_det]; norm_num

/-- C18: the nine-by-nine matrix `calc_mm_as_m1_m2_inv_m1 m` acts on a matrix as `b ↦ m b m⁻¹`. -/
theorem calc_mm_as_m1_m2_inv_m1_spec (m b : Fin 9 → K) (h : (toM m).det ≠ 0) :
    toM (fun i => ∑ j, calc_mm_as_m1_m2_inv_m1 m i j * b j) = toM m * toM b * (toM m)⁻¹ := by
  rw [← calc_m1_m2_inv_m1_spec m b h]
  congr 1
  funext i
  revert i
  apply fin9 <;> simp only [Fin.sum_univ_succ, Finset.univ_eq_empty, Finset.sum_empty] <;>
    unfold calc_mm_as_m1_m2_inv_m1 calc_m1_m2_inv_m1 <;>
    simp only [Matrix.cons_val, Fin.isValue, Fin.reduceSucc, Fin.succ_zero_eq_one] <;> ring

example : (toM exM).det ≠ 0 := by rw [toM_exM_det]; norm_num

/-- C18: `calc_inv_m` is the inverse as soon as the determinant is not tiny … -/
theorem calc_inv_m_spec (m : Fin 9 → ℝ) (h : 1 / 1000000000000 ≤ |(toM m).det|) :
    toM (calc_inv_m m) * toM m = 1 ∧ toM m * toM (calc_inv_m m) = 1 := by
  have h0 : (toM m).det ≠ 0 := by intro e; rw [e] at h; norm_num at h
  have : toM (calc_inv_m m) * toM m = 1 := by
    rw [← calc_det_m_spec] at h h0
    unfold calc_inv_m
    dsimp only
    rw [if_neg (not_lt.mpr h)]
    apply m_ext <;> simp [toM, Matrix.mul_apply, Fin.sum_univ_three] <;>
      field_simp <;> unfold calc_det_m <;> ring
  exact ⟨this, mul_eq_one_comm.mp this⟩

example : 1 / 1000000000000 ≤ |(toM exM).det| := by rw [toM_exM_det]; norm_num

/-- C18: … and the zero matrix otherwise, although the matrix may be invertible. -/
theorem calc_inv_m_tiny (m : Fin 9 → ℝ) (h : |(toM m).det| < 1 / 1000000000000) : toM (calc_inv_m m) = 0 := by
  rw [← calc_det_m_spec] at h
  unfold calc_inv_m
  dsimp only
  rw [if_pos h]
  apply m_ext <;> simp [toM]

/-- C18: the inverse is not correct for every invertible matrix: a cube of edge 10⁻⁵ is refused silently. -/
theorem calc_inv_m_not_inverse : ∃ m : Fin 9 → ℝ, (toM m).det ≠ 0 ∧ toM (calc_inv_m m) * toM m ≠ 1 := by
  have e : (toM (![1 / 100000, 0, 0, 0, 1 / 100000, 0, 0, 0, 1 / 100000] : Fin 9 → ℝ)).det = 1 / 1000000000000000 := by
    simp [toM, Matrix.det_fin_three]; norm_num
  refine ⟨![1 / 100000, 0, 0, 0, 1 / 100000, 0, 0, 0, 1 / 100000], ?_, ?_⟩
  · rw [e]; norm_num
  · rw [calc_inv_m_tiny _ (by rw [e]; norm_num [abs_lt])]
    intro h; have := congrFun (congrFun h 0) 0; simp at this

/-- C18: `calc_vector_product_v1_v2` is the cross product. -/
theorem calc_vector_product_spec (a b : Fin 3 → K) : calc_vector_product_v1_v2 a b = crossProduct a b := by
  apply v_ext <;> simp [calc_vector_product_v1_v2, cross_apply]

/-- C18: `calc_vector_product_v1_v2_v1` is `a × (b × a)`, the part of `b` perpendicular to `a` times `|a|²`. -/
theorem calc_vector_product_v1_v2_v1_spec (a b : Fin 3 → K) :
    calc_vector_product_v1_v2_v1 a b = crossProduct a (crossProduct b a) := by
  apply v_ext <;> simp [calc_vector_product_v1_v2_v1, calc_vv_as_v1_v2_v1, cross_apply] <;> ring

/-- C18: `calc_vv_as_v1_v2_v1 a` is the matrix of `b ↦ a × (b × a)`. -/
theorem calc_vv_as_v1_v2_v1_spec (a b : Fin 3 → K) :
    (Matrix.of (calc_vv_as_v1_v2_v1 a)) *ᵥ b = crossProduct a (crossProduct b a) := by
  apply v_ext <;> simp [calc_vv_as_v1_v2_v1, cross_apply, Matrix.mulVec, dotProduct, Fin.sum_univ_three] <;> ring

/-- C18: `calc_m_sq` is the square exactly when `m₃₃² = m₃₃ m₃₁`: the component 31 of the returned array uses the one in place of the
other. -/
theorem calc_m_sq_iff (m : Fin 9 → K) : toM (calc_m_sq m) = toM m * toM m ↔ m 8 * m 8 = m 8 * m 6 := by
  constructor
  · intro h
    have := congrFun (congrFun h 2) 0
    simp [toM, calc_m_sq, Matrix.mul_apply, Fin.sum_univ_three] at this
    linear_combination this
  · intro h
    apply m_ext <;> simp [toM, calc_m_sq, Matrix.mul_apply, Fin.sum_univ_three] <;> first | ring1 | linear_combination h

example : ∃ m : Fin 9 → ℝ, m 8 * m 8 = m 8 * m 6 ∧ m 8 ≠ 0 := ⟨![1, 2, 3, 4, 5, 6, 7, 8, 7], by simp, by simp⟩

/-- C18: `calc_m_sq` is not the square of a matrix: it is wrong already for the identity. -/
theorem calc_m_sq_wrong : ∃ m : Fin 9 → ℝ, toM m = 1 ∧ toM (calc_m_sq m) ≠ toM m * toM m := by
  refine ⟨![1, 0, 0, 0, 1, 0, 0, 0, 1], ?_, ?_⟩
  · apply m_ext <;> simp [toM]
  · intro h; have := congrFun (congrFun h 2) 0
    simp [toM, calc_m_sq, Matrix.mul_apply, Fin.sum_univ_three] at this

/-! ### derivatives (real arguments)

`IsJacobian f d x`: the reported table `d` contains the derivatives of `f` at `x` over each argument. -/

/-- C18: the reported derivatives of `mᵀ q m` over `m` are the derivatives. -/
theorem d_calc_mt_q_m_m_spec (m : Fin 9 → ℝ) (q : Fin 6 → ℝ) :
    IsJacobian (fun x => calc_mt_q_m x q) (d_calc_mt_q_m_m m q) m := by
  apply isJacobian_of_quad
  apply fin6 <;> apply fin9 <;> intro s <;> unfold calc_mt_q_m d_calc_mt_q_m_m <;>
    simp only [Matrix.cons_val, Function.update_apply, Fin.reduceEq, if_true, if_false] <;> ring

example : d_calc_mt_q_m_m exM exQ 0 0 = 2 * (1 * 1 + 0 * 4 + 4 * 5) := by simp [d_calc_mt_q_m_m, exM, exQ]

/-- C18: … and over `q`. -/
theorem d_calc_mt_q_m_q_spec (m : Fin 9 → ℝ) (q : Fin 6 → ℝ) :
    IsJacobian (fun x => calc_mt_q_m m x) (d_calc_mt_q_m_q m q) q := by
  apply isJacobian_of_quad
  apply fin6 <;> apply fin6 <;> intro s <;> unfold calc_mt_q_m d_calc_mt_q_m_q <;>
    simp only [Matrix.cons_val, Function.update_apply, Fin.reduceEq, if_true, if_false] <;> ring

/-- C18: the reported derivatives of `q²` are the derivatives. -/
theorem d_calc_q_sq_spec (q : Fin 6 → ℝ) :
    IsJacobian calc_q_sq (d_calc_q_sq q) q := by
  apply isJacobian_of_quad
  apply fin6 <;> apply fin6 <;> intro s <;> unfold calc_q_sq d_calc_q_sq <;>
    simp only [Matrix.cons_val, Function.update_apply, Fin.reduceEq, if_true, if_false] <;> ring

/-- C18: the reported derivatives of `m²` are those of the true square. -/
theorem d_calc_m_sq_true (m : Fin 9 → ℝ) :
    IsJacobian (fun x => calc_m1_m2 x x) (d_calc_m_sq m) m := by
  apply isJacobian_of_quad
  apply fin9 <;> apply fin9 <;> intro s <;> unfold calc_m1_m2 d_calc_m_sq <;>
    simp only [Matrix.cons_val, Function.update_apply, Fin.reduceEq, if_true, if_false] <;> ring

/-- C18: the reported derivatives of `m v` over `m`. -/
theorem d_calc_m_v_m_spec (m : Fin 9 → ℝ) (v : Fin 3 → ℝ) :
    IsJacobian (fun x => calc_m_v x v) (d_calc_m_v_m m v) m := by
  apply isJacobian_of_quad
  apply fin3 <;> apply fin9 <;> intro s <;> unfold calc_m_v d_calc_m_v_m <;>
    simp only [Matrix.cons_val, Function.update_apply, Fin.reduceEq, if_true, if_false] <;> ring

/-- C18: … and over `v`. -/
theorem d_calc_m_v_v_spec (m : Fin 9 → ℝ) (v : Fin 3 → ℝ) :
    IsJacobian (fun x => calc_m_v m x) (d_calc_m_v_v m v) v := by
  apply isJacobian_of_quad
  apply fin3 <;> apply fin3 <;> intro s <;> unfold calc_m_v d_calc_m_v_v <;>
    simp only [Matrix.cons_val, Function.update_apply, Fin.reduceEq, if_true, if_false] <;> ring

/-- C18: the reported derivatives of `q v` over `v`. -/
theorem d_calc_q_v_v_spec (q : Fin 6 → ℝ) (v : Fin 3 → ℝ) :
    IsJacobian (fun x => calc_q_v q x) (d_calc_q_v_v q v) v := by
  apply isJacobian_of_quad
  apply fin3 <;> apply fin3 <;> intro s <;> unfold calc_q_v d_calc_q_v_v <;>
    simp only [Matrix.cons_val, Function.update_apply, Fin.reduceEq, if_true, if_false] <;> ring

/-- C18: the reported derivatives of `vᵀ m v` over `m`. -/
theorem d_calc_vt_m_v_m_spec (m : Fin 9 → ℝ) (v : Fin 3 → ℝ) :
    IsJacobian (fun x (_ : Unit) => calc_vt_m_v x v) (fun _ => d_calc_vt_m_v_m m v) m := by
  apply isJacobian_of_quad
  intro _; apply fin9 <;> intro s <;> unfold calc_vt_m_v d_calc_vt_m_v_m <;>
    simp only [Matrix.cons_val, Function.update_apply, Fin.reduceEq, if_true, if_false] <;> ring

/-- C18: … and over `v`. -/
theorem d_calc_vt_m_v_v_spec (m : Fin 9 → ℝ) (v : Fin 3 → ℝ) :
    IsJacobian (fun x (_ : Unit) => calc_vt_m_v m x) (fun _ => d_calc_vt_m_v_v m v) v := by
  apply isJacobian_of_quad
  intro _; apply fin3 <;> intro s <;> unfold calc_vt_m_v d_calc_vt_m_v_v <;>
    simp only [Matrix.cons_val, Function.update_apply, Fin.reduceEq, if_true, if_false] <;> ring

/-- C18: the reported derivatives of `vᵀ q v` over `v`. -/
theorem d_calc_vt_q_v_v_spec (q : Fin 6 → ℝ) (v : Fin 3 → ℝ) :
    IsJacobian (fun x (_ : Unit) => calc_vt_q_v q x) (fun _ => d_calc_vt_q_v_v q v) v := by
  apply isJacobian_of_quad
  intro _; apply fin3 <;> intro s <;> unfold calc_vt_q_v d_calc_vt_q_v_v <;>
    simp only [Matrix.cons_val, Function.update_apply, Fin.reduceEq, if_true, if_false] <;> ring

/-- C18: the reported derivatives of the matrix of `b ↦ a × (b × a)`. -/
theorem d_calc_vv_spec (v : Fin 3 → ℝ) :
    IsJacobian (fun x (p : Fin 3 × Fin 3) => calc_vv_as_v1_v2_v1 x p.1 p.2) (fun p => d_calc_vv_as_v1_v2_v1 v p.1 p.2) v := by
  apply isJacobian_of_quad
  rintro ⟨a, b⟩; revert a b; apply fin3 <;> apply fin3 <;> apply fin3 <;> intro s <;> unfold calc_vv_as_v1_v2_v1 d_calc_vv_as_v1_v2_v1 <;>
    simp only [Matrix.cons_val, Function.update_apply, Fin.reduceEq, if_true, if_false] <;> ring

/-- C18: the reported derivatives of `q v` over `q` are right only for the zero vector: the entries of the off-diagonal
components of `q` are missing in the second and third component of the result. -/
theorem d_calc_q_v_q_iff (q : Fin 6 → ℝ) (v : Fin 3 → ℝ) :
    IsJacobian (fun x => calc_q_v x v) (d_calc_q_v_q q v) q ↔ v = 0 := by
  constructor
  · intro H
    have e0 := (H 1 3).unique (hasDerivAt_of_quad (d := v 0) (by
      intro s; unfold calc_q_v; simp only [Matrix.cons_val, Function.update_apply, Fin.reduceEq, if_true, if_false]; ring))
    have e1 := (H 2 5).unique (hasDerivAt_of_quad (d := v 1) (by
      intro s; unfold calc_q_v; simp only [Matrix.cons_val, Function.update_apply, Fin.reduceEq, if_true, if_false]; ring))
    have e2 := (H 1 5).unique (hasDerivAt_of_quad (d := v 2) (by
      intro s; unfold calc_q_v; simp only [Matrix.cons_val, Function.update_apply, Fin.reduceEq, if_true, if_false]; ring))
    simp [d_calc_q_v_q] at e0 e1 e2
    exact v_ext e0.symm e1.symm e2.symm
  · rintro rfl
    apply isJacobian_of_quad
    apply fin3 <;> apply fin6 <;> intro s <;> unfold calc_q_v d_calc_q_v_q <;>
      simp only [Matrix.cons_val, Function.update_apply, Fin.reduceEq, if_true, if_false] <;> simp

/-- C18: the reported derivatives of the determinant are right exactly when `m₁₁ m₂₃ = 0`: the derivative over `m₃₂` has
`+ m₁₁ m₂₃` in place of `- m₁₁ m₂₃`. -/
theorem d_calc_det_m_iff (m : Fin 9 → ℝ) :
    IsJacobian (fun x (_ : Unit) => calc_det_m x) (fun _ => d_calc_det_m m) m ↔ m 0 * m 5 = 0 := by
  constructor
  · intro H
    have e := (H () 7).unique (hasDerivAt_of_quad (d := m 2 * m 3 - m 0 * m 5) (by
      intro s; unfold calc_det_m; simp only [Matrix.cons_val, Function.update_apply, Fin.reduceEq, if_true, if_false]; ring))
    simp only [d_calc_det_m, Matrix.cons_val] at e
    linear_combination e / 2
  · intro h
    apply isJacobian_of_quad
    intro _
    apply fin9 <;> intro s <;> unfold calc_det_m d_calc_det_m <;>
      simp only [Matrix.cons_val, Function.update_apply, Fin.reduceEq, if_true, if_false] <;> first | ring1 | linear_combination (-2 * s) * h

/-- C18: the reported derivatives of `m q m⁻¹` over `q` are right exactly for matrices of determinant one (rotations): a factor `1/det`
is missing in the derivative over `q₂₃`. -/
theorem d_calc_m_q_inv_m_q_iff (m : Fin 9 → ℝ) (q : Fin 6 → ℝ) (hm : (toM m).det ≠ 0) :
    IsJacobian (fun x => calc_m_q_inv_m m x) (d_calc_m_q_inv_m_q m q) q ↔ (toM m).det = 1 := by
  rw [← calc_det_m_spec] at hm ⊢
  constructor
  · intro H
    by_contra hne
    have ho : 1 - 1 / calc_det_m m ≠ 0 := by
      intro h0
      apply hne
      field_simp at h0
      linarith
    have e0 : (m 3 * m 7 - m 4 * m 6) * m 1 = 0 := by
      have e := (H 0 5).unique (hasDerivAt_of_quad (d := (m 3 * m 7 - m 4 * m 6) * m 1 * (1 / calc_det_m m) + -(m 3 * m 8 - m 5 * m 6) * m 2 * (1 / calc_det_m m)) (by
        intro s; unfold calc_m_q_inv_m
        simp only [Matrix.cons_val, Function.update_apply, Fin.reduceEq, if_true, if_false]; ring))
      simp only [d_calc_m_q_inv_m_q, Matrix.cons_val] at e
      exact (mul_eq_zero.1 (show (m 3 * m 7 - m 4 * m 6) * m 1 * (1 - 1 / calc_det_m m) = 0 by linear_combination e)).resolve_right ho
    have e1 : -(m 0 * m 7 - m 1 * m 6) * m 1 = 0 := by
      have e := (H 1 5).unique (hasDerivAt_of_quad (d := -(m 0 * m 7 - m 1 * m 6) * m 1 * (1 / calc_det_m m) + (m 0 * m 8 - m 2 * m 6) * m 2 * (1 / calc_det_m m)) (by
        intro s; unfold calc_m_q_inv_m
        simp only [Matrix.cons_val, Function.update_apply, Fin.reduceEq, if_true, if_false]; ring))
      simp only [d_calc_m_q_inv_m_q, Matrix.cons_val] at e
      exact (mul_eq_zero.1 (show -(m 0 * m 7 - m 1 * m 6) * m 1 * (1 - 1 / calc_det_m m) = 0 by linear_combination e)).resolve_right ho
    have e2 : (m 0 * m 4 - m 1 * m 3) * m 1 = 0 := by
      have e := (H 2 5).unique (hasDerivAt_of_quad (d := (m 0 * m 4 - m 1 * m 3) * m 1 * (1 / calc_det_m m) + -(m 0 * m 5 - m 2 * m 3) * m 2 * (1 / calc_det_m m)) (by
        intro s; unfold calc_m_q_inv_m
        simp only [Matrix.cons_val, Function.update_apply, Fin.reduceEq, if_true, if_false]; ring))
      simp only [d_calc_m_q_inv_m_q, Matrix.cons_val] at e
      exact (mul_eq_zero.1 (show (m 0 * m 4 - m 1 * m 3) * m 1 * (1 - 1 / calc_det_m m) = 0 by linear_combination e)).resolve_right ho
    have e3 : (m 3 * m 7 - m 4 * m 6) * m 4 = 0 := by
      have e := (H 3 5).unique (hasDerivAt_of_quad (d := (m 3 * m 7 - m 4 * m 6) * m 4 * (1 / calc_det_m m) + -(m 3 * m 8 - m 5 * m 6) * m 5 * (1 / calc_det_m m)) (by
        intro s; unfold calc_m_q_inv_m
        simp only [Matrix.cons_val, Function.update_apply, Fin.reduceEq, if_true, if_false]; ring))
      simp only [d_calc_m_q_inv_m_q, Matrix.cons_val] at e
      exact (mul_eq_zero.1 (show (m 3 * m 7 - m 4 * m 6) * m 4 * (1 - 1 / calc_det_m m) = 0 by linear_combination e)).resolve_right ho
    have e4 : -(m 0 * m 7 - m 1 * m 6) * m 4 = 0 := by
      have e := (H 4 5).unique (hasDerivAt_of_quad (d := -(m 0 * m 7 - m 1 * m 6) * m 4 * (1 / calc_det_m m) + (m 0 * m 8 - m 2 * m 6) * m 5 * (1 / calc_det_m m)) (by
        intro s; unfold calc_m_q_inv_m
        simp only [Matrix.cons_val, Function.update_apply, Fin.reduceEq, if_true, if_false]; ring))
      simp only [d_calc_m_q_inv_m_q, Matrix.cons_val] at e
      exact (mul_eq_zero.1 (show -(m 0 * m 7 - m 1 * m 6) * m 4 * (1 - 1 / calc_det_m m) = 0 by linear_combination e)).resolve_right ho
    have e5 : (m 0 * m 4 - m 1 * m 3) * m 4 = 0 := by
      have e := (H 5 5).unique (hasDerivAt_of_quad (d := (m 0 * m 4 - m 1 * m 3) * m 4 * (1 / calc_det_m m) + -(m 0 * m 5 - m 2 * m 3) * m 5 * (1 / calc_det_m m)) (by
        intro s; unfold calc_m_q_inv_m
        simp only [Matrix.cons_val, Function.update_apply, Fin.reduceEq, if_true, if_false]; ring))
      simp only [d_calc_m_q_inv_m_q, Matrix.cons_val] at e
      exact (mul_eq_zero.1 (show (m 0 * m 4 - m 1 * m 3) * m 4 * (1 - 1 / calc_det_m m) = 0 by linear_combination e)).resolve_right ho
    have e6 : (m 3 * m 7 - m 4 * m 6) * m 7 = 0 := by
      have e := (H 6 5).unique (hasDerivAt_of_quad (d := (m 3 * m 7 - m 4 * m 6) * m 7 * (1 / calc_det_m m) + -(m 3 * m 8 - m 5 * m 6) * m 8 * (1 / calc_det_m m)) (by
        intro s; unfold calc_m_q_inv_m
        simp only [Matrix.cons_val, Function.update_apply, Fin.reduceEq, if_true, if_false]; ring))
      simp only [d_calc_m_q_inv_m_q, Matrix.cons_val] at e
      exact (mul_eq_zero.1 (show (m 3 * m 7 - m 4 * m 6) * m 7 * (1 - 1 / calc_det_m m) = 0 by linear_combination e)).resolve_right ho
    have e7 : -(m 0 * m 7 - m 1 * m 6) * m 7 = 0 := by
      have e := (H 7 5).unique (hasDerivAt_of_quad (d := -(m 0 * m 7 - m 1 * m 6) * m 7 * (1 / calc_det_m m) + (m 0 * m 8 - m 2 * m 6) * m 8 * (1 / calc_det_m m)) (by
        intro s; unfold calc_m_q_inv_m
        simp only [Matrix.cons_val, Function.update_apply, Fin.reduceEq, if_true, if_false]; ring))
      simp only [d_calc_m_q_inv_m_q, Matrix.cons_val] at e
      exact (mul_eq_zero.1 (show -(m 0 * m 7 - m 1 * m 6) * m 7 * (1 - 1 / calc_det_m m) = 0 by linear_combination e)).resolve_right ho
    have e8 : (m 0 * m 4 - m 1 * m 3) * m 7 = 0 := by
      have e := (H 8 5).unique (hasDerivAt_of_quad (d := (m 0 * m 4 - m 1 * m 3) * m 7 * (1 / calc_det_m m) + -(m 0 * m 5 - m 2 * m 3) * m 8 * (1 / calc_det_m m)) (by
        intro s; unfold calc_m_q_inv_m
        simp only [Matrix.cons_val, Function.update_apply, Fin.reduceEq, if_true, if_false]; ring))
      simp only [d_calc_m_q_inv_m_q, Matrix.cons_val] at e
      exact (mul_eq_zero.1 (show (m 0 * m 4 - m 1 * m 3) * m 7 * (1 - 1 / calc_det_m m) = 0 by linear_combination e)).resolve_right ho
    apply hm
    have hsq : calc_det_m m * calc_det_m m = 0 := by
      unfold calc_det_m
      linear_combination m 2 * (-(m 3 * m 8 - m 5 * m 6)) * e0 + m 5 * (-(m 3 * m 8 - m 5 * m 6)) * e1 + m 8 * (-(m 3 * m 8 - m 5 * m 6)) * e2 + m 2 * ((m 0 * m 8 - m 2 * m 6)) * e3 + m 5 * ((m 0 * m 8 - m 2 * m 6)) * e4 + m 8 * ((m 0 * m 8 - m 2 * m 6)) * e5 + m 2 * (-(m 0 * m 5 - m 2 * m 3)) * e6 + m 5 * (-(m 0 * m 5 - m 2 * m 3)) * e7 + m 8 * (-(m 0 * m 5 - m 2 * m 3)) * e8
    exact mul_self_eq_zero.1 hsq
  · intro h
    apply isJacobian_of_quad
    apply fin9 <;> apply fin6 <;> intro s <;> unfold calc_m_q_inv_m d_calc_m_q_inv_m_q <;> rw [h] <;>
      simp only [Matrix.cons_val, Function.update_apply, Fin.reduceEq, if_true, if_false] <;> ring

example : (toM (![1, 2, 0, 0, 1, 1, 0, 0, 1] : Fin 9 → ℝ)).det = 1 := by simp [toM, Matrix.det_fin_three]

end Cryspy.Mat
