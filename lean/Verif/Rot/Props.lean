import Verif.Rot.Model
import Verif.Mat.Lemmas

/-! # C74: matrices, Euler angles and rotations -/

namespace Cryspy.Rot

open Real Matrix Cryspy.Mat

theorem prod2_eq (a b : Fin 9 → ℝ) : toM (prod2 a b) = toM a * toM b := by
  unfold prod2 toM
  apply m_ext <;> simp [Matrix.mul_apply, Fin.sum_univ_three]

/-- C74: the product of any number of matrices is their matrix product. -/
theorem product_is_product (a b : Fin 9 → ℝ) (l : List (Fin 9 → ℝ)) : toM (prodAll a b l) = toM a * toM b * (l.map toM).prod := by
  induction l generalizing a b with
  | nil => simp [prodAll, prod2_eq]
  | cons c cs ih => rw [prodAll, ih, prod2_eq, List.map_cons, List.prod_cons, Matrix.mul_assoc, Matrix.mul_assoc]

/-- C74: product of a matrix and a vector. -/
theorem mv_eq (m : Fin 9 → ℝ) (v : Fin 3 → ℝ) : mv m v = toM m *ᵥ v := by
  unfold mv toM
  apply v_ext <;> simp [Matrix.mulVec, dotProduct, Fin.sum_univ_three]

/-- C74: `R C Rᵀ`. -/
theorem rcrt_eq (r c : Fin 9 → ℝ) : toM (rcrt r c) = toM r * toM c * (toM r)ᵀ := by
  unfold rcrt
  dsimp only
  rw [product_is_product]
  simp only [List.map_cons, List.map_nil, List.prod_cons, List.prod_nil, mul_one]
  congr 1
  unfold toM
  apply m_ext <;> simp

theorem det9_eq (m : Fin 9 → ℝ) : det9 m = (toM m).det := by
  unfold det9 toM
  simp [Matrix.det_fin_three]

/-- C74: the inverse is the inverse whenever the determinant is at least `10⁻¹²` … -/
theorem inverse_right (m : Fin 9 → ℝ) (h : 1 / 10 ^ 12 ≤ (toM m).det) : toM (inv9 m) * toM m = 1 ∧ toM m * toM (inv9 m) = 1 := by
  have hd : det9 m ≠ 0 := by
    rw [det9_eq]; intro e; rw [e] at h; norm_num at h
  have key : toM m * toM (inv9 m) = 1 := by
    have hn : ¬ det9 m < 1 / 10 ^ 12 := by rw [det9_eq]; exact not_lt.mpr h
    unfold inv9
    dsimp only
    rw [if_neg hn]
    obtain ⟨D, hD⟩ : ∃ D, D = det9 m := ⟨_, rfl⟩
    rw [← hD] at hd ⊢
    have hD' : D = m 0 * m 4 * m 8 - m 0 * m 5 * m 7 - m 1 * m 3 * m 8 + m 1 * m 5 * m 6 + m 2 * m 3 * m 7 - m 2 * m 4 * m 6 := hD
    unfold toM
    apply m_ext <;> simp [Matrix.mul_apply, Fin.sum_univ_three] <;> field_simp <;> first | ring1 | (rw [hD']; ring1)
  exact ⟨mul_eq_one_comm.mp key, key⟩

/-- C74 (failure): … and zero for every other matrix, in particular for every matrix of negative determinant such as a mirror. -/
theorem inverse_zero (m : Fin 9 → ℝ) (h : (toM m).det < 1 / 10 ^ 12) : inv9 m = 0 := by
  have hn : det9 m < 1 / 10 ^ 12 := by rw [det9_eq]; exact h
  unfold inv9
  dsimp only
  rw [if_pos hn]
  funext i
  fin_cases i <;> simp

/-- C74: so the inverse is right exactly from that determinant on. -/
theorem inverse_iff (m : Fin 9 → ℝ) : toM m * toM (inv9 m) = 1 ↔ 1 / 10 ^ 12 ≤ (toM m).det := by
  constructor
  · intro h
    by_contra hn
    rw [inverse_zero m (not_le.mp hn)] at h
    have := congrFun (congrFun h 0) 0
    simp [toM, Matrix.mul_apply, Fin.sum_univ_three] at this
  · intro h; exact (inverse_right m h).2

/-- C74 (failure): a mirror has an inverse, and the inverse found is zero. -/
theorem mirror_inverse_zero : (toM ![1, 0, 0, 0, 1, 0, 0, 0, -1]) * (toM ![1, 0, 0, 0, 1, 0, 0, 0, -1]) = (1 : M3) ∧
    inv9 ![1, 0, 0, 0, 1, 0, 0, 0, -1] = 0 := by
  constructor
  · unfold toM
    apply m_ext <;> simp [Matrix.mul_apply, Fin.sum_univ_three]
  · apply inverse_zero
    unfold toM
    simp [Matrix.det_fin_three]
    norm_num

example : (1 : ℝ) / 10 ^ 12 ≤ (toM (![2, 1, 0, 0, 1, 0, 0, 0, 1] : Fin 9 → ℝ)).det := by
  unfold toM
  simp [Matrix.det_fin_three]
  norm_num

/-! ## Euler angles -/

/-- C74: the matrix of three angles is the turn about x by the first, then about y by the second, then about z by the third. -/
theorem euler_is_turns (psi theta phi : ℝ) : toM (eulerToMatrix psi theta phi) = Rz phi * Ry theta * Rx psi := by
  unfold eulerToMatrix toM Rx Ry Rz
  dsimp only
  apply m_ext <;> simp [Matrix.mul_apply, Fin.sum_univ_three] <;> ring

theorem Rx_rotation (t : ℝ) : IsRotation (Rx t) := by
  have h := sin_sq_add_cos_sq t
  refine ⟨?_, ?_⟩
  · unfold Rx
    apply m_ext <;> simp [Matrix.mul_apply, Fin.sum_univ_three] <;> nlinarith
  · unfold Rx; simp [Matrix.det_fin_three]; nlinarith

theorem Ry_rotation (t : ℝ) : IsRotation (Ry t) := by
  have h := sin_sq_add_cos_sq t
  refine ⟨?_, ?_⟩
  · unfold Ry
    apply m_ext <;> simp [Matrix.mul_apply, Fin.sum_univ_three] <;> nlinarith
  · unfold Ry; simp [Matrix.det_fin_three]; nlinarith

theorem Rz_rotation (t : ℝ) : IsRotation (Rz t) := by
  have h := sin_sq_add_cos_sq t
  refine ⟨?_, ?_⟩
  · unfold Rz
    apply m_ext <;> simp [Matrix.mul_apply, Fin.sum_univ_three] <;> nlinarith
  · unfold Rz; simp [Matrix.det_fin_three]; nlinarith

theorem IsRotation.mul {A B : M3} (ha : IsRotation A) (hb : IsRotation B) : IsRotation (A * B) := by
  refine ⟨?_, by rw [Matrix.det_mul, ha.2, hb.2, one_mul]⟩
  rw [Matrix.transpose_mul, Matrix.mul_assoc, ← Matrix.mul_assoc Aᵀ, ha.1, Matrix.one_mul, hb.1]

/-- C74: the matrix of Euler angles is a rotation. -/
theorem euler_rotation (psi theta phi : ℝ) : IsRotation (toM (eulerToMatrix psi theta phi)) := by
  rw [euler_is_turns]; exact ((Rz_rotation _).mul (Ry_rotation _)).mul (Rx_rotation _)

theorem arctan2_spec {y x : ℝ} (h : x ^ 2 + y ^ 2 = 1) : cos (arctan2 y x) = x ∧ sin (arctan2 y x) = y := by
  have hn : ‖(⟨x, y⟩ : ℂ)‖ = 1 := by
    rw [Complex.norm_def, Complex.normSq_mk]
    rw [show x * x + y * y = 1 by nlinarith]; exact Real.sqrt_one
  have h1 := Complex.norm_mul_cos_arg (⟨x, y⟩ : ℂ)
  have h2 := Complex.norm_mul_sin_arg (⟨x, y⟩ : ℂ)
  rw [hn, one_mul] at h1 h2
  exact ⟨h1, h2⟩

/-- the nine equations between the entries of a rotation used below -/
structure Ent (r : Fin 9 → ℝ) : Prop where
  c1 : r 0 ^ 2 + r 3 ^ 2 + r 6 ^ 2 = 1
  r3 : r 6 ^ 2 + r 7 ^ 2 + r 8 ^ 2 = 1
  k00 : r 4 * r 8 - r 5 * r 7 = r 0
  k01 : r 2 * r 7 - r 1 * r 8 = r 3
  k02 : r 1 * r 5 - r 2 * r 4 = r 6
  k10 : r 5 * r 6 - r 3 * r 8 = r 1
  k11 : r 0 * r 8 - r 2 * r 6 = r 4
  k12 : r 2 * r 3 - r 0 * r 5 = r 7
  k20 : r 3 * r 7 - r 4 * r 6 = r 2
  k21 : r 1 * r 6 - r 0 * r 7 = r 5
  k22 : r 0 * r 4 - r 1 * r 3 = r 8
  o13 : r 0 * r 6 + r 1 * r 7 + r 2 * r 8 = 0
  o23 : r 3 * r 6 + r 4 * r 7 + r 5 * r 8 = 0

theorem rotation_entries {r : Fin 9 → ℝ} (h : IsRotation (toM r)) : Ent r := by
  obtain ⟨h1, h2⟩ := h
  have h1' : toM r * (toM r)ᵀ = 1 := mul_eq_one_comm.mp h1
  have adj : (toM r).adjugate = (toM r)ᵀ := by
    calc (toM r).adjugate = (toM r).adjugate * (toM r * (toM r)ᵀ) := by rw [h1', mul_one]
      _ = (toM r)ᵀ := by rw [← mul_assoc, Matrix.adjugate_mul, h2, one_smul, one_mul]
  have ea : ∀ i j, (toM r).adjugate i j = (toM r)ᵀ i j := fun i j => by rw [adj]
  have e1 : ∀ i j, ((toM r)ᵀ * toM r) i j = (1 : M3) i j := fun i j => by rw [h1]
  have e2 : ∀ i j, (toM r * (toM r)ᵀ) i j = (1 : M3) i j := fun i j => by rw [h1']
  have a00 := ea 0 0; have a01 := ea 0 1; have a02 := ea 0 2; have a10 := ea 1 0; have a11 := ea 1 1; have a12 := ea 1 2
  have a20 := ea 2 0; have a21 := ea 2 1; have a22 := ea 2 2
  have b := e1 0 0; have c := e2 2 2; have d := e2 0 2; have e := e2 1 2
  rw [Matrix.adjugate_fin_three] at a00 a01 a02 a10 a11 a12 a20 a21 a22
  unfold toM at a00 a01 a02 a10 a11 a12 a20 a21 a22 b c d e
  simp [Matrix.mul_apply, Fin.sum_univ_three] at a00 a01 a02 a10 a11 a12 a20 a21 a22 b c d e
  exact ⟨by linarith, by linarith, by linarith, by linarith, by linarith, by linarith, by linarith, by linarith, by linarith, by linarith,
    by linarith, by linarith, by linarith⟩

theorem euler_of_entries {r : Fin 9 → ℝ} (E : Ent r) {psi theta phi c : ℝ} (hc : c ≠ 0) (hc2 : c ^ 2 = 1 - r 6 ^ 2) (h1 : cos theta = c)
    (h2 : sin theta = -r 6) (h3 : cos psi = r 8 / c) (h4 : sin psi = r 7 / c) (h5 : cos phi = r 0 / c) (h6 : sin phi = r 3 / c) :
    eulerToMatrix psi theta phi = r := by
  obtain ⟨c1, r3, k00, k01, k02, k10, k11, k12, k20, k21, k22, o13, o23⟩ := E
  unfold eulerToMatrix
  dsimp only
  rw [h1, h2, h3, h4, h5, h6]
  funext i
  fin_cases i <;> simp <;> field_simp <;> rw [hc2]
  · linear_combination (-r 7) * o13 + r 1 * r3 + r 8 * k01
  · linear_combination (-r 8) * o13 + r 2 * r3 - r 7 * k01
  · linear_combination (-r 7) * o23 + r 4 * r3 - r 8 * k00
  · linear_combination (-r 8) * o23 + r 5 * r3 + r 7 * k00

/-- C74: the Euler angles found for a rotation give the rotation back, each of them. -/
theorem euler_round_trip (r : Fin 9 → ℝ) (h : IsRotation (toM r)) :
    matrixToEuler r ≠ [] ∧ ∀ t ∈ matrixToEuler r, eulerToMatrix t.1 t.2.1 t.2.2 = r := by
  have E := rotation_entries h
  by_cases h1 : |r 6| ≠ 1
  · have hlt : r 6 ^ 2 < 1 := by
      have : r 6 ^ 2 ≤ 1 := by nlinarith [E.c1, sq_nonneg (r 0), sq_nonneg (r 3)]
      refine lt_of_le_of_ne this fun e => h1 ?_
      rw [← sq_abs] at e
      nlinarith [abs_nonneg (r 6)]
    have hb := abs_lt.mp ((sq_lt_one_iff_abs_lt_one _).mp hlt)
    have hs : sin (-1 * arcsin (r 6)) = -r 6 := by rw [neg_one_mul, sin_neg, sin_arcsin hb.1.le hb.2.le]
    have hcv : cos (-1 * arcsin (r 6)) = √(1 - r 6 ^ 2) := by rw [neg_one_mul, cos_neg, cos_arcsin]
    have hpos : 0 < √(1 - r 6 ^ 2) := Real.sqrt_pos.mpr (by linarith)
    have hsq : √(1 - r 6 ^ 2) ^ 2 = 1 - r 6 ^ 2 := Real.sq_sqrt (by linarith)
    have unit : ∀ {c x y : ℝ}, c ≠ 0 → c ^ 2 = 1 - r 6 ^ 2 → x ^ 2 + y ^ 2 = 1 - r 6 ^ 2 → (x / c) ^ 2 + (y / c) ^ 2 = 1 := by
      intro c x y hc hc2 hxy
      rw [div_pow, div_pow, ← add_div, hxy, hc2, div_self]
      rw [← hc2]; exact pow_ne_zero 2 hc
    unfold matrixToEuler
    rw [if_pos h1]
    dsimp only
    refine ⟨by simp, ?_⟩
    intro t ht
    simp only [List.mem_cons, List.not_mem_nil, or_false] at ht
    have x78 : r 8 ^ 2 + r 7 ^ 2 = 1 - r 6 ^ 2 := by linarith [E.r3]
    have x03 : r 0 ^ 2 + r 3 ^ 2 = 1 - r 6 ^ 2 := by linarith [E.c1]
    rcases ht with rfl | rfl
    · have hc : cos (-1 * arcsin (r 6)) ≠ 0 := by rw [hcv]; exact hpos.ne'
      have hc2 : cos (-1 * arcsin (r 6)) ^ 2 = 1 - r 6 ^ 2 := by rw [hcv]; exact hsq
      obtain ⟨a1, a2⟩ := arctan2_spec (unit hc hc2 x78)
      obtain ⟨b1, b2⟩ := arctan2_spec (unit hc hc2 x03)
      exact euler_of_entries E hc hc2 rfl hs a1 a2 b1 b2
    · have hs' : sin (π - -1 * arcsin (r 6)) = -r 6 := by rw [sin_pi_sub, hs]
      have hcv' : cos (π - -1 * arcsin (r 6)) = -√(1 - r 6 ^ 2) := by rw [cos_pi_sub, hcv]
      have hc : cos (π - -1 * arcsin (r 6)) ≠ 0 := by rw [hcv']; exact (neg_neg_of_pos hpos).ne
      have hc2 : cos (π - -1 * arcsin (r 6)) ^ 2 = 1 - r 6 ^ 2 := by rw [hcv', neg_sq]; exact hsq
      obtain ⟨a1, a2⟩ := arctan2_spec (unit hc hc2 x78)
      obtain ⟨b1, b2⟩ := arctan2_spec (unit hc hc2 x03)
      exact euler_of_entries E hc hc2 rfl hs' a1 a2 b1 b2
  · have h1' : |r 6| = 1 := not_not.mp h1
    have sq1 : r 6 ^ 2 = 1 := by rw [← sq_abs, h1', one_pow]
    obtain ⟨c1, r3, k00, k01, k02, k10, k11, k12, k20, k21, k22, o13, o23⟩ := E
    have z0 : r 0 = 0 := by nlinarith [sq_nonneg (r 0), sq_nonneg (r 3)]
    have z3 : r 3 = 0 := by nlinarith [sq_nonneg (r 0), sq_nonneg (r 3)]
    have z7 : r 7 = 0 := by nlinarith [sq_nonneg (r 7), sq_nonneg (r 8)]
    have z8 : r 8 = 0 := by nlinarith [sq_nonneg (r 7), sq_nonneg (r 8)]
    have e5 : r 5 = r 1 * r 6 := by rw [z0, zero_mul, sub_zero] at k21; exact k21.symm
    have e4 : r 4 = -(r 2 * r 6) := by rw [z0, zero_mul, zero_sub] at k11; exact k11.symm
    have un : r 2 ^ 2 + r 1 ^ 2 = 1 := by
      rw [e5, e4] at k02
      have : r 6 * (r 2 ^ 2 + r 1 ^ 2) = r 6 := by linear_combination k02
      have h6 : r 6 ≠ 0 := by intro e; rw [e] at sq1; norm_num at sq1
      exact mul_left_cancel₀ h6 (by rw [this, mul_one])
    unfold matrixToEuler
    rw [if_neg h1]
    dsimp only
    by_cases h6 : r 6 = -1
    · rw [if_pos h6]
      refine ⟨by simp, ?_⟩
      intro t ht
      rw [List.mem_singleton] at ht
      subst ht
      obtain ⟨a1, a2⟩ := arctan2_spec un
      dsimp only
      rw [zero_add]
      unfold eulerToMatrix
      dsimp only
      rw [a1, a2, cos_zero, sin_zero, cos_pi_div_two, sin_pi_div_two]
      funext i
      fin_cases i <;> simp <;> simp [z0, z3, z7, z8, e5, e4, h6]
    · have h6' : r 6 = 1 := by
        have : (r 6 - 1) * (r 6 + 1) = 0 := by linear_combination sq1
        rcases mul_eq_zero.mp this with e | e
        · linarith
        · exact absurd (by linarith) h6
      rw [if_neg h6]
      refine ⟨by simp, ?_⟩
      intro t ht
      rw [List.mem_singleton] at ht
      subst ht
      obtain ⟨a1, a2⟩ := arctan2_spec (y := -1 * r 1) (x := -1 * r 2) (by linear_combination un)
      dsimp only
      rw [mul_zero, zero_add]
      unfold eulerToMatrix
      dsimp only
      rw [a1, a2, cos_zero, sin_zero, show -1 * π / 2 = -(π / 2) by ring, cos_neg, sin_neg, cos_pi_div_two, sin_pi_div_two]
      funext i
      fin_cases i <;> simp <;> simp [z0, z3, z7, z8, e5, e4, h6']

/-- a turn by 90° about the axis (1,1,1) meets the hypotheses (it permutes the axes) -/
example : IsRotation (toM ![0, 0, 1, 1, 0, 0, 0, 1, 0]) := by
  refine ⟨?_, ?_⟩
  · unfold toM
    apply m_ext <;> simp [Matrix.mul_apply, Fin.sum_univ_three]
  · unfold toM; simp [Matrix.det_fin_three]

theorem arctan2_of {t c : ℝ} (hc : 0 < c) (h1 : -π < t) (h2 : t ≤ π) : arctan2 (c * sin t) (c * cos t) = t := by
  unfold arctan2
  have : (⟨c * cos t, c * sin t⟩ : ℂ) = (c : ℂ) * (Complex.cos t + Complex.sin t * Complex.I) := by
    rw [← Complex.ofReal_cos, ← Complex.ofReal_sin]
    apply Complex.ext <;> simp only [Complex.mul_re, Complex.mul_im, Complex.add_re, Complex.add_im, Complex.ofReal_re, Complex.ofReal_im,
      Complex.I_re, Complex.I_im] <;> ring
  rw [this]
  exact Complex.arg_mul_cos_add_sin_mul_I hc ⟨h1, h2⟩

/-- C74: and the first triple found for the matrix of the angles `ψ, θ, φ` in their ranges is `ψ, θ, φ`. -/
theorem euler_angles_back {psi theta phi : ℝ} (hp : -π < psi ∧ psi ≤ π) (ht : -(π / 2) < theta ∧ theta < π / 2) (hf : -π < phi ∧ phi ≤ π) :
    (matrixToEuler (eulerToMatrix psi theta phi)).head? = some (psi, theta, phi) := by
  have hc : 0 < cos theta := cos_pos_of_mem_Ioo ht
  have e6 : eulerToMatrix psi theta phi 6 = -sin theta := by simp [eulerToMatrix]
  have e7 : eulerToMatrix psi theta phi 7 = sin psi * cos theta := by simp [eulerToMatrix]
  have e8 : eulerToMatrix psi theta phi 8 = cos psi * cos theta := by simp [eulerToMatrix]
  have e3 : eulerToMatrix psi theta phi 3 = cos theta * sin phi := by simp [eulerToMatrix]
  have e0 : eulerToMatrix psi theta phi 0 = cos theta * cos phi := by simp [eulerToMatrix]
  have h1 : |eulerToMatrix psi theta phi 6| ≠ 1 := by
    rw [e6, abs_neg]
    intro e
    have : sin theta ^ 2 = 1 := by rw [← sq_abs, e, one_pow]
    nlinarith [sin_sq_add_cos_sq theta]
  unfold matrixToEuler
  rw [if_pos h1]
  dsimp only
  rw [e6, e7, e8, e3, e0]
  have th : -1 * arcsin (-sin theta) = theta := by
    rw [arcsin_neg, neg_one_mul, neg_neg, arcsin_sin ht.1.le ht.2.le]
  rw [th]
  have p1 := arctan2_of (c := 1) one_pos hp.1 hp.2
  have p2 := arctan2_of (c := 1) one_pos hf.1 hf.2
  rw [one_mul, one_mul] at p1 p2
  rw [mul_div_cancel_right₀ _ hc.ne', mul_div_cancel_right₀ _ hc.ne', mul_div_cancel_left₀ _ hc.ne', mul_div_cancel_left₀ _ hc.ne', p1, p2]
  rfl

/-- C74: turns about the axes.  About `x` and `z` (and for any other text, about `x`) the matrix turns vectors by minus the angle … -/
theorem rot_axis_xz (t : ℝ) (axis : String) (h : axis ≠ "y") :
    toM (rotAxis t axis) = if axis = "z" then Rz (-t) else Rx (-t) := by
  unfold rotAxis
  rw [if_neg h]
  split_ifs
  · unfold toM Rz; apply m_ext <;> simp
  · unfold toM Rx; apply m_ext <;> simp

/-- C74 (failure): … but about `y` by plus the angle. -/
theorem rot_axis_y (t : ℝ) : toM (rotAxis t "y") = Ry t := by
  unfold rotAxis
  rw [if_pos rfl]
  unfold toM Ry; apply m_ext <;> simp

/-! ## Two vectors -/

theorem len_eq (v : Fin 3 → ℝ) : √(v 0 ^ 2 + v 1 ^ 2 + v 2 ^ 2) = len v := by
  unfold len dotProduct
  rw [Fin.sum_univ_three, pow_two, pow_two, pow_two]

theorem len_sq (v : Fin 3 → ℝ) : len v ^ 2 = v 0 ^ 2 + v 1 ^ 2 + v 2 ^ 2 := by
  rw [← len_eq, Real.sq_sqrt (by positivity)]

theorem len_pos {v : Fin 3 → ℝ} (h : v ≠ 0) : 0 < len v := by
  rw [← len_eq]
  apply Real.sqrt_pos.mpr
  by_contra hn
  apply h
  apply v_ext <;> simp <;> nlinarith [sq_nonneg (v 0), sq_nonneg (v 1), sq_nonneg (v 2)]

theorem dot3 (v w : Fin 3 → ℝ) : v ⬝ᵥ w = v 0 * w 0 + v 1 * w 1 + v 2 * w 2 := by
  unfold dotProduct; rw [Fin.sum_univ_three]

/-- C74: the angle between two vectors, when neither is zero and one is longer than `10⁻¹²`. -/
theorem vector_angle (v w : Fin 3 → ℝ) (hv : v ≠ 0) (hw : w ≠ 0) (hl : 1 / 10 ^ 12 < len v ∨ 1 / 10 ^ 12 < len w) :
    ∃ t, vecAngle v w = some t ∧ 0 ≤ t ∧ t ≤ π ∧ v ⬝ᵥ w = len v * len w * cos t := by
  have n1 := len_pos hv
  have n2 := len_pos hw
  refine ⟨arccos ((v 0 * w 0 + v 1 * w 1 + v 2 * w 2) / (len v * len w)), ?_, arccos_nonneg _, arccos_le_pi _, ?_⟩
  · unfold vecAngle
    dsimp only
    rw [len_eq, len_eq, if_pos hl, if_neg (mul_pos n1 n2).ne']
  · have hb : |(v 0 * w 0 + v 1 * w 1 + v 2 * w 2) / (len v * len w)| ≤ 1 := by
      rw [abs_div, abs_of_pos (mul_pos n1 n2)]
      apply div_le_one_of_le₀ _ (mul_pos n1 n2).le
      apply abs_le_of_sq_le_sq _ (mul_pos n1 n2).le
      rw [mul_pow, len_sq, len_sq]
      nlinarith [sq_nonneg (v 0 * w 1 - v 1 * w 0), sq_nonneg (v 0 * w 2 - v 2 * w 0), sq_nonneg (v 1 * w 2 - v 2 * w 1)]
    rw [cos_arccos (abs_le.mp hb).1 (abs_le.mp hb).2, dot3, mul_div_cancel₀ _ (mul_pos n1 n2).ne']

/-- C74 (failure): the angle with the zero vector is not a number when the other vector is longer than `10⁻¹²` (the guard asks for one of the
lengths instead of both), and two short vectors have the angle `arccos 0.99999` whatever their directions. -/
theorem vector_angle_zero (v w : Fin 3 → ℝ) : (1 / 10 ^ 12 < len v → vecAngle v 0 = none) ∧
    (len v ≤ 1 / 10 ^ 12 → len w ≤ 1 / 10 ^ 12 → vecAngle v w = some (arccos 0.99999)) := by
  constructor
  · intro h
    unfold vecAngle
    dsimp only
    rw [len_eq, if_pos (Or.inl h), if_pos (by simp)]
  · intro h1 h2
    unfold vecAngle
    dsimp only
    rw [len_eq, len_eq, if_neg (by push Not; exact ⟨h1, h2⟩)]

theorem vprod_cross (v w : Fin 3 → ℝ) : vprod v w = v ⨯₃ w := by
  unfold vprod
  rw [cross_apply]

/-- C74: the matrix of two vectors (not along one line) is a rotation; its first column is the direction of the first vector, its second
column is perpendicular to the first vector in the plane of the two, on the side of the second vector. -/
theorem two_vectors (v w : Fin 3 → ℝ) (h : v ⨯₃ w ≠ 0) :
    IsRotation (toM (twoVectors v w)) ∧ (toM (twoVectors v w))ᵀ 0 = (1 / len v) • v ∧
    ∃ a b : ℝ, 0 < b ∧ w = a • (toM (twoVectors v w))ᵀ 0 + b • (toM (twoVectors v w))ᵀ 1 := by
  have hv : v ≠ 0 := by rintro rfl; simp at h
  have hw : w ≠ 0 := by rintro rfl; simp at h
  have n1 := len_pos hv
  have n2 := len_pos hw
  have nz : 0 < len (v ⨯₃ w) := len_pos h
  set n := len v with hn
  set m := len w with hm
  set k := len (v ⨯₃ w) with hk
  have sn := len_sq v
  have sm := len_sq w
  have sk := len_sq (v ⨯₃ w)
  rw [← hn] at sn; rw [← hm] at sm; rw [← hk] at sk
  rw [cross_apply] at sk
  simp only [Matrix.cons_val] at sk
  -- the columns
  have nzv : √((v 1 / n * (w 2 / m) - v 2 / n * (w 1 / m)) ^ 2 + (v 2 / n * (w 0 / m) - v 0 / n * (w 2 / m)) ^ 2 +
      (v 0 / n * (w 1 / m) - v 1 / n * (w 0 / m)) ^ 2) = k / (n * m) := by
    rw [show (v 1 / n * (w 2 / m) - v 2 / n * (w 1 / m)) ^ 2 + (v 2 / n * (w 0 / m) - v 0 / n * (w 2 / m)) ^ 2 +
      (v 0 / n * (w 1 / m) - v 1 / n * (w 0 / m)) ^ 2 = (k / (n * m)) ^ 2 by
        rw [div_pow, sk]; field_simp]
    exact Real.sqrt_sq (div_pos nz (mul_pos n1 n2)).le
  have form : twoVectors v w = ![v 0 / n, ((v 2 * w 0 - v 0 * w 2) * v 2 - (v 0 * w 1 - v 1 * w 0) * v 1) / (k * n), (v 1 * w 2 - v 2 * w 1) / k,
      v 1 / n, ((v 0 * w 1 - v 1 * w 0) * v 0 - (v 1 * w 2 - v 2 * w 1) * v 2) / (k * n), (v 2 * w 0 - v 0 * w 2) / k,
      v 2 / n, ((v 1 * w 2 - v 2 * w 1) * v 1 - (v 2 * w 0 - v 0 * w 2) * v 0) / (k * n), (v 0 * w 1 - v 1 * w 0) / k] := by
    unfold twoVectors vprod
    dsimp only
    rw [len_eq, len_eq, ← hn, ← hm]
    simp only [Matrix.cons_val]
    rw [nzv]
    funext i
    fin_cases i <;> simp <;> field_simp
  have n0 := n1.ne'
  have k0 := nz.ne'
  rw [form]
  generalize hkk : k ^ 2 = K at sk
  generalize hnn : n ^ 2 = N at sn
  refine ⟨⟨?_, ?_⟩, ?_, (v 0 * w 0 + v 1 * w 1 + v 2 * w 2) / n, k / n, div_pos nz n1, ?_⟩
  · unfold toM
    apply m_ext <;> simp [Matrix.mul_apply, Fin.sum_univ_three] <;> field_simp <;> (try rw [hkk, sk]) <;> (try rw [hnn, sn]) <;> ring
  · unfold toM
    simp [Matrix.det_fin_three]
    field_simp
    rw [hkk, hnn, sk, sn]
    ring
  · unfold toM
    apply v_ext <;> simp <;> field_simp
  · unfold toM
    apply v_ext <;> simp <;> field_simp <;> rw [hnn, sn] <;> ring

/-- two vectors that are not along one line -/
example : (![1, 2, 0] : Fin 3 → ℝ) ⨯₃ ![0, 1, 1] ≠ 0 := by
  intro h
  have := congrFun h 0
  simp [cross_apply] at this

end Cryspy.Rot
