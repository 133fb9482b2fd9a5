import Verif.Cell.Lemmas
import Verif.Mat.Props

/-!
# C19, C20, C21: metric, Cartesian frames, tensors

`metric`, `NonDegenerate`, `edges` are in Spec.lean, `toM`, `toQ` in Mat/Spec.lean; the functions on the left are the model of
unit_cell.py.
-/

namespace Cryspy.Cell

open Real Cryspy.Mat Matrix

/-- an orthogonal cell 2 × 3 × 5 -/
noncomputable def exUC : Fin 6 → ℝ := ![2, 3, 5, π / 2, π / 2, π / 3]

theorem exUC_nonDegenerate : NonDegenerate exUC := by
  refine ⟨by simp [exUC], by simp [exUC], by simp [exUC], ?_⟩
  rw [det_metric]
  have : calc_phi_sq exUC = 3 / 4 := by simp [calc_phi_sq, exUC]; norm_num
  rw [this]; simp [exUC]

theorem exUC_proper : ProperAngles exUC := by
  have := pi_pos
  refine ⟨⟨?_, ?_⟩, ⟨?_, ?_⟩, ⟨?_, ?_⟩⟩ <;> simp [exUC] <;> linarith

/-! ### C19 -/

/-- C19: `calc_m_g` is the metric. -/
theorem m_g_is_metric (uc : Fin 6 → ℝ) : toQ (calc_m_g uc) = metric uc := by
  apply m_ext <;> simp [toQ, calc_m_g, metric] <;> left <;> ring

/-- C19: `calc_m_reciprocal_g` is the inverse of the metric. -/
theorem reciprocal_metric_inverse (uc : Fin 6 → ℝ) (h : NonDegenerate uc) :
    toQ (calc_m_reciprocal_g uc) * metric uc = 1 ∧ metric uc * toQ (calc_m_reciprocal_g uc) = 1 := by
  have : toQ (calc_m_reciprocal_g uc) * metric uc = 1 := by
    have F := facts h
    unfold calc_m_reciprocal_g metric toQ
    dsimp only
    rw [phi_sq_eq h]
    gen_cell uc
    mat_cell F
  exact ⟨this, mul_eq_one_comm.mp this⟩

example : NonDegenerate exUC := exUC_nonDegenerate

/-- C19: the volume is positive and its square is the determinant of the metric. -/
theorem volume_is_sqrt_det (uc : Fin 6 → ℝ) (h : NonDegenerate uc) :
    0 < calc_volume_uc uc ∧ calc_volume_uc uc = Real.sqrt (metric uc).det := by
  have hp := phi_pos h
  have hv : 0 < calc_volume_uc uc := by
    unfold calc_volume_uc
    exact mul_pos (mul_pos (mul_pos h.a_pos h.b_pos) h.c_pos) hp
  refine ⟨hv, ?_⟩
  rw [det_metric, phi_sq_eq h, ← mul_pow, Real.sqrt_sq]
  · rfl
  · exact hv.le

/-- C19: the reciprocal volume is one over the volume, and the square root of the determinant of the reciprocal metric. -/
theorem reciprocal_volume (uc : Fin 6 → ℝ) (h : NonDegenerate uc) :
    calc_volume_ruc uc * calc_volume_uc uc = 1 ∧
      calc_volume_ruc uc = Real.sqrt (toQ (calc_m_reciprocal_g uc)).det := by
  obtain ⟨hv, e⟩ := volume_is_sqrt_det uc h
  have h1 : calc_volume_ruc uc * calc_volume_uc uc = 1 := by
    unfold calc_volume_ruc; field_simp
  refine ⟨h1, ?_⟩
  have h2 := congrArg Matrix.det (reciprocal_metric_inverse uc h).1
  rw [Matrix.det_mul, Matrix.det_one] at h2
  have h3 : (toQ (calc_m_reciprocal_g uc)).det = ((metric uc).det)⁻¹ := eq_inv_of_mul_eq_one_left h2
  rw [h3, Real.sqrt_inv, ← e]
  exact eq_inv_of_mul_eq_one_left h1

/-- C19: the reciprocal cell parameters are those of a cell whose metric is the inverse of the metric … -/
theorem reciprocal_cell_metric (uc : Fin 6 → ℝ) (h : NonDegenerate uc) :
    metric (calc_reciprocal uc) * metric uc = 1 := by
  have F := facts h
  obtain ⟨c3, c4, c5⟩ := cos_recip h
  unfold metric
  rw [c3, c4, c5]
  unfold calc_reciprocal calc_volume_uc
  clear c3 c4 c5
  dsimp only
  simp only [Matrix.cons_val]
  gen_cell uc
  mat_cell F

theorem metric_symm (uc : Fin 6 → ℝ) : (metric uc)ᵀ = metric uc := by
  apply m_ext <;> simp [metric] <;> left <;> ring

/-- C19: … that cell is non-degenerate with proper angles … -/
theorem reciprocal_cell_nonDegenerate (uc : Fin 6 → ℝ) (h : NonDegenerate uc) (hp : ProperAngles uc) :
    NonDegenerate (calc_reciprocal uc) ∧ ProperAngles (calc_reciprocal uc) := by
  obtain ⟨⟨a1, a2⟩, ⟨b1, b2⟩, ⟨g1, g2⟩⟩ := hp
  have sa := sin_pos_of_pos_of_lt_pi a1 a2
  have sb := sin_pos_of_pos_of_lt_pi b1 b2
  have sg := sin_pos_of_pos_of_lt_pi g1 g2
  have hv := (volume_is_sqrt_det uc h).1
  have ha := h.a_pos; have hb := h.b_pos; have hc := h.c_pos
  have hd := h.det_pos
  have nd : NonDegenerate (calc_reciprocal uc) := by
    refine ⟨?_, ?_, ?_, ?_⟩
    · simp only [calc_reciprocal, Matrix.cons_val]; positivity
    · simp only [calc_reciprocal, Matrix.cons_val]; positivity
    · simp only [calc_reciprocal, Matrix.cons_val]; positivity
    · have h2 := congrArg Matrix.det (reciprocal_cell_metric uc h)
      rw [Matrix.det_mul, Matrix.det_one] at h2
      rw [eq_inv_of_mul_eq_one_left h2]
      exact inv_pos.mpr hd
  have F := facts nd
  have key : ∀ k : Fin 6, k = 3 ∨ k = 4 ∨ k = 5 → sin (calc_reciprocal uc k) ≠ 0 →
      0 < calc_reciprocal uc k ∧ calc_reciprocal uc k < π := by
    intro k hk hs
    have r : 0 ≤ calc_reciprocal uc k ∧ calc_reciprocal uc k ≤ π := by
      rcases hk with rfl | rfl | rfl <;> simp only [calc_reciprocal, Matrix.cons_val] <;>
        exact ⟨arccos_nonneg _, arccos_le_pi _⟩
    refine ⟨lt_of_le_of_ne r.1 ?_, lt_of_le_of_ne r.2 ?_⟩
    · intro e; rw [← e, sin_zero] at hs; exact hs rfl
    · intro e; rw [e, sin_pi] at hs; exact hs rfl
  exact ⟨nd, key 3 (by simp) F.sa_ne, key 4 (by simp) F.sb_ne, key 5 (by simp) F.sg_ne⟩

/-- a proper cell is determined by its metric -/
theorem cell_of_metric {u v : Fin 6 → ℝ} (hu : NonDegenerate u) (pu : ProperAngles u) (hv : NonDegenerate v)
    (pv : ProperAngles v) (e : metric u = metric v) : u = v := by
  have ent : ∀ i j, metric u i j = metric v i j := fun i j => by rw [e]
  have a := ent 0 0; have b := ent 1 1; have c := ent 2 2
  have ab := ent 0 1; have ac := ent 0 2; have bc := ent 1 2
  simp [metric] at a b c ab ac bc
  have ea : u 0 = v 0 := by nlinarith [hu.a_pos, hv.a_pos]
  have eb : u 1 = v 1 := by nlinarith [hu.b_pos, hv.b_pos]
  have ec : u 2 = v 2 := by nlinarith [hu.c_pos, hv.c_pos]
  rw [ea, eb] at ab; rw [ea, ec] at ac; rw [eb, ec] at bc
  have a0 := hv.a_pos.ne'; have b0 := hv.b_pos.ne'; have c0 := hv.c_pos.ne'
  have cg : cos (u 5) = cos (v 5) := mul_left_cancel₀ (mul_ne_zero a0 b0) ab
  have cb : cos (u 4) = cos (v 4) := mul_left_cancel₀ (mul_ne_zero a0 c0) ac
  have ca : cos (u 3) = cos (v 3) := mul_left_cancel₀ (mul_ne_zero b0 c0) bc
  have inj : ∀ k, (0 < u k ∧ u k < π) → (0 < v k ∧ v k < π) → cos (u k) = cos (v k) → u k = v k :=
    fun k x y z => injOn_cos ⟨x.1.le, x.2.le⟩ ⟨y.1.le, y.2.le⟩ z
  exact funext (fin6 ea eb ec (inj 3 pu.1 pv.1 ca) (inj 4 pu.2.1 pv.2.1 cb) (inj 5 pu.2.2 pv.2.2 cg))

/-- C19: … and taking the reciprocal cell twice gives the cell back. -/
theorem reciprocal_involution (uc : Fin 6 → ℝ) (h : NonDegenerate uc) (hp : ProperAngles uc) :
    calc_reciprocal (calc_reciprocal uc) = uc := by
  obtain ⟨n1, p1⟩ := reciprocal_cell_nonDegenerate uc h hp
  obtain ⟨n2, p2⟩ := reciprocal_cell_nonDegenerate _ n1 p1
  refine cell_of_metric n2 p2 h hp ?_
  have e1 := reciprocal_cell_metric uc h
  have e2 := reciprocal_cell_metric _ n1
  calc metric (calc_reciprocal (calc_reciprocal uc))
      = metric (calc_reciprocal (calc_reciprocal uc)) * (metric (calc_reciprocal uc) * metric uc) := by rw [e1, mul_one]
    _ = metric uc := by rw [← mul_assoc, e2, one_mul]

example : NonDegenerate exUC ∧ ProperAngles exUC := ⟨exUC_nonDegenerate, exUC_proper⟩

/-- C19: the normalised metrics are the metrics of the cells with unit edges. -/
theorem norm_metrics (uc : Fin 6 → ℝ) (h : NonDegenerate uc) :
    edges uc * toQ (calc_m_g_norm uc) * edges uc = metric uc ∧
    edges (calc_reciprocal uc) * toQ (calc_m_reciprocal_g_norm uc) * edges (calc_reciprocal uc)
      = metric (calc_reciprocal uc) := by
  constructor
  · apply m_ext <;> simp [edges, toQ, calc_m_g_norm, metric, Matrix.mul_apply, Fin.sum_univ_three, Matrix.diagonal] <;> ring
  · have F := facts h
    obtain ⟨c3, c4, c5⟩ := cos_recip h
    unfold metric
    rw [c3, c4, c5]
    unfold calc_m_reciprocal_g_norm toQ edges
    generalize calc_reciprocal uc 0 = x
    generalize calc_reciprocal uc 1 = y
    generalize calc_reciprocal uc 2 = z
    clear c3 c4 c5
    dsimp only
    gen_cell uc
    mat_cell F

/-! ### C20 -/

/-- C20: `MᵀM` is the metric: the columns of `calc_m_m` are basis vectors with the lengths and angles of the cell. -/
theorem m_m_factors_metric (uc : Fin 6 → ℝ) (h : NonDegenerate uc) : (toM (calc_m_m uc))ᵀ * toM (calc_m_m uc) = metric uc := by
  have F := facts h
  unfold calc_m_m metric toM
  dsimp only
  gen_cell uc
  mat_cell F

/-- C20: `BᵀB` is the inverse of the metric. -/
theorem m_b_factors_reciprocal_metric (uc : Fin 6 → ℝ) (h : NonDegenerate uc) :
    (toM (calc_m_b uc))ᵀ * toM (calc_m_b uc) * metric uc = 1 := by
  have F := facts h
  unfold calc_m_b metric toM
  dsimp only
  gen_cell uc
  mat_cell F

/-- C20: the basis vectors of `B` are dual to those of `M`: `Bᵀ M = 1`. -/
theorem m_b_dual_m_m (uc : Fin 6 → ℝ) (h : NonDegenerate uc) : (toM (calc_m_b uc))ᵀ * toM (calc_m_m uc) = 1 := by
  have F := facts h
  unfold calc_m_b calc_m_m toM
  dsimp only
  gen_cell uc
  mat_cell F

/-- C20: `calc_m_inv_b` is the inverse of `calc_m_b`. -/
theorem m_inv_b_spec (uc : Fin 6 → ℝ) (h : NonDegenerate uc) :
    toM (calc_m_b uc) * toM (calc_m_inv_b uc) = 1 ∧ toM (calc_m_inv_b uc) * toM (calc_m_b uc) = 1 := by
  have : toM (calc_m_b uc) * toM (calc_m_inv_b uc) = 1 := by
    have F := facts h
    unfold calc_m_b calc_m_inv_b toM
    dsimp only
    gen_cell uc
    mat_cell F
  exact ⟨this, mul_eq_one_comm.mp this⟩

/-- C20: `calc_m_inv_m` is the inverse of `calc_m_m`. -/
theorem m_inv_m_spec (uc : Fin 6 → ℝ) (h : NonDegenerate uc) :
    toM (calc_m_m uc) * toM (calc_m_inv_m uc) = 1 ∧ toM (calc_m_inv_m uc) * toM (calc_m_m uc) = 1 := by
  have : toM (calc_m_m uc) * toM (calc_m_inv_m uc) = 1 := by
    have F := facts h
    unfold calc_m_m calc_m_inv_m toM
    dsimp only
    gen_cell uc
    mat_cell F
  exact ⟨this, mul_eq_one_comm.mp this⟩

/-- C20: `calc_m_m_norm` has the columns of `calc_m_m` divided by the edges, and `calc_m_inv_m_norm` is its inverse. -/
theorem m_m_norm_spec (uc : Fin 6 → ℝ) (h : NonDegenerate uc) :
    toM (calc_m_m_norm uc) * edges uc = toM (calc_m_m uc) ∧
    toM (calc_m_m_norm uc) * toM (calc_m_inv_m_norm uc) = 1 := by
  have F := facts h
  constructor
  · unfold calc_m_m_norm calc_m_m toM edges
    dsimp only
    gen_cell uc
    mat_cell F
  · unfold calc_m_m_norm calc_m_inv_m_norm toM
    dsimp only
    gen_cell uc
    mat_cell F

/-- C20: `calc_m_b_norm` has the columns of `calc_m_b` divided by the reciprocal edges, and `calc_m_inv_b_norm` is its
inverse. -/
theorem m_b_norm_spec (uc : Fin 6 → ℝ) (h : NonDegenerate uc) :
    toM (calc_m_b_norm uc) * edges (calc_reciprocal uc) = toM (calc_m_b uc) ∧
    toM (calc_m_b_norm uc) * toM (calc_m_inv_b_norm uc) = 1 := by
  have F := facts h
  constructor
  · unfold calc_m_b_norm calc_m_b toM edges calc_reciprocal calc_volume_uc
    dsimp only
    simp only [Matrix.cons_val]
    gen_cell uc
    mat_cell F
  · unfold calc_m_b_norm calc_m_inv_b_norm toM
    dsimp only
    gen_cell uc
    mat_cell F

/-- C20: the products `M⁻¹ B_norm` and `B_norm⁻¹ M`. -/
theorem m_inv_m_b_norm_spec (uc : Fin 6 → ℝ) (h : NonDegenerate uc) :
    toM (calc_m_inv_m_b_norm uc) = toM (calc_m_inv_m uc) * toM (calc_m_b_norm uc) ∧
    toM (calc_m_inv_b_norm_m uc) = toM (calc_m_inv_b_norm uc) * toM (calc_m_m uc) := by
  have F := facts h
  constructor
  · unfold calc_m_inv_m_b_norm calc_m_inv_m calc_m_b_norm toM
    dsimp only
    gen_cell uc
    mat_cell F
  · unfold calc_m_inv_b_norm_m calc_m_inv_b_norm calc_m_m toM
    dsimp only
    gen_cell uc
    mat_cell F

/-- C20: the frame is the documented one: `x` along `a*`, `z` along `c`. -/
theorem frame_convention (uc : Fin 6 → ℝ) (h : NonDegenerate uc) (hp : ProperAngles uc) :
    (0 < toM (calc_m_b uc) 0 0 ∧ toM (calc_m_b uc) 1 0 = 0 ∧ toM (calc_m_b uc) 2 0 = 0) ∧
    (toM (calc_m_m uc) 0 2 = 0 ∧ toM (calc_m_m uc) 1 2 = 0 ∧ 0 < toM (calc_m_m uc) 2 2) := by
  have sa := sin_pos_of_pos_of_lt_pi hp.1.1 hp.1.2
  have := phi_pos h; have := h.a_pos; have := h.c_pos
  simp [toM, calc_m_b, calc_m_m]
  constructor <;> positivity

/-- C20: the scattering vector is `B h`. -/
theorem q_ccs_spec (hkl : Fin 3 → ℝ) (uc : Fin 6 → ℝ) : calc_q_ccs hkl uc = toM (calc_m_b uc) *ᵥ hkl := by
  apply v_ext <;> simp [toM, calc_q_ccs, Matrix.mulVec, dotProduct, Fin.sum_univ_three]

/-- C20: `1/d` is the length of the scattering vector. -/
theorem inv_d_is_length (hkl : Fin 3 → ℝ) (uc : Fin 6 → ℝ) (h : NonDegenerate uc) :
    0 ≤ calc_inv_d hkl uc ∧
    calc_inv_d hkl uc ^ 2 = calc_q_ccs hkl uc ⬝ᵥ calc_q_ccs hkl uc ∧
    calc_inv_d hkl uc ^ 2 = hkl ⬝ᵥ (toQ (calc_m_reciprocal_g uc) *ᵥ hkl) ∧
    calc_sthovl hkl uc = calc_inv_d hkl uc / 2 := by
  have key : calc_q_ccs hkl uc ⬝ᵥ calc_q_ccs hkl uc = hkl ⬝ᵥ (toQ (calc_m_reciprocal_g uc) *ᵥ hkl) := by
    have e : toQ (calc_m_reciprocal_g uc) = (toM (calc_m_b uc))ᵀ * toM (calc_m_b uc) := by
      have e1 := m_b_factors_reciprocal_metric uc h
      have e2 := (reciprocal_metric_inverse uc h).2
      calc toQ (calc_m_reciprocal_g uc)
          = ((toM (calc_m_b uc))ᵀ * toM (calc_m_b uc) * metric uc) * toQ (calc_m_reciprocal_g uc) := by rw [e1, one_mul]
        _ = _ := by rw [mul_assoc, e2, mul_one]
    rw [e, q_ccs_spec, ← Matrix.mulVec_mulVec, Matrix.dotProduct_mulVec hkl, Matrix.vecMul_transpose]
  have e2 : calc_inv_d hkl uc ^ 2 = hkl ⬝ᵥ (toQ (calc_m_reciprocal_g uc) *ᵥ hkl) := by
    have : calc_inv_d hkl uc = Real.sqrt (hkl ⬝ᵥ (toQ (calc_m_reciprocal_g uc) *ᵥ hkl)) := by
      have F := facts h
      unfold calc_inv_d
      dsimp only
      congr 1
      unfold calc_m_reciprocal_g toQ
      rw [phi_sq_eq h]
      dsimp only
      gen_cell uc
      obtain ⟨h1, h2, h3, h4, h5, h6, h7, h8, h9, h10, h11⟩ := F
      rw [← h11]
      simp [Matrix.mulVec, dotProduct, Fin.sum_univ_three]
      field_simp
      rw [h8, h9, h10]
      ring
    rw [this, Real.sq_sqrt]
    rw [← key]
    simp only [dotProduct, Fin.sum_univ_three]
    nlinarith [mul_self_nonneg (calc_q_ccs hkl uc 0), mul_self_nonneg (calc_q_ccs hkl uc 1),
      mul_self_nonneg (calc_q_ccs hkl uc 2)]
  refine ⟨Real.sqrt_nonneg _, e2.trans key.symm, e2, ?_⟩
  unfold calc_sthovl; ring

/-- C20: the direction of the scattering vector has length one for every `hkl ≠ 0`, and is the scattering vector divided by
its length. -/
theorem eq_ccs_unit (hkl : Fin 3 → ℝ) (uc : Fin 6 → ℝ) (h : NonDegenerate uc) (hh : hkl ≠ 0) :
    calc_eq_ccs hkl uc ⬝ᵥ calc_eq_ccs hkl uc = 1 ∧
    calc_inv_d hkl uc • calc_eq_ccs hkl uc = calc_q_ccs hkl uc := by
  obtain ⟨h0, h1, -, -⟩ := inv_d_is_length hkl uc h
  have hq : calc_q_ccs hkl uc ≠ 0 := by
    rw [q_ccs_spec]
    intro e
    apply hh
    have e2 := congrArg (fun v => toM (calc_m_inv_b uc) *ᵥ v) e
    simpa [Matrix.mulVec_mulVec, (m_inv_b_spec uc h).2] using e2
  have e : Real.sqrt (calc_q_ccs hkl uc 0 ^ 2 + calc_q_ccs hkl uc 1 ^ 2 + calc_q_ccs hkl uc 2 ^ 2) = calc_inv_d hkl uc := by
    rw [← Real.sqrt_sq h0, h1]
    congr 1
    simp only [dotProduct, Fin.sum_univ_three]; ring
  have hd : calc_inv_d hkl uc ≠ 0 := by
    intro h2
    rw [h2] at h1
    apply hq
    simp only [dotProduct, Fin.sum_univ_three] at h1
    have n0 := mul_self_nonneg (calc_q_ccs hkl uc 0)
    have n1 := mul_self_nonneg (calc_q_ccs hkl uc 1)
    have n2 := mul_self_nonneg (calc_q_ccs hkl uc 2)
    exact v_ext (mul_self_eq_zero.mp (by linarith)) (mul_self_eq_zero.mp (by linarith)) (mul_self_eq_zero.mp (by linarith))
  have e3 : calc_eq_ccs hkl uc = (calc_inv_d hkl uc)⁻¹ • calc_q_ccs hkl uc := by
    unfold calc_eq_ccs
    dsimp only
    rw [e, if_pos hd]
    apply v_ext <;> simp [div_eq_inv_mul]
  constructor
  · rw [e3, smul_dotProduct, dotProduct_smul, ← h1]
    simp only [smul_eq_mul]
    field_simp
  · rw [e3, smul_smul, mul_inv_cancel₀ hd, one_smul]

example : NonDegenerate exUC ∧ (![1, 0, 2] : Fin 3 → ℝ) ≠ 0 :=
  ⟨exUC_nonDegenerate, fun h => by have := congrFun h 0; simp at this⟩

/-! ### C21 -/

theorem toM_mt (m : Fin 9 → ℝ) : toM (![m 0, m 3, m 6, m 1, m 4, m 7, m 2, m 5, m 8] : Fin 9 → ℝ) = (toM m)ᵀ := by
  apply m_ext <;> simp [toM]

/-- C21: `reciprocal_to_ccs` is the congruence by `calc_m_inv_b`. -/
theorem reciprocal_to_ccs_eq (q uc : Fin 6 → ℝ) : toQ (transform_quadratic_form_reciprocal_to_ccs q uc)
    = (toM (calc_m_inv_b uc))ᵀ * toQ q * toM (calc_m_inv_b uc) := by
  unfold transform_quadratic_form_reciprocal_to_ccs
  dsimp only
  rw [calc_m_q_mt_spec, toM_mt, Matrix.transpose_transpose]

/-- C21: `ccs_to_reciprocal` is the congruence by `calc_m_b`. -/
theorem ccs_to_reciprocal_eq (q uc : Fin 6 → ℝ) : toQ (transform_quadratic_form_ccs_to_reciprocal q uc)
    = (toM (calc_m_b uc))ᵀ * toQ q * toM (calc_m_b uc) := by
  unfold transform_quadratic_form_ccs_to_reciprocal
  dsimp only
  rw [calc_m_q_mt_spec, toM_mt, Matrix.transpose_transpose]

/-- C21: `reciprocal_norm_to_ccs` is the congruence by `calc_m_inv_b_norm`. -/
theorem reciprocal_norm_to_ccs_eq (q uc : Fin 6 → ℝ) : toQ (transform_quadratic_form_reciprocal_norm_to_ccs q uc)
    = (toM (calc_m_inv_b_norm uc))ᵀ * toQ q * toM (calc_m_inv_b_norm uc) := by
  unfold transform_quadratic_form_reciprocal_norm_to_ccs
  dsimp only
  rw [calc_m_q_mt_spec, toM_mt, Matrix.transpose_transpose]

/-- C21: `ccs_to_reciprocal_norm` is the congruence by `calc_m_b_norm`. -/
theorem ccs_to_reciprocal_norm_eq (q uc : Fin 6 → ℝ) : toQ (transform_quadratic_form_ccs_to_reciprocal_norm q uc)
    = (toM (calc_m_b_norm uc))ᵀ * toQ q * toM (calc_m_b_norm uc) := by
  unfold transform_quadratic_form_ccs_to_reciprocal_norm
  dsimp only
  rw [calc_m_q_mt_spec, toM_mt, Matrix.transpose_transpose]

/-- C21: `direct_to_ccs` is the congruence by `calc_m_inv_m`. -/
theorem direct_to_ccs_eq (q uc : Fin 6 → ℝ) : toQ (transform_quadratic_form_direct_to_ccs q uc)
    = (toM (calc_m_inv_m uc))ᵀ * toQ q * toM (calc_m_inv_m uc) := by
  unfold transform_quadratic_form_direct_to_ccs
  dsimp only
  rw [calc_m_q_mt_spec, toM_mt, Matrix.transpose_transpose]

/-- C21: `ccs_to_direct` is the congruence by `calc_m_m`. -/
theorem ccs_to_direct_eq (q uc : Fin 6 → ℝ) : toQ (transform_quadratic_form_ccs_to_direct q uc)
    = (toM (calc_m_m uc))ᵀ * toQ q * toM (calc_m_m uc) := by
  unfold transform_quadratic_form_ccs_to_direct
  dsimp only
  rw [calc_m_q_mt_spec, toM_mt, Matrix.transpose_transpose]

/-- C21: `direct_norm_to_ccs` is the congruence by `calc_m_inv_m_norm`. -/
theorem direct_norm_to_ccs_eq (q uc : Fin 6 → ℝ) : toQ (transform_quadratic_form_direct_norm_to_ccs q uc)
    = (toM (calc_m_inv_m_norm uc))ᵀ * toQ q * toM (calc_m_inv_m_norm uc) := by
  unfold transform_quadratic_form_direct_norm_to_ccs
  dsimp only
  rw [calc_m_q_mt_spec, toM_mt, Matrix.transpose_transpose]

/-- C21: `ccs_to_direct_norm` is the congruence by `calc_m_m_norm`. -/
theorem ccs_to_direct_norm_eq (q uc : Fin 6 → ℝ) : toQ (transform_quadratic_form_ccs_to_direct_norm q uc)
    = (toM (calc_m_m_norm uc))ᵀ * toQ q * toM (calc_m_m_norm uc) := by
  unfold transform_quadratic_form_ccs_to_direct_norm
  dsimp only
  rw [calc_m_q_mt_spec, toM_mt, Matrix.transpose_transpose]

/-- six numbers are determined by the symmetric matrix they stand for -/
theorem toQ_inj {p q : Fin 6 → ℝ} (h : toQ p = toQ q) : p = q := by
  have e : ∀ i j, toQ p i j = toQ q i j := fun i j => by rw [h]
  have e0 := e 0 0; have e1 := e 1 1; have e2 := e 2 2; have e3 := e 0 1; have e4 := e 0 2; have e5 := e 1 2
  simp [toQ] at e0 e1 e2 e3 e4 e5
  exact funext (fin6 e0 e1 e2 e3 e4 e5)

theorem congr_cancel {A B : Matrix (Fin 3) (Fin 3) ℝ} (h : B * A = 1) (Q : Matrix (Fin 3) (Fin 3) ℝ) :
    Aᵀ * (Bᵀ * Q * B) * A = Q := by
  have h' : Aᵀ * Bᵀ = 1 := by rw [← Matrix.transpose_mul, h, Matrix.transpose_one]
  calc Aᵀ * (Bᵀ * Q * B) * A = (Aᵀ * Bᵀ) * Q * (B * A) := by simp only [Matrix.mul_assoc]
    _ = Q := by rw [h, h', one_mul, mul_one]

/-- C21: reciprocal → Cartesian → reciprocal and back are the identity. -/
theorem reciprocal_round_trip (q uc : Fin 6 → ℝ) (h : NonDegenerate uc) :
    transform_quadratic_form_ccs_to_reciprocal (transform_quadratic_form_reciprocal_to_ccs q uc) uc = q ∧
    transform_quadratic_form_reciprocal_to_ccs (transform_quadratic_form_ccs_to_reciprocal q uc) uc = q := by
  constructor <;> apply toQ_inj <;> simp only [ccs_to_reciprocal_eq, reciprocal_to_ccs_eq] <;> apply congr_cancel
  · exact (m_inv_b_spec uc h).2
  · exact (m_inv_b_spec uc h).1

/-- C21: normalised reciprocal ↔ Cartesian. -/
theorem reciprocal_norm_round_trip (q uc : Fin 6 → ℝ) (h : NonDegenerate uc) :
    transform_quadratic_form_ccs_to_reciprocal_norm (transform_quadratic_form_reciprocal_norm_to_ccs q uc) uc = q ∧
    transform_quadratic_form_reciprocal_norm_to_ccs (transform_quadratic_form_ccs_to_reciprocal_norm q uc) uc = q := by
  constructor <;> apply toQ_inj <;> simp only [ccs_to_reciprocal_norm_eq, reciprocal_norm_to_ccs_eq] <;> apply congr_cancel
  · exact mul_eq_one_comm.mp (m_b_norm_spec uc h).2
  · exact (m_b_norm_spec uc h).2

/-- C21: direct ↔ Cartesian. -/
theorem direct_round_trip (q uc : Fin 6 → ℝ) (h : NonDegenerate uc) :
    transform_quadratic_form_ccs_to_direct (transform_quadratic_form_direct_to_ccs q uc) uc = q ∧
    transform_quadratic_form_direct_to_ccs (transform_quadratic_form_ccs_to_direct q uc) uc = q := by
  constructor <;> apply toQ_inj <;> simp only [ccs_to_direct_eq, direct_to_ccs_eq] <;> apply congr_cancel
  · exact (m_inv_m_spec uc h).2
  · exact (m_inv_m_spec uc h).1

/-- C21: normalised direct ↔ Cartesian. -/
theorem direct_norm_round_trip (q uc : Fin 6 → ℝ) (h : NonDegenerate uc) :
    transform_quadratic_form_ccs_to_direct_norm (transform_quadratic_form_direct_norm_to_ccs q uc) uc = q ∧
    transform_quadratic_form_direct_norm_to_ccs (transform_quadratic_form_ccs_to_direct_norm q uc) uc = q := by
  constructor <;> apply toQ_inj <;> simp only [ccs_to_direct_norm_eq, direct_norm_to_ccs_eq] <;> apply congr_cancel
  · exact mul_eq_one_comm.mp (m_m_norm_spec uc h).2
  · exact (m_m_norm_spec uc h).2

example : NonDegenerate exUC := exUC_nonDegenerate

/-- C21: the value of the form on a vector does not depend on the frame: `h` in the basis `a* b* c*` is `B h` in the Cartesian
frame. -/
theorem reciprocal_form_value (q uc : Fin 6 → ℝ) (h : NonDegenerate uc) (v : Fin 3 → ℝ) :
    (toM (calc_m_b uc) *ᵥ v) ⬝ᵥ (toQ (transform_quadratic_form_reciprocal_to_ccs q uc) *ᵥ (toM (calc_m_b uc) *ᵥ v))
      = v ⬝ᵥ (toQ q *ᵥ v) := by
  have e := congr_cancel (m_inv_b_spec uc h).2 (toQ q)
  rw [← reciprocal_to_ccs_eq] at e
  conv_rhs => rw [← e]
  rw [← Matrix.mulVec_mulVec, ← Matrix.mulVec_mulVec, Matrix.dotProduct_mulVec v, Matrix.vecMul_transpose]

/-- C21: the same for forms given in the direct basis: `v` in the basis `a b c` is `M v` in the Cartesian frame. -/
theorem direct_form_value (q uc : Fin 6 → ℝ) (h : NonDegenerate uc) (v : Fin 3 → ℝ) :
    (toM (calc_m_m uc) *ᵥ v) ⬝ᵥ (toQ (transform_quadratic_form_direct_to_ccs q uc) *ᵥ (toM (calc_m_m uc) *ᵥ v))
      = v ⬝ᵥ (toQ q *ᵥ v) := by
  have e := congr_cancel (m_inv_m_spec uc h).2 (toQ q)
  rw [← direct_to_ccs_eq] at e
  conv_rhs => rw [← e]
  rw [← Matrix.mulVec_mulVec, ← Matrix.mulVec_mulVec, Matrix.dotProduct_mulVec v, Matrix.vecMul_transpose]

example : NonDegenerate exUC := exUC_nonDegenerate

end Cryspy.Cell
