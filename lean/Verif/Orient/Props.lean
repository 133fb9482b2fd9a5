import Verif.Orient.Model
import Verif.Rot.Props
import Verif.Cell.Props
import Mathlib.LinearAlgebra.Matrix.Nondegenerate

/-! # C73: orientation matrix -/

namespace Cryspy.Orient

open Real Matrix Cryspy.Mat Cryspy.Rot Cryspy.Cell

/-! ## The notations -/

theorem ccsl_gram (type : String) (ub : M3) : (ubCcsl type ub)ᵀ * ubCcsl type ub = ubᵀ * ub := by
  unfold ubCcsl
  split_ifs <;> (apply m_ext <;> simp [Matrix.mul_apply, Fin.sum_univ_three] <;> ring)

theorem ccsl_det (type : String) (ub : M3) : (ubCcsl type ub).det = ub.det := by
  unfold ubCcsl
  split_ifs <;> (simp [Matrix.det_fin_three]; try ring)

theorem ccsl_row2 (type : String) (ub : M3) (j : Fin 3) : ubCcsl type ub 2 j = ub 2 j := by
  unfold ubCcsl
  split_ifs <;> (fin_cases j <;> simp)

/-- C73: the notation only turns the laboratory axes about the vertical one: by 0, 90 or -90 degrees. -/
theorem notation_turns (type : String) (ub : M3) : ∃ t : ℝ, t ∈ [0, π / 2, -(π / 2)] ∧ ubCcsl type ub = Rz t * ub := by
  unfold ubCcsl
  split_ifs
  · exact ⟨0, by simp, by unfold Rz; apply m_ext <;> simp [Matrix.mul_apply, Fin.sum_univ_three]⟩
  · exact ⟨π / 2, by simp, by unfold Rz; apply m_ext <;> simp [Matrix.mul_apply, Fin.sum_univ_three]⟩
  · exact ⟨-(π / 2), by simp, by unfold Rz; apply m_ext <;> simp [Matrix.mul_apply, Fin.sum_univ_three]⟩
  · exact ⟨0, by simp, by unfold Rz; apply m_ext <;> simp [Matrix.mul_apply, Fin.sum_univ_three]⟩

/-! ## The reciprocal cell of the columns -/

/-- lengths of the columns and angles between them -/
noncomputable def recip (ub : M3) : Fin 6 → ℝ :=
  let b_1 := √(ub 0 0 * ub 0 0 + ub 1 0 * ub 1 0 + ub 2 0 * ub 2 0)
  let b_2 := √(ub 0 1 * ub 0 1 + ub 1 1 * ub 1 1 + ub 2 1 * ub 2 1)
  let b_3 := √(ub 0 2 * ub 0 2 + ub 1 2 * ub 1 2 + ub 2 2 * ub 2 2)
  ![b_1, b_2, b_3, arccos ((ub 0 1 * ub 0 2 + ub 1 1 * ub 1 2 + ub 2 1 * ub 2 2) / (b_2 * b_3)),
    arccos ((ub 0 0 * ub 0 2 + ub 1 0 * ub 1 2 + ub 2 0 * ub 2 2) / (b_1 * b_3)),
    arccos ((ub 0 0 * ub 0 1 + ub 1 0 * ub 1 1 + ub 2 0 * ub 2 1) / (b_1 * b_2))]

theorem col_ne {ub : M3} (h : ub.det ≠ 0) (j : Fin 3) : 0 < ub 0 j * ub 0 j + ub 1 j * ub 1 j + ub 2 j * ub 2 j := by
  by_contra hn
  apply h
  have h0 : ub 0 j = 0 := by nlinarith [mul_self_nonneg (ub 0 j), mul_self_nonneg (ub 1 j), mul_self_nonneg (ub 2 j)]
  have h1 : ub 1 j = 0 := by nlinarith [mul_self_nonneg (ub 0 j), mul_self_nonneg (ub 1 j), mul_self_nonneg (ub 2 j)]
  have h2 : ub 2 j = 0 := by nlinarith [mul_self_nonneg (ub 0 j), mul_self_nonneg (ub 1 j), mul_self_nonneg (ub 2 j)]
  apply Matrix.det_eq_zero_of_column_eq_zero j
  intro i
  fin_cases i <;> assumption

theorem cos_between {x y z x' y' z' : ℝ} (h1 : 0 < x * x + y * y + z * z) (h2 : 0 < x' * x' + y' * y' + z' * z') :
    √(x * x + y * y + z * z) * √(x' * x' + y' * y' + z' * z') *
      cos (arccos ((x * x' + y * y' + z * z') / (√(x * x + y * y + z * z) * √(x' * x' + y' * y' + z' * z')))) = x * x' + y * y' + z * z' := by
  have p1 := Real.sqrt_pos.mpr h1
  have p2 := Real.sqrt_pos.mpr h2
  rw [cos_arccos_of (mul_pos p1 p2).ne', mul_div_cancel₀ _ (mul_pos p1 p2).ne']
  rw [mul_pow, Real.sq_sqrt h1.le, Real.sq_sqrt h2.le]
  nlinarith [sq_nonneg (x * y' - y * x'), sq_nonneg (x * z' - z * x'), sq_nonneg (y * z' - z * y')]

theorem recip_metric {ub : M3} (h : ub.det ≠ 0) : metric (recip ub) = ubᵀ * ub := by
  have c0 := col_ne h 0; have c1 := col_ne h 1; have c2 := col_ne h 2
  have g01 := cos_between c0 c1; have g02 := cos_between c0 c2; have g12 := cos_between c1 c2
  have s0 := Real.mul_self_sqrt c0.le; have s1 := Real.mul_self_sqrt c1.le; have s2 := Real.mul_self_sqrt c2.le
  unfold metric recip
  simp only [Matrix.cons_val]
  apply m_ext <;> simp only [Matrix.mul_apply, Fin.sum_univ_three, Matrix.transpose_apply, Matrix.of_apply, Matrix.cons_val]
  · exact s0
  · exact g01
  · exact g02
  · rw [mul_comm (√(ub 0 1 * ub 0 1 + ub 1 1 * ub 1 1 + ub 2 1 * ub 2 1)), g01]; ring
  · exact s1
  · exact g12
  · rw [mul_comm (√(ub 0 2 * ub 0 2 + ub 1 2 * ub 1 2 + ub 2 2 * ub 2 2)), g02]; ring
  · rw [mul_comm (√(ub 0 2 * ub 0 2 + ub 1 2 * ub 1 2 + ub 2 2 * ub 2 2)), g12]; ring
  · exact s2

theorem recip_nonDegenerate {ub : M3} (h : ub.det ≠ 0) : NonDegenerate (recip ub) := by
  refine ⟨?_, ?_, ?_, ?_⟩
  · exact Real.sqrt_pos.mpr (col_ne h 0)
  · exact Real.sqrt_pos.mpr (col_ne h 1)
  · exact Real.sqrt_pos.mpr (col_ne h 2)
  · rw [recip_metric h, Matrix.det_mul, Matrix.det_transpose]
    exact mul_self_pos.mpr h

theorem recip_proper {ub : M3} (h : ub.det ≠ 0) : ProperAngles (recip ub) := by
  have F := facts (recip_nonDegenerate h)
  have key : ∀ x : ℝ, sin (arccos x) ≠ 0 → 0 < arccos x ∧ arccos x < π := by
    intro x hx
    constructor
    · refine lt_of_le_of_ne (arccos_nonneg x) fun e => hx ?_
      rw [← e, sin_zero]
    · refine lt_of_le_of_ne (arccos_le_pi x) fun e => hx ?_
      rw [e, sin_pi]
  exact ⟨key _ F.sa_ne, key _ F.sb_ne, key _ F.sg_ne⟩

theorem cellOf_reciprocal {ub : M3} (h : ub.det ≠ 0) : toRad (cellOf ub) = calc_reciprocal (recip ub) := by
  have nd := recip_nonDegenerate h
  have F := facts nd
  have e : ∀ x : ℝ, x * 180 / π * (π / 180) = x := by
    intro x; have := pi_pos.ne'; field_simp
  have cg : cos (recip ub 5) = (ub 0 0 * ub 0 1 + ub 1 0 * ub 1 1 + ub 2 0 * ub 2 1) / (recip ub 0 * recip ub 1) := by
    rw [eq_div_iff (mul_ne_zero F.a_ne F.b_ne), mul_comm]; exact cos_between (col_ne h 0) (col_ne h 1)
  have cb : cos (recip ub 4) = (ub 0 0 * ub 0 2 + ub 1 0 * ub 1 2 + ub 2 0 * ub 2 2) / (recip ub 0 * recip ub 2) := by
    rw [eq_div_iff (mul_ne_zero F.a_ne F.c_ne), mul_comm]; exact cos_between (col_ne h 0) (col_ne h 2)
  have ca : cos (recip ub 3) = (ub 0 1 * ub 0 2 + ub 1 1 * ub 1 2 + ub 2 1 * ub 2 2) / (recip ub 1 * recip ub 2) := by
    rw [eq_div_iff (mul_ne_zero F.b_ne F.c_ne), mul_comm]; exact cos_between (col_ne h 1) (col_ne h 2)
  have form : cellOf ub = ![recip ub 1 * recip ub 2 * sin (recip ub 3) / (recip ub 0 * recip ub 1 * recip ub 2 * calc_phi (recip ub)),
      recip ub 0 * recip ub 2 * sin (recip ub 4) / (recip ub 0 * recip ub 1 * recip ub 2 * calc_phi (recip ub)),
      recip ub 0 * recip ub 1 * sin (recip ub 5) / (recip ub 0 * recip ub 1 * recip ub 2 * calc_phi (recip ub)),
      arccos ((cos (recip ub 4) * cos (recip ub 5) - cos (recip ub 3)) / (sin (recip ub 4) * sin (recip ub 5))) * 180 / π,
      arccos ((cos (recip ub 3) * cos (recip ub 5) - cos (recip ub 4)) / (sin (recip ub 3) * sin (recip ub 5))) * 180 / π,
      arccos ((cos (recip ub 3) * cos (recip ub 4) - cos (recip ub 5)) / (sin (recip ub 3) * sin (recip ub 4))) * 180 / π] := by
    unfold calc_phi calc_phi_sq
    dsimp only
    rw [ca, cb, cg]
    rfl
  have p0 := F.p_ne; have a0 := F.a_ne; have b0 := F.b_ne; have c0 := F.c_ne
  rw [form]
  unfold toRad calc_reciprocal calc_volume_uc
  simp only [Matrix.cons_val]
  rw [e, e, e]
  apply funext
  apply fin6
  · simp only [Matrix.cons_val]
  · simp only [Matrix.cons_val]; rw [mul_comm (recip ub 0) (recip ub 2)]
  · simp only [Matrix.cons_val]
  · simp only [Matrix.cons_val]
  · simp only [Matrix.cons_val]; rw [mul_comm (cos (recip ub 3)), mul_comm (sin (recip ub 3))]
  · simp only [Matrix.cons_val]

/-- C73: for every UB matrix that is not singular, in every notation, the cell found is a proper cell whose reciprocal basis has the scalar
products of the columns of UB: its metric is the inverse of `UBᵀ UB`. -/
theorem cell_from_ub (type : String) (ub : M3) (h : ub.det ≠ 0) :
    NonDegenerate (toRad (cellOf (ubCcsl type ub))) ∧ ProperAngles (toRad (cellOf (ubCcsl type ub))) ∧
    metric (toRad (cellOf (ubCcsl type ub))) * (ubᵀ * ub) = 1 := by
  have h' : (ubCcsl type ub).det ≠ 0 := by rw [ccsl_det]; exact h
  rw [cellOf_reciprocal h']
  obtain ⟨n, p⟩ := reciprocal_cell_nonDegenerate _ (recip_nonDegenerate h') (recip_proper h')
  refine ⟨n, p, ?_⟩
  have := reciprocal_cell_metric _ (recip_nonDegenerate h')
  rw [recip_metric h', ccsl_gram] at this
  exact this

/-- C73: … and it is the only such cell. -/
theorem cell_unique (type : String) (ub : M3) (h : ub.det ≠ 0) (uc : Fin 6 → ℝ) (n : NonDegenerate uc) (p : ProperAngles uc)
    (e : metric uc * (ubᵀ * ub) = 1) : toRad (cellOf (ubCcsl type ub)) = uc := by
  obtain ⟨n', p', e'⟩ := cell_from_ub type ub h
  refine cell_of_metric n' p' n p ?_
  have e2 : (ubᵀ * ub) * metric uc = 1 := mul_eq_one_comm.mp e
  calc metric (toRad (cellOf (ubCcsl type ub))) = metric (toRad (cellOf (ubCcsl type ub))) * ((ubᵀ * ub) * metric uc) := by rw [e2, mul_one]
    _ = metric uc := by rw [← mul_assoc, e', one_mul]

/-! ## The matrix B of the class `Cell` -/

theorem cellMB_eq (p : Fin 6 → ℝ) (h : NonDegenerate (toRad p)) (hp : ProperAngles (toRad p)) : cellMB p = toM (calc_m_b (toRad p)) := by
  have F := facts h
  obtain ⟨-, cb, cg⟩ := cos_recip h
  have e : ∀ x : ℝ, x * (180 / π) * (π / 180) = x := by
    intro x; have := pi_pos.ne'; field_simp
  have r3 : toRad p 3 = p 3 * (π / 180) := rfl
  have r4 : toRad p 4 = p 4 * (π / 180) := rfl
  have r5 : toRad p 5 = p 5 * (π / 180) := rfl
  have sa : 0 < sin (toRad p 3) := sin_pos_of_mem_Ioo hp.1
  have sb : 0 < sin (toRad p 4) := sin_pos_of_mem_Ioo hp.2.1
  have sg : 0 < sin (toRad p 5) := sin_pos_of_mem_Ioo hp.2.2
  have pp := phi_pos h
  have h8 := F.sa2; have h9 := F.sb2; have h10 := F.sg2; have h11 := F.p2
  have sq : ∀ x y : ℝ, 0 < y → x ^ 2 + calc_phi (toRad p) ^ 2 = y ^ 2 → sin (arccos (x / y)) = calc_phi (toRad p) / y := by
    intro x y hy hxy
    rw [sin_arccos, show 1 - (x / y) ^ 2 = (calc_phi (toRad p) / y) ^ 2 by
      rw [div_pow, div_pow]; field_simp; linarith]
    exact Real.sqrt_sq (div_pos pp hy).le
  have cb' : cos (arccos ((cos (toRad p 5) * cos (toRad p 3) - cos (toRad p 4)) / (sin (toRad p 5) * sin (toRad p 3)))) =
      (cos (toRad p 5) * cos (toRad p 3) - cos (toRad p 4)) / (sin (toRad p 5) * sin (toRad p 3)) := by
    have := cb; unfold calc_reciprocal at this; simp only [Matrix.cons_val] at this; exact this
  have cg' : cos (arccos ((cos (toRad p 3) * cos (toRad p 4) - cos (toRad p 5)) / (sin (toRad p 3) * sin (toRad p 4)))) =
      (cos (toRad p 3) * cos (toRad p 4) - cos (toRad p 5)) / (sin (toRad p 3) * sin (toRad p 4)) := by
    have := cg; unfold calc_reciprocal at this; simp only [Matrix.cons_val] at this; exact this
  have sb' := sq (cos (toRad p 5) * cos (toRad p 3) - cos (toRad p 4)) (sin (toRad p 5) * sin (toRad p 3)) (mul_pos sg sa)
    (by rw [mul_pow, h8, h10, h11]; ring)
  have sg' := sq (cos (toRad p 3) * cos (toRad p 4) - cos (toRad p 5)) (sin (toRad p 3) * sin (toRad p 4)) (mul_pos sa sb)
    (by rw [mul_pow, h8, h9, h11]; ring)
  have form : cellMB p = !![toRad p 1 * toRad p 2 * sin (toRad p 3) / (toRad p 0 * toRad p 1 * toRad p 2 * calc_phi (toRad p)),
      toRad p 2 * toRad p 0 * sin (toRad p 4) / (toRad p 0 * toRad p 1 * toRad p 2 * calc_phi (toRad p)) *
        ((cos (toRad p 3) * cos (toRad p 4) - cos (toRad p 5)) / (sin (toRad p 3) * sin (toRad p 4))),
      toRad p 0 * toRad p 1 * sin (toRad p 5) / (toRad p 0 * toRad p 1 * toRad p 2 * calc_phi (toRad p)) *
        ((cos (toRad p 5) * cos (toRad p 3) - cos (toRad p 4)) / (sin (toRad p 5) * sin (toRad p 3)));
      0, toRad p 2 * toRad p 0 * sin (toRad p 4) / (toRad p 0 * toRad p 1 * toRad p 2 * calc_phi (toRad p)) *
        (calc_phi (toRad p) / (sin (toRad p 3) * sin (toRad p 4))),
      -(toRad p 0 * toRad p 1 * sin (toRad p 5) / (toRad p 0 * toRad p 1 * toRad p 2 * calc_phi (toRad p))) *
        (calc_phi (toRad p) / (sin (toRad p 5) * sin (toRad p 3))) * cos (toRad p 3);
      0, 0, 1 / toRad p 2] := by
    rw [← cb', ← cg', ← sb', ← sg']
    unfold cellMB
    dsimp only
    rw [e, e]
    rfl
  have p0 := F.p_ne; have a0 := F.a_ne; have b0 := F.b_ne; have c0 := F.c_ne
  have s1 := sa.ne'; have s2 := sb.ne'; have s3 := sg.ne'
  rw [form]
  unfold toM calc_m_b
  apply m_ext <;> simp only [Matrix.of_apply, Matrix.cons_val] <;> field_simp

theorem mB_det_pos {uc : Fin 6 → ℝ} (h : NonDegenerate uc) (hp : ProperAngles uc) : 0 < (toM (calc_m_b uc)).det := by
  have sa : 0 < sin (uc 3) := sin_pos_of_mem_Ioo hp.1
  have pp := phi_pos h
  have a := h.a_pos; have b := h.b_pos; have c := h.c_pos
  unfold toM calc_m_b
  simp [Matrix.det_fin_three]
  positivity

/-- C73: the orientation matrix is orthogonal and turns the Cartesian frame of the cell found (x along a*, z along c) into the laboratory:
`U B = UB` (in CCSL notation), with the matrix `B` of that cell; it is a rotation exactly when UB is right handed. -/
theorem u_from_ub (type : String) (ub : M3) (h : ub.det ≠ 0) :
    (uOf type ub)ᵀ * uOf type ub = 1 ∧ uOf type ub * toM (calc_m_b (toRad (cellOf (ubCcsl type ub)))) = ubCcsl type ub ∧
    (IsRotation (uOf type ub) ↔ 0 < ub.det) := by
  obtain ⟨n, p, e⟩ := cell_from_ub type ub h
  have hB := cellMB_eq _ n p
  have dB := mB_det_pos n p
  have hu : uOf type ub = ubCcsl type ub * (toM (calc_m_b (toRad (cellOf (ubCcsl type ub)))))⁻¹ := by
    unfold uOf; dsimp only; rw [hB]
  set B := toM (calc_m_b (toRad (cellOf (ubCcsl type ub)))) with hBdef
  set C := ubCcsl type ub with hC
  have unit : IsUnit B.det := isUnit_iff_ne_zero.mpr dB.ne'
  have g := m_b_factors_reciprocal_metric _ n
  rw [← hBdef] at g
  have gram : Bᵀ * B = Cᵀ * C := by
    have e2 : (ubᵀ * ub) * metric (toRad (cellOf C)) = 1 := mul_eq_one_comm.mp e
    rw [hC, ccsl_gram]
    calc Bᵀ * B = Bᵀ * B * (metric (toRad (cellOf C)) * (ubᵀ * ub)) := by rw [e, mul_one]
      _ = ubᵀ * ub := by rw [← mul_assoc, g, one_mul]
  have eUB : uOf type ub * B = C := by rw [hu, Matrix.nonsing_inv_mul_cancel_right _ _ unit]
  have orth : (uOf type ub)ᵀ * uOf type ub = 1 := by
    have key : Bᵀ * ((uOf type ub)ᵀ * uOf type ub) * B = Bᵀ * 1 * B := by
      calc Bᵀ * ((uOf type ub)ᵀ * uOf type ub) * B = (uOf type ub * B)ᵀ * (uOf type ub * B) := by
            rw [Matrix.transpose_mul]; simp only [Matrix.mul_assoc]
        _ = Bᵀ * 1 * B := by rw [eUB, mul_one, gram]
    have unitT : IsUnit Bᵀ.det := by rw [Matrix.det_transpose]; exact unit
    have k1 := congrArg (· * B⁻¹) key
    simp only [Matrix.mul_nonsing_inv_cancel_right _ _ unit] at k1
    have k2 := congrArg (Bᵀ⁻¹ * ·) k1
    simp only [Matrix.nonsing_inv_mul_cancel_left _ _ unitT] at k2
    exact k2
  refine ⟨orth, eUB, ?_⟩
  have dd : (uOf type ub).det * B.det = ub.det := by
    rw [← Matrix.det_mul, eUB, hC, ccsl_det]
  have d2 : (uOf type ub).det * (uOf type ub).det = 1 := by
    have := congrArg Matrix.det orth
    rwa [Matrix.det_mul, Matrix.det_transpose, Matrix.det_one] at this
  constructor
  · intro hr
    rw [← dd, hr.2, one_mul]; exact dB
  · intro hd
    refine ⟨orth, ?_⟩
    have : 0 < (uOf type ub).det := by
      by_contra hn
      have := mul_nonpos_of_nonpos_of_nonneg (not_lt.mp hn) dB.le
      linarith
    nlinarith

/-- C73 (failure): the text `X-YZ` may be written to `type` and is then taken as `XYZ`; the text `Y-XZ`, which the code knows, may not. -/
theorem type_names (ub : M3) : "X-YZ" ∈ allowedTypes ∧ ubCcsl "X-YZ" ub = ubCcsl "XYZ" ub ∧ "Y-XZ" ∉ allowedTypes := by
  refine ⟨by decide, ?_, by decide⟩
  unfold ubCcsl
  simp

/-- a UB matrix that is not singular: a triclinic lattice turned arbitrarily -/
example : (!![0.1, 0.02, 0; 0.01, 0.2, 0.03; 0, 0.05, 0.15] : M3).det ≠ 0 := by
  simp [Matrix.det_fin_three]; norm_num

/-! ## The vertical direction -/

theorem flat_toM (u : M3) : toM (flat u) = u := by
  unfold toM flat
  apply m_ext <;> simp

theorem toMT (v : Fin 9 → ℝ) : toM (![v 0, v 3, v 6, v 1, v 4, v 7, v 2, v 5, v 8] : Fin 9 → ℝ) = (toM v)ᵀ := by
  unfold toM
  apply m_ext <;> simp

theorem calcEUp_eq (u : M3) (phi omega chi : ℝ) :
    calcEUp u phi omega chi = (Rz (-omega) * Ry chi * Rz (-phi) * u)ᵀ *ᵥ ![0, 0, 1] := by
  unfold calcEUp
  dsimp only
  rw [mv_eq, toMT, product_is_product]
  simp only [List.map_cons, List.map_nil, List.prod_cons, List.prod_nil, mul_one]
  rw [flat_toM, ← Matrix.mul_assoc]
  have a1 : toM (![cos omega, sin omega, 0, -sin omega, cos omega, 0, 0, 0, 1] : Fin 9 → ℝ) = Rz (-omega) := by
    unfold toM Rz; apply m_ext <;> simp
  have a2 : toM (![cos phi, sin phi, 0, -sin phi, cos phi, 0, 0, 0, 1] : Fin 9 → ℝ) = Rz (-phi) := by
    unfold toM Rz; apply m_ext <;> simp
  have a3 : toM (![cos chi, 0, sin chi, 0, 1, 0, -sin chi, 0, cos chi] : Fin 9 → ℝ) = Ry chi := by
    unfold toM Ry; apply m_ext <;> simp
  rw [a1, a2, a3]

/-- C73: the direction `calc_e_up` is the unit vector that the crystal, oriented by `U` and turned by the three angles, carries to the
vertical axis. -/
theorem e_up_vertical (type : String) (ub : M3) (h : ub.det ≠ 0) (phi omega chi : ℝ) :
    calcEUp (uOf type ub) phi omega chi ⬝ᵥ calcEUp (uOf type ub) phi omega chi = 1 ∧
    (Rz (-omega) * Ry chi * Rz (-phi) * uOf type ub) *ᵥ calcEUp (uOf type ub) phi omega chi = ![0, 0, 1] := by
  obtain ⟨o, -, -⟩ := u_from_ub type ub h
  have R := ((Rz_rotation (-omega)).mul (Ry_rotation chi)).mul (Rz_rotation (-phi))
  rw [calcEUp_eq]
  set W := Rz (-omega) * Ry chi * Rz (-phi) * uOf type ub with hW
  have ow : Wᵀ * W = 1 := by
    rw [hW, Matrix.transpose_mul, Matrix.mul_assoc, ← Matrix.mul_assoc (_)ᵀ (_ * _), R.1, Matrix.one_mul, o]
  have ow' : W * Wᵀ = 1 := mul_eq_one_comm.mp ow
  constructor
  · rw [Matrix.dotProduct_mulVec, Matrix.vecMul_transpose, Matrix.mulVec_mulVec, ow', Matrix.one_mulVec]
    simp [dotProduct, Fin.sum_univ_three]
  · rw [Matrix.mulVec_mulVec, ow', Matrix.one_mulVec]

/-- C73: without turning it is the third row of `U`, which the refinement takes as the direction of the field, and the component of any
scattering vector along it is the vertical component of `UB (h,k,l)`. -/
theorem e_up_component (type : String) (ub : M3) (h : ub.det ≠ 0) (hkl : Fin 3 → ℝ) :
    calcEUp (uOf type ub) 0 0 0 = uOf type ub 2 ∧
    (toM (calc_m_b (toRad (cellOf (ubCcsl type ub)))) *ᵥ hkl) ⬝ᵥ uOf type ub 2 = (ub *ᵥ hkl) 2 := by
  obtain ⟨-, e, -⟩ := u_from_ub type ub h
  constructor
  · rw [calcEUp_eq]
    have one : Rz (-0) * Ry 0 * Rz (-0) = 1 := by
      unfold Rz Ry
      apply m_ext <;> simp [Matrix.mul_apply, Fin.sum_univ_three]
    rw [one, Matrix.one_mul]
    apply v_ext <;> simp [Matrix.mulVec, dotProduct, Fin.sum_univ_three]
  · have r2 : (ub *ᵥ hkl) 2 = (ubCcsl type ub *ᵥ hkl) 2 := by
      unfold Matrix.mulVec dotProduct
      dsimp only
      rw [Fin.sum_univ_three, Fin.sum_univ_three, ccsl_row2, ccsl_row2, ccsl_row2]
    rw [r2]
    conv_rhs => rw [← e]
    rw [← Matrix.mulVec_mulVec]
    rw [dotProduct_comm]
    rfl

/-- C73: `calc_q2` is the squared sine of the angle between the scattering vector and the vertical, for every reflection but `0 0 0`. -/
theorem q2_sine (type : String) (ub : M3) (h : ub.det ≠ 0) (hkl : Fin 3 → ℝ) (hh : hkl ≠ 0) :
    calcQ2 (uOf type ub) (toM (calc_m_b (toRad (cellOf (ubCcsl type ub))))) hkl = 1 - ((ub *ᵥ hkl) 2 / len (ub *ᵥ hkl)) ^ 2 := by
  obtain ⟨o, e, -⟩ := u_from_ub type ub h
  obtain ⟨-, ec⟩ := e_up_component type ub h hkl
  set B := toM (calc_m_b (toRad (cellOf (ubCcsl type ub)))) with hB
  have l2 : len (B *ᵥ hkl) = len (ub *ᵥ hkl) := by
    unfold len
    congr 1
    have x1 : (B *ᵥ hkl) ⬝ᵥ (B *ᵥ hkl) = (uOf type ub *ᵥ (B *ᵥ hkl)) ⬝ᵥ (uOf type ub *ᵥ (B *ᵥ hkl)) := by
      rw [Matrix.dotProduct_mulVec (uOf type ub *ᵥ _), ← Matrix.mulVec_transpose, Matrix.mulVec_mulVec, o, Matrix.one_mulVec]
    rw [x1, Matrix.mulVec_mulVec, e]
    rw [Matrix.dotProduct_mulVec, ← Matrix.mulVec_transpose, Matrix.mulVec_mulVec, ccsl_gram]
    rw [Matrix.dotProduct_mulVec, ← Matrix.mulVec_transpose, Matrix.mulVec_mulVec]
  have hne : ub *ᵥ hkl ≠ 0 := by
    intro hz
    exact hh (Matrix.eq_zero_of_mulVec_eq_zero h hz)
  have lp := len_pos hne
  unfold calcQ2 kLoc
  dsimp only
  have k0 : B 0 0 * hkl 0 + B 0 1 * hkl 1 + B 0 2 * hkl 2 = (B *ᵥ hkl) 0 := by simp [Matrix.mulVec, dotProduct, Fin.sum_univ_three]
  have k1 : B 1 0 * hkl 0 + B 1 1 * hkl 1 + B 1 2 * hkl 2 = (B *ᵥ hkl) 1 := by simp [Matrix.mulVec, dotProduct, Fin.sum_univ_three]
  have k2 : B 2 0 * hkl 0 + B 2 1 * hkl 1 + B 2 2 * hkl 2 = (B *ᵥ hkl) 2 := by simp [Matrix.mulVec, dotProduct, Fin.sum_univ_three]
  rw [k0, k1, k2, len_eq, l2, if_neg lp.ne']
  simp only [Matrix.cons_val]
  rw [← ec, dot3]
  ring

/-! ## The object -/

/-- C73: in every state reached by writes, reads and `form_object` the derived orientation matrix read is that of the current UB matrix and
notation. -/
theorem u_current (o : Obj) (h0 : o.u = none) (acts : List Action) :
    ((acts.foldl Obj.act o).readU).1 = uOf (acts.foldl Obj.act o).type (acts.foldl Obj.act o).ub := by
  have inv : ∀ (l : List Action) (p : Obj), (∀ u, p.u = some u → u = uOf p.type p.ub) →
      ∀ u, (l.foldl Obj.act p).u = some u → u = uOf (l.foldl Obj.act p).type (l.foldl Obj.act p).ub := by
    intro l
    induction l with
    | nil => intro p hp; exact hp
    | cons a l ih =>
      intro p hp
      apply ih
      cases a with
      | writeUb i j x => intro u hu; simp [Obj.act, Obj.writeUb] at hu
      | writeType s => intro u hu; simp [Obj.act, Obj.writeType] at hu
      | readU =>
        intro u hu
        unfold Obj.act Obj.readU at hu ⊢
        cases hq : p.u with
        | some w => simp only [hq] at hu ⊢; exact hp u (hq.trans hu)
        | none => simp only [hq] at hu ⊢; exact (Option.some.inj hu).symm
      | formObject => intro u hu; exact (Option.some.inj hu).symm
  have := inv acts o (by intro u hu; rw [h0] at hu; cases hu)
  unfold Obj.readU
  cases hq : (acts.foldl Obj.act o).u with
  | some w => exact this w hq
  | none => rfl

/-- C73: the cell is that of the current UB matrix right after a derived quantity is read … -/
theorem cell_after_read (o : Obj) (h : o.u = none) : o.readU.2.cell = some (cellOf (ubCcsl o.type o.ub)) := by
  unfold Obj.readU; rw [h]

/-- C73 (failure): … but after a write the cell read is the one of the earlier UB matrix. -/
theorem cell_stale : ∃ (o : Obj) (acts : List Action), o.u = none ∧ o.cell = none ∧
    ∃ c, (acts.foldl Obj.act o).cell = some c ∧ c ≠ cellOf (ubCcsl (acts.foldl Obj.act o).type (acts.foldl Obj.act o).ub) := by
  refine ⟨⟨1, "CCSL", none, none⟩, [.readU, .writeUb 0 0 2], rfl, rfl, cellOf (ubCcsl "CCSL" 1), ?_, ?_⟩
  · simp [Obj.act, Obj.readU, Obj.writeUb]
  · have hub : ubCcsl "CCSL" ((1 : M3).updateRow 0 (Function.update ((1 : M3) 0) 0 2)) = !![2, 0, 0; 0, 1, 0; 0, 0, 1] := by
      unfold ubCcsl
      rw [if_neg (by decide), if_neg (by decide), if_neg (by decide)]
      apply m_ext <;> simp [Matrix.updateRow_apply]
    have h1 : ubCcsl "CCSL" 1 = !![1, 0, 0; 0, 1, 0; 0, 0, 1] := by
      unfold ubCcsl
      rw [if_neg (by decide), if_neg (by decide), if_neg (by decide)]
      apply m_ext <;> simp
    simp only [List.foldl_cons, List.foldl_nil, Obj.act, Obj.readU, Obj.writeUb]
    rw [hub, h1]
    intro e
    have := congrFun e 0
    unfold cellOf at this
    simp at this

end Cryspy.Orient
