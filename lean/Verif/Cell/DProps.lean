import Verif.Cell.DLemmas

/-!
# C22: which reported unit-cell derivatives are the derivatives

Most functions of A_functions_base/unit_cell.py return, next to the value, a table of partial derivatives by the six cell
parameters.  `IsJacobian f d x` (Verif/Mat/Spec.lean) says that `d` is that table.  For every such function of the file we
prove either that the table is right for every non-degenerate cell, or exactly for which cells it is right, or that it is
never right.
-/

namespace Cryspy.Cell

open Real Cryspy.Mat

/-- all three angles are right angles -/
def RightAngled (uc : Fin 6 → ℝ) : Prop := cos (uc 3) = 0 ∧ cos (uc 4) = 0 ∧ cos (uc 5) = 0

/-- a box with edges 2, 3, 5 -/
noncomputable def boxUC : Fin 6 → ℝ := ![2, 3, 5, π / 2, π / 2, π / 2]

theorem boxUC_nonDegenerate : NonDegenerate boxUC := by
  refine ⟨?_, ?_, ?_, ?_⟩ <;> simp [boxUC, det_metric, calc_phi_sq]

theorem boxUC_right : RightAngled boxUC := by simp [RightAngled, boxUC]

theorem exUC_not_right : ¬ RightAngled exUC := by simp [RightAngled, exUC]

/-! ## right for every non-degenerate cell -/

theorem d_phi_sq_spec (uc : Fin 6 → ℝ) :
    IsJacobian (fun x (_ : Unit) => calc_phi_sq x) (fun _ => d_calc_phi_sq uc) uc := d_phi_sq uc

theorem d_phi_spec {uc : Fin 6 → ℝ} (h : NonDegenerate uc) :
    IsJacobian (fun x (_ : Unit) => calc_phi x) (fun _ => d_calc_phi uc) uc := d_phi h

theorem d_m_g_spec (uc : Fin 6 → ℝ) : IsJacobian calc_m_g (d_calc_m_g uc) uc := by
  unfold calc_m_g d_calc_m_g
  apply fin6 <;> apply fin6 <;> jac <;> ring

theorem d_m_reciprocal_g_norm_spec {uc : Fin 6 → ℝ} (h : NonDegenerate uc) :
    IsJacobian calc_m_reciprocal_g_norm (d_calc_m_reciprocal_g_norm uc) uc := by
  cell_facts h
  clear p0 p1 p2 p3 p4 p5 h11
  unfold calc_m_reciprocal_g_norm d_calc_m_reciprocal_g_norm
  have h12 := mul_ne_zero h4 h5
  have h13 := mul_ne_zero h4 h6
  have h14 := mul_ne_zero h5 h6
  apply fin6 <;> apply fin6 <;> jac <;> first | (ring; done) | (field_simp; grind)

example : NonDegenerate exUC ∧ NonDegenerate boxUC := ⟨exUC_nonDegenerate, boxUC_nonDegenerate⟩

/-! ## right for some cells only -/

/-- The volume and the reciprocal volume: `-2*c_a**2` stands for `-2*c_a` (and likewise for the other angles), so the three
angle derivatives are right exactly in a cell with three right angles. -/
theorem d_volume_iff {uc : Fin 6 → ℝ} (h : NonDegenerate uc) :
    IsJacobian (fun x (_ : Unit) => calc_volume_uc x) (fun _ => d_calc_volume_uc uc) uc ↔ RightAngled uc := by
  rw [isJacobian_iff (d_volume_true h)]
  obtain ⟨-, -, -, q3, q4, q5⟩ := d_calc_phi_val uc
  cell_facts h
  unfold d_calc_volume_uc RightAngled
  simp only [forall_fin6]
  simp only [Matrix.cons_val, forall_const]
  rw [q3, q4, q5]
  rw [vol_aux h1 h2 h3 h4 h7 h8]
  have e1 := vol_aux (y := cos (uc 3)) (z := cos (uc 5)) h1 h2 h3 h5 h7 h9
  have e2 := vol_aux (y := cos (uc 3)) (z := cos (uc 4)) h1 h2 h3 h6 h7 h10
  rw [mul_comm (cos (uc 5)) (cos (uc 3)), e1, e2]
  simp

/-- the three edge derivatives of the volume are right in every cell -/
theorem d_volume_edges {uc : Fin 6 → ℝ} (h : NonDegenerate uc) (j : Fin 6) (hj : j < 3) :
    HasDerivAt (fun t => calc_volume_uc (Function.update uc j t)) (d_calc_volume_uc uc j) (uc j) := by
  refine (d_volume_true h () j).congr_deriv ?_
  revert j
  unfold d_calc_volume_uc
  apply fin6 <;> simp

theorem d_volume_ruc_iff {uc : Fin 6 → ℝ} (h : NonDegenerate uc) :
    IsJacobian (fun x (_ : Unit) => calc_volume_ruc x) (fun _ => d_calc_volume_ruc uc) uc ↔ RightAngled uc := by
  rw [← d_volume_iff h, isJacobian_iff (d_volume_true h)]
  have hv := volume_ne h
  have T := fun j => (((d_volume_true h () j).fun_inv (by simpa using hv)))
  simp only [Function.update_eq_self] at T
  have T' : IsJacobian (fun x (_ : Unit) => calc_volume_ruc x) (fun _ j => -(![uc 1 * uc 2 * calc_phi uc,
      uc 0 * uc 2 * calc_phi uc, uc 0 * uc 1 * calc_phi uc,
      uc 0 * uc 1 * uc 2 * d_calc_phi uc 3, uc 0 * uc 1 * uc 2 * d_calc_phi uc 4,
      uc 0 * uc 1 * uc 2 * d_calc_phi uc 5]) j / calc_volume_uc uc ^ 2) uc := by
    intro _ j
    have := T j
    unfold calc_volume_ruc
    simpa only [one_div] using this
  rw [isJacobian_iff T']
  have key : ∀ j, d_calc_volume_ruc uc j = -d_calc_volume_uc uc j / calc_volume_uc uc ^ 2 := by
    unfold d_calc_volume_ruc
    apply fin6 <;> simp only [Matrix.cons_val] <;> field_simp
  constructor
  · intro H i j
    have := H i j
    rw [key] at this
    have e := (div_left_inj' (pow_ne_zero 2 hv)).mp this
    exact neg_injective e
  · intro H i j
    rw [key, H i j]

/-- The normalised metric: edge derivatives `c_g`, `c_b`, `c_a` are reported for entries that do not depend on the edges. -/
theorem d_m_g_norm_iff (uc : Fin 6 → ℝ) :
    IsJacobian calc_m_g_norm (d_calc_m_g_norm uc) uc ↔ RightAngled uc := by
  have T : IsJacobian calc_m_g_norm (fun i j => if j < 3 then 0 else d_calc_m_g_norm uc i j) uc := by
    unfold calc_m_g_norm d_calc_m_g_norm
    apply fin6 <;> apply fin6 <;> simp only [Fin.reduceLT, if_true, if_false] <;> jac <;> ring
  rw [isJacobian_iff T]
  unfold d_calc_m_g_norm RightAngled
  simp only [forall_fin6, Fin.reduceLT, if_true, if_false]
  simp only [Matrix.cons_val]
  tauto

/-- The matrix `B`: the table is right exactly when `cos α = 0`. -/
theorem d_m_b_iff {uc : Fin 6 → ℝ} (h : NonDegenerate uc) :
    IsJacobian calc_m_b (d_calc_m_b uc) uc ↔ cos (uc 3) = 0 := by
  cell_facts h
  constructor
  · intro H
    have T : HasDerivAt (fun t => calc_m_b (Function.update uc 4 t) 1)
        (- cos (uc 3) * sin (uc 4) / (uc 1 * calc_phi uc * sin (uc 3))
          - calc_m_b uc 1 / calc_phi uc * d_calc_phi uc 4) (uc 4) := by
      unfold calc_m_b
      jac <;> jac_close
    have e := (H 1 4).unique T
    unfold d_calc_m_b calc_m_b at e
    simp only [Matrix.cons_val] at e
    have e2 : 2 * cos (uc 3) * sin (uc 4) / (uc 1 * calc_phi uc * sin (uc 3)) = 0 := by
      linear_combination e
    field_simp at e2
    simpa [h5] using e2
  · intro hc
    rw [hc] at h8 h11
    unfold calc_m_b d_calc_m_b
    clear h9 h10 h11
    apply fin9 <;> apply fin6 <;> jac <;> (try simp only [Function.update_eq_self]) <;> (try simp only [hc]) <;> jac_close

/-- The scattering vector inherits the table of `B`. -/
theorem d_q_ccs_iff {uc : Fin 6 → ℝ} (h : NonDegenerate uc) :
    (∀ hkl : Fin 3 → ℝ, IsJacobian (calc_q_ccs hkl) (fun i j => d_calc_q_ccs hkl uc i 0 j) uc) ↔ cos (uc 3) = 0 := by
  rw [← d_m_b_iff h]
  constructor
  · intro H
    have H0 := H ![1, 0, 0]
    have H1 := H ![0, 1, 0]
    have H2 := H ![0, 0, 1]
    unfold calc_q_ccs d_calc_q_ccs at H0 H1 H2
    have G : ∀ {f : (Fin 6 → ℝ) → Fin 3 → ℝ} {d : Fin 3 → Fin 6 → ℝ} {i : Fin 3} {j : Fin 6} {g : ℝ → ℝ} {e : ℝ},
        IsJacobian f d uc → (∀ t, f (Function.update uc j t) i = g t) → d i j = e → HasDerivAt g e (uc j) := by
      intro f d i j g e H h1 h2
      have := H i j
      simp only [h1, h2] at this
      exact this
    apply fin9 <;> apply fin6
    all_goals first
      | (refine G (i := 0) H0 ?_ ?_ <;> simp [Matrix.cons_val] <;> done)
      | (refine G (i := 0) H1 ?_ ?_ <;> simp [Matrix.cons_val] <;> done)
      | (refine G (i := 0) H2 ?_ ?_ <;> simp [Matrix.cons_val] <;> done)
      | (refine G (i := 1) H0 ?_ ?_ <;> simp [Matrix.cons_val] <;> done)
      | (refine G (i := 1) H1 ?_ ?_ <;> simp [Matrix.cons_val] <;> done)
      | (refine G (i := 1) H2 ?_ ?_ <;> simp [Matrix.cons_val] <;> done)
      | (refine G (i := 2) H0 ?_ ?_ <;> simp [Matrix.cons_val] <;> done)
      | (refine G (i := 2) H1 ?_ ?_ <;> simp [Matrix.cons_val] <;> done)
      | (refine G (i := 2) H2 ?_ ?_ <;> simp [Matrix.cons_val] <;> done)
  · intro H hkl
    have L : ∀ (i0 i1 i2 : Fin 9) (j : Fin 6), HasDerivAt
        (fun t => calc_m_b (Function.update uc j t) i0 * hkl 0 + calc_m_b (Function.update uc j t) i1 * hkl 1
          + calc_m_b (Function.update uc j t) i2 * hkl 2)
        (hkl 0 * d_calc_m_b uc i0 j + hkl 1 * d_calc_m_b uc i1 j + hkl 2 * d_calc_m_b uc i2 j) (uc j) := by
      intro i0 i1 i2 j
      have := (((H i0 j).mul_const (hkl 0)).fun_add ((H i1 j).mul_const (hkl 1))).fun_add ((H i2 j).mul_const (hkl 2))
      exact this.congr_deriv (by ring)
    unfold calc_q_ccs d_calc_q_ccs
    apply fin3 <;> apply fin6 <;> simp only [Matrix.cons_val] <;> exact L _ _ _ _

/-- The normalised `M`: sign errors in its first entry; right exactly in a cell with three right angles. -/
theorem d_m_m_norm_iff {uc : Fin 6 → ℝ} (h : NonDegenerate uc) :
    IsJacobian calc_m_m_norm (d_calc_m_m_norm uc) uc ↔ RightAngled uc := by
  obtain ⟨q0, q1, q2, q3, q4, q5⟩ := d_calc_phi_val uc
  cell_facts h
  constructor
  · intro H
    have T3 : HasDerivAt (fun t => calc_m_m_norm (Function.update uc 3 t) 0)
        (d_calc_phi uc 3 / sin (uc 3) - calc_phi uc * cos (uc 3) / sin (uc 3) ^ 2) (uc 3) := by
      unfold calc_m_m_norm
      jac <;> jac_close
    have T4 : HasDerivAt (fun t => calc_m_m_norm (Function.update uc 4 t) 0) (d_calc_phi uc 4 / sin (uc 3)) (uc 4) := by
      unfold calc_m_m_norm
      jac <;> jac_close
    have T5 : HasDerivAt (fun t => calc_m_m_norm (Function.update uc 5 t) 0) (d_calc_phi uc 5 / sin (uc 3)) (uc 5) := by
      unfold calc_m_m_norm
      jac <;> jac_close
    have e3 := (H 0 3).unique T3
    have e4 := (H 0 4).unique T4
    have e5 := (H 0 5).unique T5
    unfold d_calc_m_m_norm at e3 e4 e5
    simp only [Matrix.cons_val, q3, q4, q5] at e3 e4 e5
    unfold RightAngled
    refine right_of_products h6 h4 h5 h8 h9 h10 ?_ ?_ ?_
    · field_simp at e3
      have : 2 * sin (uc 3) ^ 2 * (cos (uc 3) - cos (uc 4) * cos (uc 5)) = 0 := by linear_combination -e3
      have := mul_eq_zero.mp this
      simp [h4] at this
      linarith
    · field_simp at e4
      linear_combination -e4 / 2
    · field_simp at e5
      linear_combination -e5 / 2
  · rintro ⟨c1, c2, c3⟩
    simp only [c1, c2, c3] at q3 q4 q5 h8 h9 h10 h11
    unfold calc_m_m_norm d_calc_m_m_norm
    simp only [q0, q1, q2] at p0 p1 p2
    apply fin9 <;> apply fin6 <;> jac <;> (try simp only [Function.update_eq_self]) <;> (try simp only [c1, c2, c3, q3, q4, q5]) <;> jac_close

/-- The length of the scattering vector, and `sin θ / λ`: in a cell with three right angles, for every reflection but 000,
the tables are right; `d_inv_d_wrong` shows that in an oblique cell they are not. -/
theorem d_inv_d_right_angled (hkl : Fin 3 → ℝ) {uc : Fin 6 → ℝ} (h : NonDegenerate uc) (hr : RightAngled uc) (hz : hkl ≠ 0) :
    IsJacobian (fun x (_ : Unit) => calc_inv_d hkl x) (fun _ => d_calc_inv_d hkl uc) uc := by
  have hS : calc_inv_d hkl uc ≠ 0 := inv_d_ne h hz
  have T := invDSq_jac hkl h
  obtain ⟨c1, c2, c3⟩ := hr
  intro _ j
  have hD := (T () j).sqrt (by
    simp only [Function.update_eq_self]
    intro e
    apply hS
    rw [calc_inv_d_eq, e, sqrt_zero])
  simp only [Function.update_eq_self, ← calc_inv_d_eq] at hD
  refine hD.congr_deriv ?_
  rw [d_calc_inv_d_right hkl c1 c2 c3]
  clear hD T
  have hp : calc_phi_sq uc = 1 := by unfold calc_phi_sq; simp [c1, c2, c3]
  generalize calc_inv_d hkl uc = S at *
  revert j
  cell_facts h
  clear p0 p1 p2 p3 p4 p5
  simp only [c1, c2, c3] at h8 h9 h10 ⊢
  rw [hp, h8, h9, h10]
  apply fin6 <;> simp only [Matrix.cons_val] <;> field_simp <;> ring

theorem d_sthovl_right_angled (hkl : Fin 3 → ℝ) {uc : Fin 6 → ℝ} (h : NonDegenerate uc) (hr : RightAngled uc) (hz : hkl ≠ 0) :
    IsJacobian (fun x (_ : Unit) => calc_sthovl hkl x) (fun _ => d_calc_sthovl hkl uc) uc := by
  intro _ j
  have := (d_inv_d_right_angled hkl h hr hz () j).const_mul (1 / 2 : ℝ)
  unfold calc_sthovl
  refine this.congr_deriv ?_
  unfold d_calc_sthovl
  revert j
  apply fin6 <;> intros <;> simp only [Matrix.cons_val]

example : NonDegenerate boxUC ∧ RightAngled boxUC ∧ (![1, 2, 3] : Fin 3 → ℝ) ≠ 0 :=
  ⟨boxUC_nonDegenerate, boxUC_right, fun h => by simpa using congrFun h 0⟩

/-- In the cell `exUC` with `γ = 60°` the length of reflection 001 does not depend on `γ`; the reported derivative is not
zero. -/
theorem d_inv_d_wrong :
    ¬ IsJacobian (fun x (_ : Unit) => calc_inv_d ![0, 0, 1] x) (fun _ => d_calc_inv_d ![0, 0, 1] exUC) exUC := by
  have h := exUC_nonDegenerate
  have u2 : exUC 2 = 5 := rfl
  have c3 : cos (exUC 3) = 0 := cos_pi_div_two
  have c4 : cos (exUC 4) = 0 := cos_pi_div_two
  have c5 : cos (exUC 5) = 1 / 2 := cos_pi_div_three
  have s5 : sin (exUC 5) = √3 / 2 := sin_pi_div_three
  have s25 : √(1 / 25 : ℝ) = 1 / 5 := by
    rw [show (1 / 25 : ℝ) = (1 / 5) ^ 2 by norm_num]; exact sqrt_sq (by norm_num)
  have hq : invDSq ![0, 0, 1] exUC = 1 / 25 := by
    unfold invDSq calc_phi_sq
    simp only [Matrix.cons_val, u2, c3, c4, c5]
    norm_num
  have hS : calc_inv_d ![0, 0, 1] exUC = 1 / 5 := by rw [calc_inv_d_eq, hq, s25]
  have T := (invDSq_jac ![0, 0, 1] h () 5).sqrt (by simp only [Function.update_eq_self, hq]; norm_num)
  simp only [Function.update_eq_self, ← calc_inv_d_eq, Matrix.cons_val, hS, hq] at T
  refine not_isJacobian () 5 0 (T.congr_deriv ?_) ?_
  · simp only [u2, c3, c4, c5]
    norm_num
  · have hd : d_calc_inv_d ![0, 0, 1] exUC 5 = sin (exUC 5) / (3 / 4) * (1 / 2 * (1 / 5) ^ 2 /
        calc_inv_d ![0, 0, 1] exUC - calc_inv_d ![0, 0, 1] exUC * (1 / 2) / (3 / 4)) := by
      unfold d_calc_inv_d calc_inv_d
      simp only [Matrix.cons_val, u2, c3, c4, c5]
      norm_num
    show d_calc_inv_d ![0, 0, 1] exUC 5 ≠ 0
    rw [hd, hS, s5]
    have : √3 ≠ 0 := by positivity
    norm_num

/-! ## never right -/

/-- The reciprocal parameters: `a*` is reported to change with `a` in the wrong direction. -/
theorem d_reciprocal_wrong {uc : Fin 6 → ℝ} (h : NonDegenerate uc) :
    ¬ IsJacobian calc_reciprocal (d_calc_reciprocal uc) uc := by
  cell_facts h
  have hv := volume_ne h
  have V := d_volume_true h () 0
  simp only [Matrix.cons_val] at V
  refine not_isJacobian 0 0 (-(uc 1 * uc 2 * sin (uc 3) * (uc 1 * uc 2 * calc_phi uc) / calc_volume_uc uc ^ 2)) ?_ ?_
  · unfold calc_reciprocal
    jac
    · simpa using hv
    · simp only [Function.update_eq_self]
      ring
  · unfold d_calc_reciprocal d_calc_volume_uc
    simp only [Matrix.cons_val]
    intro e
    field_simp at e
    have : (2 : ℝ) = 0 := by linarith
    norm_num at this

/-- The reciprocal metric: every derivative is reported as zero, but `a*²` falls as `a` grows. -/
theorem d_m_reciprocal_g_wrong {uc : Fin 6 → ℝ} (h : NonDegenerate uc) :
    ¬ IsJacobian calc_m_reciprocal_g (d_calc_m_reciprocal_g uc) uc := by
  have hp := (phi_sq_pos h).ne'
  cell_facts h
  have P := d_phi_sq uc () 0
  simp only [d_calc_phi_sq, Matrix.cons_val] at P
  refine not_isJacobian 0 0 (-2 * sin (uc 3) ^ 2 / (uc 0 ^ 3 * calc_phi_sq uc)) ?_ ?_
  · unfold calc_m_reciprocal_g
    jac <;> simp only [Function.update_eq_self]
    · exact mul_ne_zero (pow_ne_zero _ h1) hp
    · field_simp; ring
  · unfold d_calc_m_reciprocal_g
    refine Ne.symm ?_
    simp [h1, h4, hp]

theorem d_m_inv_b_wrong (uc : Fin 6 → ℝ) : ¬ IsJacobian calc_m_inv_b (d_calc_m_inv_b uc) uc := by
  refine not_isJacobian 8 2 1 ?_ ?_
  · unfold calc_m_inv_b
    jac
    rfl
  · unfold d_calc_m_inv_b
    simp

theorem d_m_m_wrong (uc : Fin 6 → ℝ) : ¬ IsJacobian calc_m_m (d_calc_m_m uc) uc := by
  refine not_isJacobian 8 2 1 ?_ ?_
  · unfold calc_m_m
    jac
    rfl
  · unfold d_calc_m_m
    simp

theorem d_m_b_norm_wrong {uc : Fin 6 → ℝ} (h : NonDegenerate uc) :
    ¬ IsJacobian calc_m_b_norm (d_calc_m_b_norm uc) uc := by
  cell_facts h
  refine not_isJacobian 1 5 (sin (uc 5) / (sin (uc 3) * sin (uc 4))) ?_ ?_
  · unfold calc_m_b_norm
    jac <;> jac_close
  · unfold d_calc_m_b_norm
    refine Ne.symm ?_
    simp [h4, h5, h6]

theorem d_m_inv_m_wrong {uc : Fin 6 → ℝ} (h : NonDegenerate uc) :
    ¬ IsJacobian calc_m_inv_m (d_calc_m_inv_m uc) uc := by
  cell_facts h
  refine not_isJacobian 8 2 (-1 / uc 2 ^ 2) ?_ ?_
  · unfold calc_m_inv_m
    jac <;> jac_close
  · unfold d_calc_m_inv_m
    refine Ne.symm ?_
    simp [h3]

theorem d_m_inv_m_norm_wrong {uc : Fin 6 → ℝ} (h : NonDegenerate uc) :
    ¬ IsJacobian calc_m_inv_m_norm (d_calc_m_inv_m_norm uc) uc := by
  cell_facts h
  refine not_isJacobian 7 3 (1 / sin (uc 3) ^ 2) ?_ ?_
  · unfold calc_m_inv_m_norm
    jac <;> jac_close
  · unfold d_calc_m_inv_m_norm
    refine Ne.symm ?_
    simp [h4]

theorem d_m_inv_m_b_norm_wrong {uc : Fin 6 → ℝ} (h : NonDegenerate uc) :
    ¬ IsJacobian calc_m_inv_m_b_norm (d_calc_m_inv_m_b_norm uc) uc := by
  obtain ⟨q0, q1, q2, -⟩ := d_calc_phi_val uc
  cell_facts h
  rw [q2] at p2
  refine not_isJacobian 8 2 (-sin (uc 5) / (uc 2 ^ 2 * calc_phi uc)) ?_ ?_
  · unfold calc_m_inv_m_b_norm
    jac <;> jac_close
  · unfold d_calc_m_inv_m_b_norm
    refine Ne.symm ?_
    simp [h3, h6, h7]

theorem d_m_inv_b_norm_m_wrong {uc : Fin 6 → ℝ} (h : NonDegenerate uc) :
    ¬ IsJacobian calc_m_inv_b_norm_m (d_calc_m_inv_b_norm_m uc) uc := by
  obtain ⟨q0, q1, q2, -⟩ := d_calc_phi_val uc
  cell_facts h
  rw [q2] at p2
  refine not_isJacobian 8 2 (sin (uc 5) / calc_phi uc) ?_ ?_
  · unfold calc_m_inv_b_norm_m
    jac <;> jac_close
  · unfold d_calc_m_inv_b_norm_m
    refine Ne.symm ?_
    simp [h6, h7]

example : NonDegenerate exUC ∧ NonDegenerate boxUC ∧ ¬ RightAngled exUC ∧ RightAngled boxUC :=
  ⟨exUC_nonDegenerate, boxUC_nonDegenerate, exUC_not_right, boxUC_right⟩

end Cryspy.Cell
