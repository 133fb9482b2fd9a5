import Verif.Cell.FrameModel
import Verif.Cell.DLemmas
import Mathlib.Analysis.Real.Pi.Bounds
import Mathlib.Analysis.SpecialFunctions.Trigonometric.Bounds

/-!
# C23: the local reflection frame

`calc_matrix_t` always returns a rotation; its third row is the unit scattering vector, exactly or, for directions in a
narrow range about `x`, up to `10⁻⁵` in the `y` component; the reflection 000 stops the program.
-/

namespace Cryspy.Cell

open Real Cryspy.Mat
open scoped Matrix

theorem clip1_of {x : ℝ} (h : x ^ 2 ≤ 1) : clip1 x = x := by
  have h1 : x ≤ 1 := by nlinarith
  have h2 : -1 ≤ x := by nlinarith
  unfold clip1
  simp [not_lt.mpr h1, not_lt.mpr h2]

/-- cosine and sine of the chosen angle -/
theorem alOfRatios_spec {s c : ℝ} (h : s ^ 2 + c ^ 2 = 1) :
    sin (alOfRatios s c) = s ∧ |cos (alOfRatios s c) - c| ≤ 0.00001 ∧
      (cos (alOfRatios s c) = c ∨ (cos (alOfRatios s c) = -c ∧ c < 0 ∧ -0.000005 < c)) := by
  have s1 : s ≤ 1 := by nlinarith
  have s2 : -1 ≤ s := by nlinarith
  have c1 : c ≤ 1 := by nlinarith
  have c2 : -1 ≤ c := by nlinarith
  have hs : √(1 - c ^ 2) = |s| := by rw [show 1 - c ^ 2 = s ^ 2 by linarith, sqrt_sq_eq_abs]
  have hc : √(1 - s ^ 2) = |c| := by rw [show 1 - s ^ 2 = c ^ 2 by linarith, sqrt_sq_eq_abs]
  unfold alOfRatios
  simp only
  split_ifs with h1 h2
  · refine ⟨sin_arcsin s2 s1, ?_⟩
    rw [cos_arcsin, hc]
    by_cases hc0 : 0 ≤ c
    · rw [abs_of_nonneg hc0]; simp; norm_num
    · push Not at hc0
      rw [abs_of_neg hc0]
      have e1 : arcsin s ≤ π / 2 := arcsin_le_pi_div_two s
      have e2 : arccos c = π / 2 - arcsin c := rfl
      have hpos : 0 ≤ s := by
        by_contra hn
        push Not at hn
        have : arcsin s < 0 := by simpa using arcsin_lt_zero.mpr hn
        have e3 : arcsin c ≤ 0 := arcsin_nonpos.mpr hc0.le
        have := pi_gt_three
        rw [e2] at h1
        have := (abs_lt.mp h1).2
        norm_num at this
        linarith
      have e4 : arcsin s = π / 2 + arcsin c := by
        have : sin (π / 2 + arcsin c) = s := by
          rw [add_comm, sin_add_pi_div_two, cos_arcsin, hs, abs_of_nonneg hpos]
        rw [← this]
        apply arcsin_sin
        · have := neg_pi_div_two_le_arcsin c
          linarith [pi_pos]
        · have := arcsin_nonpos.mpr hc0.le
          linarith
      have e5 : -0.000005 < arcsin c := by
        rw [e4, e2] at h1
        have := (abs_lt.mp h1).2
        norm_num at this ⊢
        linarith
      have e6 : -0.000005 < c := by
        have h0 : arcsin c < 0 := arcsin_lt_zero.mpr hc0
        have : c = sin (arcsin c) := (sin_arcsin c2 c1).symm
        rw [this]
        have h7 := sin_lt (x := -arcsin c) (by linarith)
        rw [sin_neg] at h7
        linarith
      refine ⟨?_, Or.inr ⟨rfl, hc0, e6⟩⟩
      rw [abs_le]
      norm_num at e6 ⊢
      constructor <;> linarith
  · have hcos : cos (2 * π - arccos c) = c := by
      rw [cos_two_pi_sub, cos_arccos c2 c1]
    refine ⟨?_, ?_, Or.inl hcos⟩
    · rw [show 2 * π - arccos c = -(arccos c) + 2 * π by ring, sin_add_two_pi, sin_neg, sin_arccos, hs, abs_of_nonpos h2]
      ring
    · rw [hcos]; norm_num
  · push Not at h2
    have hcos : cos (arccos c) = c := cos_arccos c2 c1
    refine ⟨?_, ?_, Or.inl hcos⟩
    · rw [sin_arccos, hs, abs_of_pos h2]
    · rw [hcos]; norm_num

/-- the chosen angles reproduce a unit direction -/
theorem alBe_spec {k : Fin 3 → ℝ} (h : k 0 ^ 2 + k 1 ^ 2 + k 2 ^ 2 = 1) :
    sin (alBe k).1 * sin (alBe k).2 = k 0 ∧ cos (alBe k).2 = k 2 ∧
    |-cos (alBe k).1 * sin (alBe k).2 - k 1| ≤ 0.00001 ∧
    (-cos (alBe k).1 * sin (alBe k).2 = k 1 ∨ (-cos (alBe k).1 * sin (alBe k).2 = -k 1 ∧ 0 < k 1 ∧ k 1 < 0.000005)) := by
  have hz1 : k 2 ≤ 1 := by nlinarith [sq_nonneg (k 0), sq_nonneg (k 1)]
  have hz2 : -1 ≤ k 2 := by nlinarith [sq_nonneg (k 0), sq_nonneg (k 1)]
  have hcb : cos (arccos (k 2)) = k 2 := cos_arccos hz2 hz1
  have hsb : sin (arccos (k 2)) ^ 2 = k 0 ^ 2 + k 1 ^ 2 := by
    rw [sin_sq, hcb]; linarith
  have hnn : 0 ≤ sin (arccos (k 2)) := sin_nonneg_of_nonneg_of_le_pi (arccos_nonneg _) (arccos_le_pi _)
  have hle : sin (arccos (k 2)) ≤ 1 := sin_le_one _
  unfold alBe
  simp only
  generalize sin (arccos (k 2)) = sb at *
  by_cases h0 : sb = 0
  · have e : k 0 ^ 2 + k 1 ^ 2 = 0 := by rw [← hsb, h0]; norm_num
    have k0 : k 0 = 0 := by nlinarith [sq_nonneg (k 0), sq_nonneg (k 1)]
    have k1 : k 1 = 0 := by nlinarith [sq_nonneg (k 0), sq_nonneg (k 1)]
    simp [h0, k0, k1, hcb]
    norm_num
  · rw [if_pos h0]
    have hpos : 0 < sb := lt_of_le_of_ne hnn (Ne.symm h0)
    have hsc : (k 0 * 1 / sb) ^ 2 + (-1 * k 1 * 1 / sb) ^ 2 = 1 := by
      field_simp; linarith
    rw [clip1_of (show (k 0 * 1 / sb) ^ 2 ≤ 1 by nlinarith [sq_nonneg (-1 * k 1 * 1 / sb)]),
      clip1_of (show (-1 * k 1 * 1 / sb) ^ 2 ≤ 1 by nlinarith [sq_nonneg (k 0 * 1 / sb)])]
    obtain ⟨e1, e2, e3⟩ := alOfRatios_spec hsc
    rw [e1]
    refine ⟨by field_simp, hcb, ?_, ?_⟩
    · generalize alOfRatios _ _ = al at *
      have : -cos al * sb - k 1 = -(cos al - -1 * k 1 * 1 / sb) * sb := by field_simp; ring
      rw [this, abs_mul, abs_neg, abs_of_pos hpos]
      calc |cos al - -1 * k 1 * 1 / sb| * sb ≤ |cos al - -1 * k 1 * 1 / sb| * 1 :=
            mul_le_mul_of_nonneg_left hle (abs_nonneg _)
        _ ≤ _ := by rw [mul_one]; exact e2
    · rcases e3 with e3 | ⟨e3, e4, e5⟩
      · left; rw [e3]; field_simp; try ring
      · right
        have hk : 0 < k 1 := by
          by_contra hn
          push Not at hn
          have : 0 ≤ -1 * k 1 * 1 / sb := div_nonneg (by linarith) hnn
          linarith
        refine ⟨by rw [e3]; field_simp; try ring, hk, ?_⟩
        have h8 : k 1 / sb < 0.000005 := by
          have : -1 * k 1 * 1 / sb = -(k 1 / sb) := by ring
          rw [this] at e5; linarith
        rw [div_lt_iff₀ hpos] at h8
        calc k 1 < 0.000005 * sb := h8
          _ ≤ 0.000005 * 1 := mul_le_mul_of_nonneg_left hle (by norm_num)
          _ = 0.000005 := by norm_num

/-- any two angles give a rotation -/
theorem tOfAngles_rotation (al be : ℝ) :
    toM (tOfAngles al be) * (toM (tOfAngles al be))ᵀ = 1 ∧ (toM (tOfAngles al be)).det = 1 := by
  have h1 := sin_sq_add_cos_sq al
  have h2 := sin_sq_add_cos_sq be
  unfold tOfAngles toM
  simp only [cos_zero, sin_zero, Matrix.cons_val]
  constructor
  · apply m_ext <;> simp [Matrix.mul_apply, Fin.sum_univ_three] <;> grind
  · rw [Matrix.det_fin_three]
    simp
    grind

/-- C23: whatever the reflection, a returned matrix is a rotation. -/
theorem matrix_t_rotation (hkl : Fin 3 → ℝ) (uc : Fin 6 → ℝ) {t : Fin 9 → ℝ} (h : calc_matrix_t hkl uc = some t) :
    toM t * (toM t)ᵀ = 1 ∧ (toM t)ᵀ * toM t = 1 ∧ (toM t).det = 1 := by
  unfold calc_matrix_t tOfDirection at h
  simp only at h
  split_ifs at h
  have e := Option.some.inj h
  have R := tOfAngles_rotation (alBe (calc_eq_ccs hkl uc)).1 (alBe (calc_eq_ccs hkl uc)).2
  rw [e] at R
  exact ⟨R.1, mul_eq_one_comm.mp R.1, R.2⟩

theorem tOfDirection_unit {k : Fin 3 → ℝ} (h : k 0 ^ 2 + k 1 ^ 2 + k 2 ^ 2 = 1) :
    ∃ t, tOfDirection k = some t ∧ t 6 = k 0 ∧ t 8 = k 2 ∧ |t 7 - k 1| ≤ 0.00001 ∧
      (t 7 = k 1 ∨ (t 7 = -k 1 ∧ 0 < k 1 ∧ k 1 < 0.000005)) := by
  obtain ⟨e1, e2, e3, e4⟩ := alBe_spec h
  refine ⟨tOfAngles (alBe k).1 (alBe k).2, ?_, ?_, ?_, ?_, ?_⟩
  · unfold tOfDirection
    simp only
    rw [if_neg]
    rw [e1, e2]
    have := sq_le_sq' (abs_le.mp e3).1 (abs_le.mp e3).2
    norm_num at this ⊢
    linarith
  · simpa [tOfAngles] using e1
  · simpa [tOfAngles] using e2
  · simpa [tOfAngles] using e3
  · simpa [tOfAngles] using e4

/-- C23: for every reflection but 000 of a non-degenerate cell a matrix is returned; its first and third entries of the third
row are those of the unit scattering vector, the second one differs by at most `10⁻⁵`, and by nothing unless that component
lies strictly between 0 and `5·10⁻⁶`. -/
theorem matrix_t_third_row (hkl : Fin 3 → ℝ) {uc : Fin 6 → ℝ} (h : NonDegenerate uc) (hz : hkl ≠ 0) :
    ∃ t, calc_matrix_t hkl uc = some t ∧ toM t 2 0 = calc_eq_ccs hkl uc 0 ∧ toM t 2 2 = calc_eq_ccs hkl uc 2 ∧
      |toM t 2 1 - calc_eq_ccs hkl uc 1| ≤ 0.00001 ∧
      (¬ (0 < calc_eq_ccs hkl uc 1 ∧ calc_eq_ccs hkl uc 1 < 0.000005) → toM t 2 = calc_eq_ccs hkl uc) := by
  have hu : calc_eq_ccs hkl uc 0 ^ 2 + calc_eq_ccs hkl uc 1 ^ 2 + calc_eq_ccs hkl uc 2 ^ 2 = 1 := by
    have := (eq_ccs_unit hkl uc h hz).1
    simp only [dotProduct, Fin.sum_univ_three] at this
    linarith
  obtain ⟨t, h1, h2, h3, h4, h5⟩ := tOfDirection_unit hu
  refine ⟨t, h1, h2, h3, h4, ?_⟩
  intro hn
  have h7 : t 7 = calc_eq_ccs hkl uc 1 := by
    rcases h5 with h5 | h5
    · exact h5
    · exact absurd h5.2 hn
  apply v_ext
  · exact h2
  · exact h7
  · exact h3

/-- The matrix takes the scattering direction to the new `z` axis (exactly, outside the same narrow range). -/
theorem matrix_t_maps_to_z (hkl : Fin 3 → ℝ) {uc : Fin 6 → ℝ} (h : NonDegenerate uc) (hz : hkl ≠ 0)
    (hn : ¬ (0 < calc_eq_ccs hkl uc 1 ∧ calc_eq_ccs hkl uc 1 < 0.000005)) :
    ∃ t, calc_matrix_t hkl uc = some t ∧ toM t *ᵥ calc_eq_ccs hkl uc = ![0, 0, 1] := by
  obtain ⟨t, h1, -, -, -, h2⟩ := matrix_t_third_row hkl h hz
  refine ⟨t, h1, ?_⟩
  obtain ⟨R, -, -⟩ := matrix_t_rotation hkl uc h1
  rw [← h2 hn]
  apply v_ext
  · have := congrFun (congrFun R 0) 2
    simpa [Matrix.mul_apply, Matrix.mulVec, dotProduct] using this
  · have := congrFun (congrFun R 1) 2
    simpa [Matrix.mul_apply, Matrix.mulVec, dotProduct] using this
  · have := congrFun (congrFun R 2) 2
    simpa [Matrix.mul_apply, Matrix.mulVec, dotProduct] using this

/-- The reflection 000, in any cell, stops the program. -/
theorem matrix_t_origin_quits (uc : Fin 6 → ℝ) : calc_matrix_t 0 uc = none := by
  have hk : calc_eq_ccs 0 uc = 0 := by
    unfold calc_eq_ccs calc_q_ccs
    apply v_ext <;> simp
  unfold calc_matrix_t tOfDirection
  rw [hk]
  have hs : alOfRatios 0 0 = 2 * π - π / 2 := by
    unfold alOfRatios
    have := pi_gt_three
    rw [if_neg]
    · simp
    · simp only [arccos_zero, arcsin_zero, sub_zero]
      rw [abs_of_pos (by linarith)]
      norm_num
      linarith
  have : alBe 0 = (2 * π - π / 2, π / 2) := by
    unfold alBe
    have h0 : clip1 0 = 0 := clip1_of (by norm_num)
    simp [h0, hs]
  rw [this]
  have e1 : sin (2 * π - π / 2) = -1 := by
    rw [show 2 * π - π / 2 = -(π / 2) + 2 * π by ring, sin_add_two_pi]; simp
  simp only
  rw [if_pos]
  rw [e1]
  norm_num

/-- A direction for which the third row is not the direction: `k_y = sin 10⁻⁶`, in the `x y` plane. -/
theorem third_row_inexact :
    ∃ k : Fin 3 → ℝ, k 0 ^ 2 + k 1 ^ 2 + k 2 ^ 2 = 1 ∧ ∃ t, tOfDirection k = some t ∧ toM t 2 ≠ k := by
  refine ⟨![cos 0.000001, sin 0.000001, 0], ?_, ?_⟩
  · simp
  · have s0 : 0 < sin (0.000001 : ℝ) := sin_pos_of_pos_of_lt_pi (by norm_num) (by have := pi_gt_three; norm_num; linarith)
    have hal : alBe ![cos 0.000001, sin 0.000001, 0] = (π / 2 - 0.000001, π / 2) := by
      unfold alBe
      simp only [Matrix.cons_val, arccos_zero, sin_pi_div_two]
      rw [if_pos (by norm_num)]
      have e1 : cos (0.000001 : ℝ) * 1 / 1 = cos 0.000001 := by ring
      have e2 : -1 * sin (0.000001 : ℝ) * 1 / 1 = -sin 0.000001 := by ring
      rw [e1, e2, clip1_of (by nlinarith [sin_sq_add_cos_sq (0.000001 : ℝ), sq_nonneg (sin (0.000001 : ℝ))]),
        clip1_of (by nlinarith [sin_sq_add_cos_sq (0.000001 : ℝ), sq_nonneg (cos (0.000001 : ℝ))])]
      have a1 : arcsin (cos (0.000001 : ℝ)) = π / 2 - 0.000001 := by
        rw [← sin_pi_div_two_sub]
        apply arcsin_sin
        · have := pi_gt_three; norm_num; linarith
        · have := pi_gt_three; norm_num
      have a2 : arccos (-sin (0.000001 : ℝ)) = π / 2 + 0.000001 := by
        rw [arccos, arcsin_neg, arcsin_sin]
        · ring
        · have := pi_gt_three; norm_num; linarith
        · have := pi_gt_three; norm_num; linarith
      unfold alOfRatios
      simp only
      rw [a1, a2, if_pos]
      rw [show π / 2 + 0.000001 - (π / 2 - 0.000001) = (0.000002 : ℝ) by ring_nf]
      rw [abs_of_pos] <;> norm_num
    obtain ⟨t, ht, -⟩ := tOfDirection_unit (k := ![cos 0.000001, sin 0.000001, 0]) (by simp)
    refine ⟨t, ht, ?_⟩
    unfold tOfDirection at ht
    simp only [hal] at ht
    split_ifs at ht
    have e := Option.some.inj ht
    intro hk
    have h7 : t 7 = sin 0.000001 := congrFun hk 1
    rw [← e] at h7
    simp only [tOfAngles, Matrix.cons_val, cos_pi_div_two_sub, sin_pi_div_two] at h7
    linarith

example : NonDegenerate exUC ∧ (![1, 2, 3] : Fin 3 → ℝ) ≠ 0 :=
  ⟨exUC_nonDegenerate, fun h => by simpa using congrFun h 0⟩

/-- a reflection outside the narrow range: 001 points along `z` -/
example : ¬ (0 < calc_eq_ccs ![0, 0, 1] exUC 1 ∧ calc_eq_ccs ![0, 0, 1] exUC 1 < 0.000005) := by
  have : calc_eq_ccs ![0, 0, 1] exUC 1 = 0 := by
    unfold calc_eq_ccs calc_q_ccs calc_m_b
    simp only [Matrix.cons_val]
    have : cos (exUC 3) = 0 := cos_pi_div_two
    simp [this]
  rw [this]; simp

end Cryspy.Cell
