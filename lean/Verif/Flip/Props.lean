import Verif.Flip.Lemmas

/-!
# C24: the polarised intensities
-/

namespace Cryspy.Flip

open Matrix

/-! ## without extinction -/

/-- C24: the intensity with the flipper off is the quantum-mechanical one for a beam polarised along the axis. -/
theorem iint_plus_cross_section (P e : ℝ) (N : ℂ) (M : Fin 3 → ℂ) (z : Fin 3 → ℝ) :
    calc_iint_plus_none P e N.re N.im (re3 M) (im3 M) z = crossSection P z N M := by
  simp only [calc_iint_plus_none, crossSection, amplitude, beam, pauli, re3, im3, Matrix.trace, Fin.sum_univ_two,
    Matrix.mul_apply, Matrix.diag_apply, Matrix.add_apply, Matrix.smul_apply, Matrix.conjTranspose_apply]
  simp
  ring

/-- C24: with the flipper on the beam polarisation is `-P(2e-1)`. -/
theorem iint_minus_cross_section (P e : ℝ) (N : ℂ) (M : Fin 3 → ℂ) (z : Fin 3 → ℝ) :
    calc_iint_minus_none P e N.re N.im (re3 M) (im3 M) z = crossSection (-(P * (2 * e - 1))) z N M := by
  rw [← iint_plus_cross_section _ e]
  simp only [calc_iint_plus_none, calc_iint_minus_none]
  ring

/-- The intensity of a beam is not negative. -/
theorem crossSection_nonneg {P : ℝ} (hP : |P| ≤ 1) {z : Fin 3 → ℝ} (hz : IsUnit3 z) (N : ℂ) (M : Fin 3 → ℂ) :
    0 ≤ crossSection P z N M := by
  rw [← iint_plus_cross_section _ 0]
  simp only [calc_iint_plus_none]
  obtain ⟨h1, h2⟩ := abs_le.1 hP
  have a := chiral_le hz (re3 M) (im3 M) 1 (by norm_num)
  have b := chiral_le hz (re3 M) (im3 M) (-1) (by norm_num)
  have q1 : 0 ≤ (N.re + (re3 M 0 * z 0 + re3 M 1 * z 1 + re3 M 2 * z 2)) ^ 2 +
    (N.im + (im3 M 0 * z 0 + im3 M 1 * z 1 + im3 M 2 * z 2)) ^ 2 := by positivity
  have q2 : 0 ≤ (N.re - (re3 M 0 * z 0 + re3 M 1 * z 1 + re3 M 2 * z 2)) ^ 2 +
    (N.im - (im3 M 0 * z 0 + im3 M 1 * z 1 + im3 M 2 * z 2)) ^ 2 := by positivity
  have p1 : 0 ≤ 1 + P := by linarith
  have p2 : 0 ≤ 1 - P := by linarith
  linarith [mul_nonneg p1 a, mul_nonneg p2 b, mul_nonneg p1 q1, mul_nonneg p2 q2]

/-- C24: both intensities are non-negative. -/
theorem iint_nonneg {P e : ℝ} (hP : |P| ≤ 1) (he : 0 ≤ e ∧ e ≤ 1) {z : Fin 3 → ℝ} (hz : IsUnit3 z) (N : ℂ) (M : Fin 3 → ℂ) :
    0 ≤ calc_iint_plus_none P e N.re N.im (re3 M) (im3 M) z ∧ 0 ≤ calc_iint_minus_none P e N.re N.im (re3 M) (im3 M) z := by
  rw [iint_plus_cross_section, iint_minus_cross_section]
  obtain ⟨h1, h2⟩ := abs_le.1 hP
  refine ⟨crossSection_nonneg hP hz N M, crossSection_nonneg (abs_le.2 ⟨?_, ?_⟩) hz N M⟩ <;> nlinarith [he.1, he.2]

/-- C24: inverting the beam polarisation swaps the two intensities of an ideal flipper, with any extinction function. -/
theorem iint_swap (y dy dk : ℝ → ℝ) (P nr ni : ℝ) (mr mi z : Fin 3 → ℝ) :
    calc_iint_plus y dy dk (-P) 1 nr ni mr mi z = calc_iint_minus y dy dk P 1 nr ni mr mi z ∧
    calc_iint_minus y dy dk (-P) 1 nr ni mr mi z = calc_iint_plus y dy dk P 1 nr ni mr mi z := by
  simp only [calc_iint_plus, calc_iint_minus]
  constructor <;> ring

/-- C24: for an unpolarised beam the two intensities are equal; for a flipper of efficiency one half the second intensity
is that of an unpolarised beam. -/
theorem iint_unpolarised (y dy dk : ℝ → ℝ) (P e nr ni : ℝ) (mr mi z : Fin 3 → ℝ) :
    calc_iint_plus y dy dk 0 e nr ni mr mi z = calc_iint_minus y dy dk 0 e nr ni mr mi z ∧
    calc_iint_minus y dy dk P (1 / 2) nr ni mr mi z = calc_iint_plus y dy dk 0 e nr ni mr mi z := by
  simp only [calc_iint_plus, calc_iint_minus]
  constructor <;> ring

/-! ## with extinction -/

/-- No extinction function is the extinction function `1`. -/
theorem iint_no_extinction (dy dk : ℝ → ℝ) (P e nr ni : ℝ) (mr mi z : Fin 3 → ℝ) :
    calc_iint_plus (fun _ => 1) dy dk P e nr ni mr mi z = calc_iint_plus_none P e nr ni mr mi z ∧
    calc_iint_minus (fun _ => 1) dy dk P e nr ni mr mi z = calc_iint_minus_none P e nr ni mr mi z := ⟨rfl, rfl⟩

/-- C24, the part that holds with extinction: the intensities are non-negative when there is no chiral scattering, or the beam
is unpolarised.  (`iint_extinction_negative` shows that the condition is needed.) -/
theorem iint_extinction_nonneg {y : ℝ → ℝ} (hy : ∀ s, 0 ≤ s → 0 ≤ y s) (dy dk : ℝ → ℝ) {P e : ℝ} (hP : |P| ≤ 1)
    (he : 0 ≤ e ∧ e ≤ 1) {z : Fin 3 → ℝ} (hz : IsUnit3 z) (N : ℂ) {M : Fin 3 → ℂ} (hM : Achiral M ∨ P = 0) :
    0 ≤ calc_iint_plus y dy dk P e N.re N.im (re3 M) (im3 M) z ∧ 0 ≤ calc_iint_minus y dy dk P e N.re N.im (re3 M) (im3 M) z := by
  obtain ⟨h1, h2⟩ := abs_le.1 hP
  have hxy := xy_nonneg hz.le (re3 M) (im3 M)
  have hc : P * (2 * (z 0 * (im3 M 1 * re3 M 2 - re3 M 1 * im3 M 2) + z 1 * (im3 M 2 * re3 M 0 - re3 M 2 * im3 M 0) +
      z 2 * (im3 M 0 * re3 M 1 - re3 M 0 * im3 M 1))) = 0 := by
    rcases hM with h | h
    · have a := h 1 2; have b := h 2 0; have c := h 0 1
      simp only [re3, im3]
      linear_combination P * 2 * z 0 * a + P * 2 * z 1 * b + P * 2 * z 2 * c
    · simp [h]
  simp only [calc_iint_plus, calc_iint_minus]
  obtain ⟨Fp, hFp⟩ : ∃ F : ℝ, (N.re + (re3 M 0 * z 0 + re3 M 1 * z 1 + re3 M 2 * z 2)) ^ 2 +
    (N.im + (im3 M 0 * z 0 + im3 M 1 * z 1 + im3 M 2 * z 2)) ^ 2 = F := ⟨_, rfl⟩
  obtain ⟨Fm, hFm⟩ : ∃ F : ℝ, (N.re - (re3 M 0 * z 0 + re3 M 1 * z 1 + re3 M 2 * z 2)) ^ 2 +
    (N.im - (im3 M 0 * z 0 + im3 M 1 * z 1 + im3 M 2 * z 2)) ^ 2 = F := ⟨_, rfl⟩
  rw [hFp, hFm]
  have p1 : 0 ≤ Fp := by rw [← hFp]; positivity
  have p2 : 0 ≤ Fm := by rw [← hFm]; positivity
  have q1 := mul_nonneg (hy _ p1) p1
  have q2 := mul_nonneg (hy _ p2) p2
  have q3 := mul_nonneg (hy _ hxy) hxy
  have hd1 : -1 ≤ P * (2 * e - 1) := by nlinarith [he.1, he.2]
  have hd2 : P * (2 * e - 1) ≤ 1 := by nlinarith [he.1, he.2]
  constructor
  · linarith [mul_nonneg (by linarith : (0:ℝ) ≤ 1 + P) q1, mul_nonneg (by linarith : (0:ℝ) ≤ 1 - P) q2]
  · have hc' : P * (2 * e - 1) * (2 * (z 0 * (im3 M 1 * re3 M 2 - re3 M 1 * im3 M 2) + z 1 * (im3 M 2 * re3 M 0 - re3 M 2 * im3 M 0) +
      z 2 * (im3 M 0 * re3 M 1 - re3 M 0 * im3 M 1))) = 0 := by linear_combination (2 * e - 1) * hc
    linarith [mul_nonneg (by linarith : (0:ℝ) ≤ 1 - P * (2 * e - 1)) q1, mul_nonneg (by linarith : (0:ℝ) ≤ 1 + P * (2 * e - 1)) q2]

/-- C24 is false with extinction: the chiral term is not multiplied by the extinction factor, so a fully polarised beam on a
helix gives a negative intensity with *every* extinction function that is below one there. -/
theorem iint_extinction_negative (y dy dk : ℝ → ℝ) (hy : y 2 < 1) (e : ℝ) :
    calc_iint_plus y dy dk 1 e 0 0 ![1, 0, 0] ![0, 1, 0] ![0, 0, 1] < 0 := by
  simp only [calc_iint_plus, Matrix.cons_val]
  norm_num
  linarith

/-- A case that meets the hypotheses: a real moment, a partly polarised beam. -/
example : |(0.9 : ℝ)| ≤ 1 ∧ (0 ≤ (0.8 : ℝ) ∧ (0.8 : ℝ) ≤ 1) ∧ IsUnit3 ![3 / 5, 0, 4 / 5] ∧ Achiral ![1, 2, -3] := by
  refine ⟨by rw [abs_of_pos] <;> norm_num, by norm_num, ?_, ?_⟩
  · simp only [IsUnit3, Matrix.cons_val]; norm_num
  · intro i j; fin_cases i <;> fin_cases j <;> simp

end Cryspy.Flip
