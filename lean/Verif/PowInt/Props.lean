import Verif.PowInt.Spec
import Verif.Gen.PowderIint
import Verif.Flip.Props
import Mathlib.Analysis.SpecialFunctions.Integrals.Basic

/-!
# C59: powder intensities are means of single-crystal intensities
-/

namespace Cryspy.PowInt

open Real Cryspy.Flip

/-- A quadratic polynomial in `cos ψ`, `sin ψ`: its mean is the mean over four points. -/
theorem mean_quadratic (g : ℝ → ℝ → ℝ) (hg : ∀ x y, g x y = g 0 0 + (g 1 0 - g (-1) 0) / 2 * x + (g 0 1 - g 0 (-1)) / 2 * y +
      ((g 1 0 + g (-1) 0) / 2 - g 0 0) * x ^ 2 + (g 1 1 - g 1 0 - g 0 1 + g 0 0) * (y * x) +
      ((g 0 1 + g 0 (-1)) / 2 - g 0 0) * y ^ 2) :
    powderMean (fun ψ => g (cos ψ) (sin ψ)) = (g 1 0 + g (-1) 0 + g 0 1 + g 0 (-1)) / 4 := by
  have key : ∀ a0 a1 b1 a2 b2 c2 : ℝ, (∫ ψ in (0 : ℝ)..(2 * π), (a0 + a1 * cos ψ + b1 * sin ψ + a2 * cos ψ ^ 2 +
      b2 * (sin ψ * cos ψ) + c2 * sin ψ ^ 2)) = 2 * π * (a0 + (a2 + c2) / 2) := by
    intro a0 a1 b1 a2 b2 c2
    have i1 : IntervalIntegrable (fun _ : ℝ => a0) MeasureTheory.volume 0 (2 * π) := continuous_const.intervalIntegrable _ _
    have i2 : IntervalIntegrable (fun ψ : ℝ => a1 * cos ψ) MeasureTheory.volume 0 (2 * π) := by
      apply Continuous.intervalIntegrable; fun_prop
    have i3 : IntervalIntegrable (fun ψ : ℝ => b1 * sin ψ) MeasureTheory.volume 0 (2 * π) := by
      apply Continuous.intervalIntegrable; fun_prop
    have i4 : IntervalIntegrable (fun ψ : ℝ => a2 * cos ψ ^ 2) MeasureTheory.volume 0 (2 * π) := by
      apply Continuous.intervalIntegrable; fun_prop
    have i5 : IntervalIntegrable (fun ψ : ℝ => b2 * (sin ψ * cos ψ)) MeasureTheory.volume 0 (2 * π) := by
      apply Continuous.intervalIntegrable; fun_prop
    have i6 : IntervalIntegrable (fun ψ : ℝ => c2 * sin ψ ^ 2) MeasureTheory.volume 0 (2 * π) := by
      apply Continuous.intervalIntegrable; fun_prop
    rw [intervalIntegral.integral_add ((((i1.add i2).add i3).add i4).add i5) i6,
      intervalIntegral.integral_add (((i1.add i2).add i3).add i4) i5,
      intervalIntegral.integral_add ((i1.add i2).add i3) i4, intervalIntegral.integral_add (i1.add i2) i3,
      intervalIntegral.integral_add i1 i2]
    simp only [intervalIntegral.integral_const_mul, integral_cos, integral_sin, integral_cos_sq, integral_sin_sq,
      integral_sin_mul_cos₁, intervalIntegral.integral_const]
    simp
    ring
  unfold powderMean
  have : (fun ψ => g (cos ψ) (sin ψ)) = fun ψ => g 0 0 + (g 1 0 - g (-1) 0) / 2 * cos ψ + (g 0 1 - g 0 (-1)) / 2 * sin ψ +
      ((g 1 0 + g (-1) 0) / 2 - g 0 0) * cos ψ ^ 2 + (g 1 1 - g 1 0 - g 0 1 + g 0 0) * (sin ψ * cos ψ) +
      ((g 0 1 + g 0 (-1)) / 2 - g 0 0) * sin ψ ^ 2 := by
    funext ψ; exact hg _ _
  rw [this, key]
  have : (2 * π) ≠ 0 := by positivity
  field_simp
  ring

/-- real and imaginary parts of the tensor -/
def re9 (σ : Fin 9 → ℂ) : Fin 9 → ℝ := fun k => (σ k).re
def im9 (σ : Fin 9 → ℂ) : Fin 9 → ℝ := fun k => (σ k).im

/-- The powder intensity worked out. -/
theorem powderIntensity_eq (P : ℝ) (N : ℂ) (σ : Fin 9 → ℂ) (hσ : Symmetric σ) (M : Fin 3 → ℂ) (H α : ℝ) :
    powderIntensity P N σ M H α = N.re ^ 2 + N.im ^ 2 + H ^ 2 * (sin α ^ 2 * P1 (re9 σ) (im9 σ) + cos α ^ 2 * P2 (re9 σ) (im9 σ)) +
      ((M 0).re ^ 2 + (M 0).im ^ 2 + (M 1).re ^ 2 + (M 1).im ^ 2 + (M 2).re ^ 2 + (M 2).im ^ 2) +
      H * cos α * M1 (re9 σ) (im9 σ) (re3 M) (im3 M) +
      P * (H * sin α ^ 2 * P3 N.re N.im (re9 σ) (im9 σ) +
        H ^ 2 * cos α * (sin α ^ 2 * P4 (re9 σ) (im9 σ) + cos α ^ 2 * P5 (re9 σ) (im9 σ)) +
        cos α * (O1 N.re N.im (re3 M) (im3 M) + O2 (re3 M) (im3 M)) +
        H * sin α ^ 2 * M2 (re9 σ) (im9 σ) (re3 M) (im3 M) + H * cos α ^ 2 * M3 (re9 σ) (im9 σ) (re3 M) (im3 M)) := by
  unfold Symmetric at hσ
  unfold powderIntensity
  simp only [← iint_plus_cross_section P 0, fieldDir]
  refine (mean_quadratic (fun x y => calc_iint_plus_none P 0 N.re N.im
    (re3 fun k => inducedPerp σ H ![sin α * x, sin α * y, cos α] k + M k)
    (im3 fun k => inducedPerp σ H ![sin α * x, sin α * y, cos α] k + M k) ![sin α * x, sin α * y, cos α]) ?_).trans ?_
  · intro x y
    generalize sin α = sa
    generalize cos α = ca
    simp [calc_iint_plus_none, re3, im3, inducedPerp]
    ring
  · generalize sin α = sa
    generalize cos α = ca
    simp [calc_iint_plus_none, re3, im3, inducedPerp, P1, P2, P3, P4, P5, O1, O2, M1, M2, M3, re9, im9, hσ]
    ring

/-- **C59** Paramagnetic crystal, detector out of the plane: both intensities are the means over the powder. -/
theorem para2_mean (P ε : ℝ) (N : ℂ) (σ : Fin 9 → ℂ) (hσ : Symmetric σ) (H α : ℝ) :
    para2_plus N.re N.im (re9 σ) (im9 σ) P ε H α = powderIntensity P N σ 0 H α ∧
    para2_minus N.re N.im (re9 σ) (im9 σ) P ε H α = powderIntensity (-(P * (2 * ε - 1))) N σ 0 H α := by
  rw [powderIntensity_eq _ _ _ hσ, powderIntensity_eq _ _ _ hσ]
  have h := sin_sq_add_cos_sq α
  have z1 : M1 (re9 σ) (im9 σ) (re3 0) (im3 0) = 0 := by simp [M1, re3, im3]
  have z2 : M2 (re9 σ) (im9 σ) (re3 0) (im3 0) = 0 := by simp [M2, re3, im3]
  have z3 : M3 (re9 σ) (im9 σ) (re3 0) (im3 0) = 0 := by simp [M3, re3, im3]
  have z4 : O1 N.re N.im (re3 0) (im3 0) = 0 := by simp [O1, re3, im3]
  have z5 : O2 (re3 0) (im3 0) = 0 := by simp [O2, re3, im3]
  simp only [para2_plus, para2_minus, z1, z2, z3, z4, z5, Pi.zero_apply, Complex.zero_re, Complex.zero_im]
  set p1 := P1 (re9 σ) (im9 σ)
  set p2 := P2 (re9 σ) (im9 σ)
  set p3 := P3 N.re N.im (re9 σ) (im9 σ)
  set p4 := P4 (re9 σ) (im9 σ)
  set p5 := P5 (re9 σ) (im9 σ)
  constructor
  · linear_combination (-(H ^ 2 * p2) - P * H ^ 2 * p5 * cos α) * h
  · linear_combination (-(H ^ 2 * p2) + P * (2 * ε - 1) * H ^ 2 * p5 * cos α) * h

/-- **C59** Paramagnetic crystal, detector in the plane perpendicular to the field. -/
theorem para_mean (P ε : ℝ) (N : ℂ) (σ : Fin 9 → ℂ) (hσ : Symmetric σ) (H : ℝ) :
    para_plus N.re N.im (re9 σ) (im9 σ) P ε H = powderIntensity P N σ 0 H (π / 2) ∧
    para_minus N.re N.im (re9 σ) (im9 σ) P ε H = powderIntensity (-(P * (2 * ε - 1))) N σ 0 H (π / 2) := by
  obtain ⟨h1, h2⟩ := para2_mean P ε N σ hσ H (π / 2)
  rw [← h1, ← h2]
  simp only [para_plus, para_minus, para2_plus, para2_minus, sin_pi_div_two, cos_pi_div_two]
  constructor <;> ring

theorem symmetric_zero : Symmetric 0 := rfl

/-- **C59** Magnetically ordered crystal: both intensities are the means over the powder. -/
theorem ordered2_mean (P ε : ℝ) (N : ℂ) (M : Fin 3 → ℂ) (H α : ℝ) :
    ordered2_plus N.re N.im (re3 M) (im3 M) P ε α = powderIntensity P N 0 M H α ∧
    ordered2_minus N.re N.im (re3 M) (im3 M) P ε α = powderIntensity (-(P * (2 * ε - 1))) N 0 M H α := by
  rw [powderIntensity_eq _ _ _ symmetric_zero, powderIntensity_eq _ _ _ symmetric_zero]
  simp only [ordered2_plus, ordered2_minus, P1, P2, P3, P4, P5, M1, M2, M3, re9, im9, re3, im3, Pi.zero_apply,
    Complex.zero_re, Complex.zero_im]
  constructor <;> ring

/-- **C59** In the plane the intensity of an ordered crystal does not depend on the polarisation. -/
theorem ordered_mean (P : ℝ) (N : ℂ) (M : Fin 3 → ℂ) (H : ℝ) :
    ordered N.re N.im (re3 M) (im3 M) = powderIntensity P N 0 M H (π / 2) := by
  rw [← (ordered2_mean P 0 N M H (π / 2)).1]
  simp only [ordered2_plus, ordered, re3, im3, cos_pi_div_two]
  ring

/-- **C59** Both kinds of moments, in the plane. -/
theorem mix_mean (P ε : ℝ) (N : ℂ) (σ : Fin 9 → ℂ) (hσ : Symmetric σ) (M : Fin 3 → ℂ) (H : ℝ) :
    mix_plus N.re N.im (re3 M) (im3 M) (re9 σ) (im9 σ) P ε H = powderIntensity P N σ M H (π / 2) ∧
    mix_minus N.re N.im (re3 M) (im3 M) (re9 σ) (im9 σ) P ε H = powderIntensity (-(P * (2 * ε - 1))) N σ M H (π / 2) := by
  rw [powderIntensity_eq _ _ _ hσ, powderIntensity_eq _ _ _ hσ]
  have h2 : M2 (re9 σ) (im9 σ) (re3 M) (im3 M) = 0 := by
    unfold Symmetric at hσ
    simp [M2, re9, im9, re3, im3, hσ]
  simp only [mix_plus, mix_minus, para_plus, para_minus, h2, sin_pi_div_two, cos_pi_div_two, re3, im3]
  constructor <;> ring

/-- **C59** Both kinds of moments, out of the plane: the first intensity is right. -/
theorem mix2_plus_mean (P ε : ℝ) (N : ℂ) (σ : Fin 9 → ℂ) (hσ : Symmetric σ) (M : Fin 3 → ℂ) (H α : ℝ) :
    mix2_plus N.re N.im (re9 σ) (im9 σ) (re3 M) (im3 M) P ε H α = powderIntensity P N σ M H α := by
  rw [powderIntensity_eq _ _ _ hσ]
  have h := sin_sq_add_cos_sq α
  simp only [mix2_plus]
  have e0 : re3 M 0 = (M 0).re := rfl
  have e1 : re3 M 1 = (M 1).re := rfl
  have e2 : re3 M 2 = (M 2).re := rfl
  have f0 : im3 M 0 = (M 0).im := rfl
  have f1 : im3 M 1 = (M 1).im := rfl
  have f2 : im3 M 2 = (M 2).im := rfl
  rw [e0, e1, e2, f0, f1, f2]
  linear_combination (-(H ^ 2 * P2 (re9 σ) (im9 σ)) - P * H ^ 2 * P5 (re9 σ) (im9 σ) * cos α -
    P * H * M3 (re9 σ) (im9 σ) (re3 M) (im3 M)) * h

/-- **C59** The second intensity is off by the term `m_3`, which has a wrong sign in the source
(integrated_intensity_powder_diffraction.py:583). -/
theorem mix2_minus_off (P ε : ℝ) (N : ℂ) (σ : Fin 9 → ℂ) (hσ : Symmetric σ) (M : Fin 3 → ℂ) (H α : ℝ) :
    mix2_minus N.re N.im (re9 σ) (im9 σ) (re3 M) (im3 M) P ε H α = powderIntensity (-(P * (2 * ε - 1))) N σ M H α
      - 2 * (P * (2 * ε - 1)) * H * M3 (re9 σ) (im9 σ) (re3 M) (im3 M) * sin α ^ 2 := by
  rw [powderIntensity_eq _ _ _ hσ]
  have h := sin_sq_add_cos_sq α
  simp only [mix2_minus]
  have e0 : re3 M 0 = (M 0).re := rfl
  have e1 : re3 M 1 = (M 1).re := rfl
  have e2 : re3 M 2 = (M 2).re := rfl
  have f0 : im3 M 0 = (M 0).im := rfl
  have f1 : im3 M 1 = (M 1).im := rfl
  have f2 : im3 M 2 = (M 2).im := rfl
  rw [e0, e1, e2, f0, f1, f2]
  linear_combination (-(H ^ 2 * P2 (re9 σ) (im9 σ)) + P * (2 * ε - 1) * H ^ 2 * P5 (re9 σ) (im9 σ) * cos α +
    P * (2 * ε - 1) * H * M3 (re9 σ) (im9 σ) (re3 M) (im3 M)) * h

/-- **C59** So the second intensity is right only if there is no chiral interference of the two kinds of moments (or in the
directions and for the beams where it does not count). -/
theorem mix2_minus_iff (P ε : ℝ) (N : ℂ) (σ : Fin 9 → ℂ) (hσ : Symmetric σ) (M : Fin 3 → ℂ) (H α : ℝ) :
    mix2_minus N.re N.im (re9 σ) (im9 σ) (re3 M) (im3 M) P ε H α = powderIntensity (-(P * (2 * ε - 1))) N σ M H α ↔
      (P = 0 ∨ ε = 1 / 2 ∨ H = 0 ∨ sin α = 0 ∨ M3 (re9 σ) (im9 σ) (re3 M) (im3 M) = 0) := by
  rw [mix2_minus_off _ _ _ _ hσ, sub_eq_self]
  have : (2 * ε - 1 = 0) ↔ ε = 1 / 2 := by constructor <;> intro h <;> linarith
  simp only [mul_eq_zero, this, pow_eq_zero_iff, ne_eq, OfNat.ofNat_ne_zero, not_false_eq_true, false_or]
  tauto

/-- **C59** Powder intensities of a physical beam are not negative. -/
theorem powderIntensity_nonneg {P : ℝ} (hP : |P| ≤ 1) (N : ℂ) (σ : Fin 9 → ℂ) (M : Fin 3 → ℂ) (H α : ℝ) :
    0 ≤ powderIntensity P N σ M H α := by
  unfold powderIntensity powderMean
  refine mul_nonneg (by positivity) (intervalIntegral.integral_nonneg (by positivity) fun ψ _ => ?_)
  apply crossSection_nonneg hP
  simp only [IsUnit3, fieldDir, Matrix.cons_val]
  have h1 := sin_sq_add_cos_sq α
  have h2 := sin_sq_add_cos_sq ψ
  linear_combination sin α ^ 2 * h2 + h1

/-- **C59** A fully polarised beam on a crystal with both kinds of moments: the computed second intensity is negative. -/
theorem mix2_minus_negative :
    mix2_minus 0 0 (re9 ![0, 0, Complex.I, 0, 0, 0, Complex.I, 0, 0]) (im9 ![0, 0, Complex.I, 0, 0, 0, Complex.I, 0, 0])
      (re3 ![0, 1, 0]) (im3 ![0, 1, 0]) 1 1 1 (π / 2) < 0 := by
  simp [mix2_minus, re9, im9, re3, im3, P1, P2, P3, P4, P5, O1, O2, M1, M2, M3]
  norm_num

/-- A symmetric tensor and a beam that meet the hypotheses. -/
example : Symmetric ![1, 2, 0, 2, 3, 0, 0, 0, 1] ∧ |(0.9 : ℝ)| ≤ 1 := ⟨by simp [Symmetric], by norm_num [abs_of_pos]⟩

end Cryspy.PowInt
