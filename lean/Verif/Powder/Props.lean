import Verif.Gen.Powder
import Mathlib.Analysis.SpecialFunctions.Pow.Deriv
import Mathlib.Analysis.SpecialFunctions.Sqrt
import Mathlib.Analysis.SpecialFunctions.Log.Deriv
import Mathlib.Analysis.SpecialFunctions.Trigonometric.Deriv
import Mathlib.Analysis.Calculus.Deriv.Inv
import Mathlib.Analysis.SpecialFunctions.Gaussian.GaussianIntegral
import Mathlib.Analysis.SpecialFunctions.ImproperIntegrals
import Mathlib.Analysis.Real.Pi.Bounds
import Mathlib.MeasureTheory.Measure.Haar.NormedSpace

/-!
# C28: powder profile functions at constant wavelength

The model (Verif/Gen/Powder.lean) is generated from A_functions_base/powder_diffraction_const_wavelength.py.  Derivatives are Mathlib's
`HasDerivAt`, areas are Lebesgue integrals over the whole line in degrees, directions are unit vectors.
-/

namespace Cryspy.Powder

open Real

/-- differentiate by the algebraic rules -/
macro "phd" : tactic => `(tactic| repeat' (first
  | with_reducible assumption
  | with_reducible exact hasDerivAt_id' _
  | with_reducible exact hasDerivAt_const _ _
  | with_reducible apply HasDerivAt.fun_add
  | with_reducible apply HasDerivAt.fun_sub
  | with_reducible apply HasDerivAt.fun_neg
  | with_reducible apply HasDerivAt.fun_mul
  | with_reducible apply HasDerivAt.fun_div
  | with_reducible apply HasDerivAt.fun_pow
  | with_reducible apply HasDerivAt.exp
  | with_reducible apply HasDerivAt.sin
  | with_reducible apply HasDerivAt.cos
  | with_reducible apply HasDerivAt.sqrt))

/-! ### Lorentz factor -/

/-- C28, neutrons (`k = 0`): the reported derivative of the Lorentz factor is the derivative. -/
theorem d_lorentz_factor_neutrons {t c : ℝ} (h : sin (1 / 2 * t) * sin t ≠ 0) :
    HasDerivAt (fun t => lorentz_factor t 0 c) (d_lorentz_factor t 0 c) t := by
  unfold lorentz_factor d_lorentz_factor
  dsimp only
  apply HasDerivAt.congr_deriv
  · phd
  · have h1 := left_ne_zero_of_mul h
    have h2 := right_ne_zero_of_mul h
    simp only [Nat.cast_ofNat, Nat.add_one_sub_one, pow_one]
    field_simp
    ring

/-- C28 is false with a monochromator correction: at 90° the reported derivative is wrong for every `k` other than 0 and 1. -/
theorem d_lorentz_factor_wrong {k : ℝ} (c : ℝ) (h0 : k ≠ 0) (h1 : k ≠ 1) :
    ¬ HasDerivAt (fun t => lorentz_factor t k c) (d_lorentz_factor (π / 2) k c) (π / 2) := by
  intro h
  have hs : sin (1 / 2 * (π / 2)) = √2 / 2 := by rw [show 1 / 2 * (π / 2) = π / 4 by ring, sin_pi_div_four]
  have hc : cos (1 / 2 * (π / 2)) = √2 / 2 := by rw [show 1 / 2 * (π / 2) = π / 4 by ring, cos_pi_div_four]
  have hr : 0 < √(2:ℝ) := Real.sqrt_pos.2 (by norm_num)
  have hq : √(2:ℝ) ^ 2 = 2 := Real.sq_sqrt (by norm_num)
  have hd : sin (1 / 2 * (π / 2)) * sin (π / 2) ≠ 0 := by rw [hs, sin_pi_div_two]; positivity
  have ht : HasDerivAt (fun t => lorentz_factor t k c) (-(1 - k) * (√2 / 4) / (1 / 2)) (π / 2) := by
    unfold lorentz_factor
    dsimp only
    apply HasDerivAt.congr_deriv
    · phd
    · rw [hs, hc, sin_pi_div_two, cos_pi_div_two]
      simp only [Nat.cast_ofNat, Nat.add_one_sub_one, pow_one]
      rw [show (√2 / 2 * 1 : ℝ) ^ 2 = 1 / 2 by rw [mul_one, div_pow, hq]; norm_num]
      ring
  have e := h.unique ht
  unfold d_lorentz_factor at e
  dsimp only at e
  rw [hs, hc, sin_pi_div_two, cos_pi_div_two] at e
  have e2 : (1 - k) * k * √2 = 0 := by
    field_simp at e
    grind
  rcases mul_eq_zero.1 e2 with e3 | e3
  · rcases mul_eq_zero.1 e3 with e4 | e4
    · exact h1 (by linarith)
    · exact h0 e4
  · exact hr.ne' e3

/-- C28: the Lorentz factor is positive for scattering angles between 0 and 180°. -/
theorem lorentz_factor_pos {t k c : ℝ} (h1 : 0 < t) (h2 : t < π) (hk : 0 ≤ k) (hk1 : k < 1) (hc : 0 ≤ c) : 0 < lorentz_factor t k c := by
  unfold lorentz_factor
  dsimp only
  have a := sin_pos_of_pos_of_lt_pi h1 h2
  have b := sin_pos_of_pos_of_lt_pi (x := 1 / 2 * t) (by linarith) (by linarith)
  have : 0 < 1 - k := by linarith
  positivity

/-! ### asymmetry -/

theorem hasDerivAt_f_a (z : ℝ) : HasDerivAt f_a (d_f_a z) z := by
  unfold f_a d_f_a
  apply HasDerivAt.congr_deriv
  · phd
  · simp only [Nat.cast_ofNat, Nat.add_one_sub_one, pow_one]
    ring

theorem hasDerivAt_f_b (z : ℝ) : HasDerivAt f_b (d_f_b z) z := by
  have := hasDerivAt_f_a z
  unfold f_b d_f_b
  dsimp only
  apply HasDerivAt.congr_deriv
  · phd
  · simp only [Nat.cast_ofNat, Nat.add_one_sub_one, pow_one]
    ring

/-- C28: the reported derivatives of the asymmetry factor are the derivatives. -/
theorem d_asymmetry_spec (z t p1 p2 p3 p4 : ℝ) :
    HasDerivAt f_a (d_f_a z) z ∧ HasDerivAt f_b (d_f_b z) z ∧
    HasDerivAt (fun x => asymmetry_factor x t p1 p2 p3 p4) (d_asymmetry_z z t p1 p2 p3 p4) z ∧
    HasDerivAt (fun x => asymmetry_factor z t x p2 p3 p4) (d_asymmetry_p_1 z t p1 p2 p3 p4) p1 ∧
    HasDerivAt (fun x => asymmetry_factor z t p1 x p3 p4) (d_asymmetry_p_2 z t p1 p2 p3 p4) p2 ∧
    HasDerivAt (fun x => asymmetry_factor z t p1 p2 x p4) (d_asymmetry_p_3 z t p1 p2 p3 p4) p3 ∧
    HasDerivAt (fun x => asymmetry_factor z t p1 p2 p3 x) (d_asymmetry_p_4 z t p1 p2 p3 p4) p4 := by
  have ha := hasDerivAt_f_a z
  have hb := hasDerivAt_f_b z
  refine ⟨ha, hb, ?_, ?_, ?_, ?_, ?_⟩
  · unfold asymmetry_factor d_asymmetry_z
    apply HasDerivAt.congr_deriv
    · dsimp only; phd
    · ring
  · unfold asymmetry_factor d_asymmetry_p_1
    apply HasDerivAt.congr_deriv
    · dsimp only; phd
    · ring
  · unfold asymmetry_factor d_asymmetry_p_2
    apply HasDerivAt.congr_deriv
    · dsimp only; phd
    · ring
  · unfold asymmetry_factor d_asymmetry_p_3
    apply HasDerivAt.congr_deriv
    · dsimp only; phd
    · ring
  · unfold asymmetry_factor d_asymmetry_p_4
    apply HasDerivAt.congr_deriv
    · dsimp only; phd
    · ring

/-- C28: the correction of the asymmetry factor is antisymmetric about the peak, and absent at the peak and without parameters. -/
theorem asymmetry_odd (z t p1 p2 p3 p4 : ℝ) :
    asymmetry_factor (-z) t p1 p2 p3 p4 - 1 = -(asymmetry_factor z t p1 p2 p3 p4 - 1) ∧
    asymmetry_factor 0 t p1 p2 p3 p4 = 1 ∧ asymmetry_factor z t 0 0 0 0 = 1 := by
  refine ⟨?_, ?_, ?_⟩
  · unfold asymmetry_factor f_b f_a
    simp only [neg_sq]
    ring
  · unfold asymmetry_factor f_b f_a; simp
  · unfold asymmetry_factor; simp

/-! ### peak shapes -/

theorem gauss_pos {h : ℝ} (z : ℝ) (hh : 0 < h) : 0 < gauss z h := by
  unfold gauss
  have : 0 < log 2 := log_pos (by norm_num)
  have := pi_pos
  positivity

theorem lorentz_pos {h : ℝ} (z : ℝ) (hh : 0 < h) : 0 < lorentz z h := by
  unfold lorentz
  have := pi_pos
  positivity

/-- C28: both peak shapes are positive, symmetric about the peak, and fall to half of their height at half of the width `h`
(the width is in degrees, the distance in radians). -/
theorem peak_shapes (z : ℝ) {h : ℝ} (hh : 0 < h) :
    (0 < gauss z h ∧ gauss (-z) h = gauss z h ∧ gauss (h / 2 * (π / 180)) h = gauss 0 h / 2) ∧
    (0 < lorentz z h ∧ lorentz (-z) h = lorentz z h ∧ lorentz (h / 2 * (π / 180)) h = lorentz 0 h / 2) := by
  have hp := pi_pos
  refine ⟨⟨gauss_pos z hh, ?_, ?_⟩, lorentz_pos z hh, ?_, ?_⟩
  · unfold gauss; simp only [neg_mul, neg_div, neg_sq]
  · unfold gauss
    dsimp only
    rw [show -(4 * log 2 * (1 / h) ^ 2) * (h / 2 * (π / 180) * 180 / π) ^ 2 = -log 2 by field_simp; ring, exp_neg,
      exp_log (by norm_num)]
    simp; ring
  · unfold lorentz; simp only [neg_mul, neg_div, neg_sq]
  · unfold lorentz
    dsimp only
    field_simp
    ring

/-- C28: the area of both peak shapes over the whole line, in degrees, is one. -/
theorem peak_areas {h : ℝ} (hh : 0 < h) :
    ∫ x : ℝ, gauss (x * (π / 180)) h = 1 ∧ ∫ x : ℝ, lorentz (x * (π / 180)) h = 1 := by
  have hp := pi_pos
  have hl : 0 < log 2 := log_pos (by norm_num)
  constructor
  · have e : ∀ x : ℝ, gauss (x * (π / 180)) h = 2 * (1 / h) * √(log 2 / π) * exp (-(4 * log 2 * (1 / h) ^ 2) * x ^ 2) := by
      intro x
      unfold gauss
      dsimp only
      rw [show x * (π / 180) * 180 / π = x by field_simp]
    simp only [e]
    rw [MeasureTheory.integral_const_mul, integral_gaussian]
    rw [mul_assoc, ← Real.sqrt_mul (by positivity), show log 2 / π * (π / (4 * log 2 * (1 / h) ^ 2)) = (h / 2) ^ 2 by field_simp; norm_num,
      Real.sqrt_sq (by positivity)]
    field_simp
  · have e : ∀ x : ℝ, lorentz (x * (π / 180)) h = 2 / π * (1 / h) * (1 + (2 / h * x) ^ 2)⁻¹ := by
      intro x
      unfold lorentz
      dsimp only
      rw [show x * (π / 180) * 180 / π = x by field_simp, div_eq_mul_inv]
      congr 2
      ring
    simp only [e]
    rw [MeasureTheory.integral_const_mul, MeasureTheory.Measure.integral_comp_mul_left (fun x => (1 + x ^ 2)⁻¹) (2 / h),
      integral_univ_inv_one_add_sq, abs_of_pos (by positivity)]
    simp
    field_simp

theorem gauss_hasDeriv_z (z : ℝ) {h : ℝ} (hh : h ≠ 0) :
    HasDerivAt (fun z => gauss z h) (4 * log 2 * (1 / h) ^ 2 * d_gauss_z z h) z := by
  have hp := pi_pos.ne'
  unfold gauss d_gauss_z
  dsimp only
  apply HasDerivAt.congr_deriv
  · phd
  · simp only [Nat.cast_ofNat, Nat.add_one_sub_one, pow_one]
    generalize exp _ = E
    generalize √_ = S
    field_simp
    ring

/-- C28 is false for the Gaussian: the derivative over the position misses the factor `4 ln2/h²`, and is right only at the peak or
for the one width with `h² = 4 ln 2`. -/
theorem d_gauss_z_iff (z : ℝ) {h : ℝ} (hh : 0 < h) :
    HasDerivAt (fun z => gauss z h) (d_gauss_z z h) z ↔ z = 0 ∨ h ^ 2 = 4 * log 2 := by
  have hp := pi_pos
  have ht := gauss_hasDeriv_z z hh.ne'
  have key : d_gauss_z z h = 0 ↔ z = 0 := by
    have e : d_gauss_z z h = -2 * (180 / π) ^ 2 * gauss z h * z := by unfold d_gauss_z gauss; ring
    rw [e]
    have hg := gauss_pos z hh
    constructor
    · intro e2
      rcases mul_eq_zero.1 e2 with e3 | e3
      · have : 0 < 2 * (180 / π) ^ 2 * gauss z h := by positivity
        linarith
      · exact e3
    · rintro rfl; ring
  constructor
  · intro h1
    have e := h1.unique ht
    by_cases hz : z = 0
    · exact .inl hz
    · right
      have hne : d_gauss_z z h ≠ 0 := fun e => hz (key.1 e)
      have : 4 * log 2 * (1 / h) ^ 2 = 1 := by
        apply mul_right_cancel₀ hne
        rw [one_mul]; exact e.symm
      field_simp at this
      linarith
  · rintro (h0 | h2)
    · rw [key.2 h0, mul_zero] at ht
      rw [key.2 h0]
      exact ht
    · convert ht using 1
      rw [show 4 * log 2 * (1 / h) ^ 2 = 1 by rw [← h2]; field_simp, one_mul]

/-- C28: the derivatives of the Gaussian over the width and of the Lorentzian over the position are right. -/
theorem d_peak_spec (z : ℝ) {h : ℝ} (hh : 0 < h) :
    HasDerivAt (fun h => gauss z h) (d_gauss_h_pv z h) h ∧ HasDerivAt (fun z => lorentz z h) (d_lorentz_z z h) z := by
  have hp := pi_pos.ne'
  have hh' := hh.ne'
  constructor
  · unfold gauss d_gauss_h_pv
    dsimp only
    apply HasDerivAt.congr_deriv
    · phd
    · simp only [Nat.cast_ofNat, Nat.add_one_sub_one, pow_one]
      generalize exp _ = E
      generalize √_ = S
      field_simp
      ring
  · have hd : 1 + 4 * (1 / h) ^ 2 * (z * 180 / π) ^ 2 ≠ 0 := by positivity
    unfold lorentz d_lorentz_z
    dsimp only
    apply HasDerivAt.congr_deriv
    · phd
    · simp only [Nat.cast_ofNat, Nat.add_one_sub_one, pow_one]
      generalize hD : 1 + 4 * (1 / h) ^ 2 * (z * 180 / π) ^ 2 = D at *
      field_simp
      ring

/-- C28 is false for the Lorentzian over the width: inside the half width the true derivative is not positive, the reported one
is not negative, and they never agree. -/
theorem d_lorentz_h_pv_wrong {z h : ℝ} (hh : 0 < h) (hz : 2 * |z * 180 / π| ≤ h) :
    ¬ HasDerivAt (fun h => lorentz z h) (d_lorentz_h_pv z h) h := by
  have hp := pi_pos
  have hh' := hh.ne'
  intro hw
  have hsq : 4 * (z * 180 / π) ^ 2 ≤ h ^ 2 := by
    have := abs_nonneg (z * 180 / π)
    nlinarith [sq_abs (z * 180 / π)]
  have ht : HasDerivAt (fun h => lorentz z h) (2 / π * (4 * (z * 180 / π) ^ 2 - h ^ 2) / (h ^ 2 + 4 * (z * 180 / π) ^ 2) ^ 2) h := by
    have hd : 1 + 4 * (1 / h) ^ 2 * (z * 180 / π) ^ 2 ≠ 0 := by positivity
    unfold lorentz
    dsimp only
    apply HasDerivAt.congr_deriv
    · phd
    · simp only [Nat.cast_ofNat, Nat.add_one_sub_one, pow_one]
      generalize z * 180 / π = Z at *
      have : h ^ 2 + 4 * Z ^ 2 ≠ 0 := by positivity
      field_simp
      ring
  have e := hw.unique ht
  unfold d_lorentz_h_pv at e
  dsimp only at e
  generalize z * 180 / π = Z at *
  rcases eq_or_ne Z 0 with rfl | h0
  · rw [show (2 / π * (h + 4 * (0:ℝ) ^ 2) - 2 / π * h) / (h + 4 * 0 ^ 2) ^ 2 = 0 by simp] at e
    have : 2 / π * (4 * (0:ℝ) ^ 2 - h ^ 2) / (h ^ 2 + 4 * 0 ^ 2) ^ 2 = -(2 / π / h ^ 2) := by field_simp; ring
    rw [this] at e
    have : 0 < 2 / π / h ^ 2 := by positivity
    linarith
  · have hZ : 0 < Z ^ 2 := by positivity
    have h1 : 0 < (2 / π * (h + 4 * Z ^ 2) - 2 / π * h) / (h + 4 * Z ^ 2) ^ 2 := by
      rw [show 2 / π * (h + 4 * Z ^ 2) - 2 / π * h = 2 / π * (4 * Z ^ 2) by ring]; positivity
    have h2 : 2 / π * (4 * Z ^ 2 - h ^ 2) / (h ^ 2 + 4 * Z ^ 2) ^ 2 ≤ 0 := by
      apply div_nonpos_of_nonpos_of_nonneg _ (by positivity)
      apply mul_nonpos_of_nonneg_of_nonpos (by positivity)
      linarith
    linarith

/-! ### widths -/

/-- C28: the Gaussian width is never zero: the square is clamped at the floating-point epsilon. -/
theorem h_g_pos (u v w i t : ℝ) : 0 < h_g u v w i t := by
  unfold h_g
  dsimp only
  apply Real.sqrt_pos.2
  split
  · norm_num
  · rename_i h
    exact lt_of_lt_of_le (by norm_num) (not_lt.1 h)

theorem h_g_local {f : ℝ → ℝ} {f' x : ℝ} (hf : HasDerivAt f f' x) (h : 1 / 4503599627370496 < f x) :
    HasDerivAt (fun x => √(if f x < 1 / 4503599627370496 then 1 / 4503599627370496 else f x)) (1 / 2 * f' / √(f x)) x := by
  have h0 : f x ≠ 0 := by intro e; rw [e] at h; norm_num at h
  have hev : (fun x => √(if f x < 1 / 4503599627370496 then 1 / 4503599627370496 else f x)) =ᶠ[nhds x] fun x => √(f x) := by
    filter_upwards [hf.continuousAt.eventually (lt_mem_nhds h)] with y hy
    rw [if_neg (not_lt.2 hy.le)]
  refine ((HasDerivAt.sqrt hf h0).congr_of_eventuallyEq hev).congr_deriv ?_
  ring

/-- the quantity under the root of the Gaussian width (Caglioti formula), as in the documentation of the program -/
noncomputable def caglioti (u v w i t : ℝ) : ℝ := u * tan (1 / 2 * t) ^ 2 + v * tan (1 / 2 * t) + w + i * (1 / cos (1 / 2 * t) ^ 2)

/-- C28: the derivatives of the Gaussian width are right while the Caglioti formula is above the clamp. -/
theorem d_h_g_spec {u v w i t : ℝ} (h : 1 / 4503599627370496 < caglioti u v w i t) :
    HasDerivAt (fun x => h_g x v w i t) (d_h_g_u u v w i t) u ∧ HasDerivAt (fun x => h_g u x w i t) (d_h_g_v u v w i t) v ∧
    HasDerivAt (fun x => h_g u v x i t) (d_h_g_w u v w i t) w ∧ HasDerivAt (fun x => h_g u v w x t) (d_h_g_i_g u v w i t) i := by
  have hc := fun t a : ℝ => hasDerivAt_const t a
  unfold caglioti at h
  have hn := not_lt.2 h.le
  refine ⟨?_, ?_, ?_, ?_⟩
  · refine (h_g_local (f := fun x => x * tan (1 / 2 * t) ^ 2 + v * tan (1 / 2 * t) + w + i * (1 / cos (1 / 2 * t) ^ 2)) (by phd) h).congr_deriv ?_
    unfold d_h_g_u; dsimp only; rw [if_neg hn]; ring
  · refine (h_g_local (f := fun x => u * tan (1 / 2 * t) ^ 2 + x * tan (1 / 2 * t) + w + i * (1 / cos (1 / 2 * t) ^ 2)) (by phd) h).congr_deriv ?_
    unfold d_h_g_v; dsimp only; rw [if_neg hn]; ring
  · refine (h_g_local (f := fun x => u * tan (1 / 2 * t) ^ 2 + v * tan (1 / 2 * t) + x + i * (1 / cos (1 / 2 * t) ^ 2)) (by phd) h).congr_deriv ?_
    unfold d_h_g_w; dsimp only; rw [if_neg hn]; ring
  · refine (h_g_local (f := fun x => u * tan (1 / 2 * t) ^ 2 + v * tan (1 / 2 * t) + w + x * (1 / cos (1 / 2 * t) ^ 2)) (by phd) h).congr_deriv ?_
    unfold d_h_g_i_g; dsimp only; rw [if_neg hn]; ring

/-- C28 is false at the clamp: where the Caglioti formula is below it the width does not react to `w`, but the reported derivative is
not zero. -/
theorem d_h_g_clamped_wrong {u v w i t : ℝ} (h : caglioti u v w i t < 1 / 4503599627370496) :
    ¬ HasDerivAt (fun x => h_g u v x i t) (d_h_g_w u v w i t) w := by
  unfold caglioti at h
  intro hw
  have ht : HasDerivAt (fun x => h_g u v x i t) 0 w := by
    refine (hasDerivAt_const w (√(1 / 4503599627370496))).congr_of_eventuallyEq ?_
    have hcont : Continuous fun x : ℝ => u * tan (1 / 2 * t) ^ 2 + v * tan (1 / 2 * t) + x + i * (1 / cos (1 / 2 * t) ^ 2) := by fun_prop
    filter_upwards [hcont.continuousAt.eventually (gt_mem_nhds h)] with y hy
    unfold h_g
    dsimp only
    rw [if_pos hy]
  have e := hw.unique ht
  have hp := h_g_pos u v w i t
  have : d_h_g_w u v w i t = 1 / 2 / h_g u v w i t := rfl
  rw [this] at e
  have : 0 < 1 / 2 / h_g u v w i t := by positivity
  linarith

/-- C28: the derivatives of the Lorentzian width are right. -/
theorem d_h_l_spec (x y t : ℝ) : HasDerivAt (fun x => h_l x y t) (d_h_l_x x y t) x ∧ HasDerivAt (fun y => h_l x y t) (d_h_l_y x y t) y := by
  unfold h_l d_h_l_x d_h_l_y
  dsimp only
  constructor
  · apply HasDerivAt.congr_deriv
    · phd
    · ring
  · apply HasDerivAt.congr_deriv
    · phd
    · ring

/-- the sum under the fifth root of the total width -/
noncomputable def tch (g l : ℝ) : ℝ :=
  g ^ 5 + 2.69269 * g ^ 4 * l + 2.42843 * g ^ 3 * l ^ 2 + 4.47163 * g ^ 2 * l ^ 3 + 0.07842 * g * l ^ 4 + l ^ 5

theorem h_pv_eq (g l : ℝ) : h_pv g l = tch g l ^ (1 / 5 : ℝ) := by
  unfold h_pv tch
  dsimp only
  rw [Real.rpow_eq_pow]
  congr 1
  ring

theorem tch_pos {g l : ℝ} (hg : 0 < g) (hl : 0 ≤ l) : 0 < tch g l := by unfold tch; positivity

theorem pow_five_root {x : ℝ} (hx : 0 ≤ x) : (x ^ 5) ^ (1 / 5 : ℝ) = x := by
  rw [← Real.rpow_natCast, ← Real.rpow_mul hx]; norm_num

/-- C28: the total width is positive, not smaller than either width, grows with both, and reduces to the Gaussian or Lorentzian
width when the other is absent. -/
theorem h_pv_spec {g l : ℝ} (hg : 0 ≤ g) (hl : 0 ≤ l) :
    max g l ≤ h_pv g l ∧ h_pv g 0 = g ∧ h_pv 0 l = l ∧ (∀ g' l', g ≤ g' → l ≤ l' → h_pv g l ≤ h_pv g' l') := by
  refine ⟨max_le ?_ ?_, ?_, ?_, ?_⟩
  · rw [h_pv_eq]
    conv_lhs => rw [← pow_five_root hg]
    apply Real.rpow_le_rpow (by positivity) _ (by norm_num)
    unfold tch
    have : 0 ≤ 2.69269 * g ^ 4 * l + 2.42843 * g ^ 3 * l ^ 2 + 4.47163 * g ^ 2 * l ^ 3 + 0.07842 * g * l ^ 4 + l ^ 5 := by positivity
    linarith
  · rw [h_pv_eq]
    conv_lhs => rw [← pow_five_root hl]
    apply Real.rpow_le_rpow (by positivity) _ (by norm_num)
    unfold tch
    have : 0 ≤ g ^ 5 + 2.69269 * g ^ 4 * l + 2.42843 * g ^ 3 * l ^ 2 + 4.47163 * g ^ 2 * l ^ 3 + 0.07842 * g * l ^ 4 := by positivity
    linarith
  · rw [h_pv_eq, show tch g 0 = g ^ 5 by unfold tch; ring, pow_five_root hg]
  · rw [h_pv_eq, show tch 0 l = l ^ 5 by unfold tch; ring, pow_five_root hl]
  · intro g' l' h1 h2
    rw [h_pv_eq, h_pv_eq]
    have h3 : 0 ≤ g' := hg.trans h1
    have h4 : 0 ≤ l' := hl.trans h2
    apply Real.rpow_le_rpow (by unfold tch; positivity) _ (by norm_num)
    unfold tch
    gcongr

/-- C28 is false for the total width: both reported derivatives have the wrong sign. -/
theorem d_h_pv_negated {g l : ℝ} (hg : 0 < g) (hl : 0 ≤ l) :
    (HasDerivAt (fun x => h_pv x l) (-d_h_pv_h_g g l) g ∧ ¬ HasDerivAt (fun x => h_pv x l) (d_h_pv_h_g g l) g) ∧
    (HasDerivAt (fun x => h_pv g x) (-d_h_pv_h_l g l) l ∧ ¬ HasDerivAt (fun x => h_pv g x) (d_h_pv_h_l g l) l) := by
  have hp := tch_pos hg hl
  have hr : 0 < tch g l ^ (-(4 / 5) : ℝ) := Real.rpow_pos_of_pos hp _
  have e1 : d_h_pv_h_g g l = -(1 / 5) * tch g l ^ (-(4 / 5) : ℝ) *
      (5 * g ^ 4 + 4 * 2.69269 * g ^ 3 * l + 3 * 2.42843 * g ^ 2 * l ^ 2 + 2 * 4.47163 * g * l ^ 3 + 0.07842 * l ^ 4) := by
    unfold d_h_pv_h_g tch
    dsimp only
    rw [Real.rpow_eq_pow]
    congr 1
    · congr 2; ring
    · ring
  have e2 : d_h_pv_h_l g l = -(1 / 5) * tch g l ^ (-(4 / 5) : ℝ) *
      (2.69269 * g ^ 4 + 2 * 2.42843 * g ^ 3 * l + 3 * 4.47163 * g ^ 2 * l ^ 2 + 4 * 0.07842 * g * l ^ 3 + 5 * l ^ 4) := by
    unfold d_h_pv_h_l tch
    dsimp only
    rw [Real.rpow_eq_pow]
    congr 1
    · congr 2; ring
    · ring
  have t1 : HasDerivAt (fun x => h_pv x l) (-d_h_pv_h_g g l) g := by
    simp only [h_pv_eq]
    have hb : HasDerivAt (fun x => tch x l)
        (5 * g ^ 4 + 4 * 2.69269 * g ^ 3 * l + 3 * 2.42843 * g ^ 2 * l ^ 2 + 2 * 4.47163 * g * l ^ 3 + 0.07842 * l ^ 4) g := by
      unfold tch
      apply HasDerivAt.congr_deriv
      · phd
      · simp only [Nat.cast_ofNat, Nat.add_one_sub_one, pow_one]
        ring
    refine (HasDerivAt.rpow_const hb (.inl hp.ne')).congr_deriv ?_
    rw [e1, show (1 / 5 - 1 : ℝ) = -(4 / 5) by norm_num]
    ring
  have t2 : HasDerivAt (fun x => h_pv g x) (-d_h_pv_h_l g l) l := by
    simp only [h_pv_eq]
    have hb : HasDerivAt (fun x => tch g x)
        (2.69269 * g ^ 4 + 2 * 2.42843 * g ^ 3 * l + 3 * 4.47163 * g ^ 2 * l ^ 2 + 4 * 0.07842 * g * l ^ 3 + 5 * l ^ 4) l := by
      unfold tch
      apply HasDerivAt.congr_deriv
      · phd
      · simp only [Nat.cast_ofNat, Nat.add_one_sub_one, pow_one]
        ring
    refine (HasDerivAt.rpow_const hb (.inl hp.ne')).congr_deriv ?_
    rw [e2, show (1 / 5 - 1 : ℝ) = -(4 / 5) by norm_num]
    ring
  have p1 : d_h_pv_h_g g l < 0 := by
    rw [e1]
    have : 0 < 1 / 5 * tch g l ^ (-(4 / 5) : ℝ) *
      (5 * g ^ 4 + 4 * 2.69269 * g ^ 3 * l + 3 * 2.42843 * g ^ 2 * l ^ 2 + 2 * 4.47163 * g * l ^ 3 + 0.07842 * l ^ 4) := by positivity
    linarith
  have p2 : d_h_pv_h_l g l < 0 := by
    rw [e2]
    have : 0 < 1 / 5 * tch g l ^ (-(4 / 5) : ℝ) *
      (2.69269 * g ^ 4 + 2 * 2.42843 * g ^ 3 * l + 3 * 4.47163 * g ^ 2 * l ^ 2 + 4 * 0.07842 * g * l ^ 3 + 5 * l ^ 4) := by positivity
    linarith
  refine ⟨⟨t1, fun h => ?_⟩, t2, fun h => ?_⟩
  · have := h.unique t1; linarith
  · have := h.unique t2; linarith

/-- C28: the mixing parameter lies between 0 and 1, is 0 for a purely Gaussian and 1 for a purely Lorentzian width, and grows with the
Lorentzian part. -/
theorem eta_spec {l h : ℝ} (hl : 0 ≤ l) (hh : 0 < h) (hlh : l ≤ h) :
    0 ≤ eta l h ∧ eta l h ≤ 1 ∧ (eta l h = 0 ↔ l = 0) ∧ (eta l h = 1 ↔ l = h) ∧ (∀ l', l ≤ l' → l' ≤ h → eta l h ≤ eta l' h) := by
  have key : ∀ a b : ℝ, 0 ≤ a → a ≤ b → b ≤ h → eta a h ≤ eta b h ∧ (eta a h = eta b h → a = b) := by
    intro a b h0 h1 h2
    unfold eta
    dsimp only
    have r0 : 0 ≤ a / h := by positivity
    have r1 : a / h ≤ b / h := by gcongr
    have r2 : b / h ≤ 1 := (div_le_one hh).2 h2
    have hab : a / h = b / h → a = b := fun e => by field_simp at e; exact e
    generalize a / h = x at *
    generalize b / h = y at *
    have e : 136603 / 100000 * y + -(47719 / 100000) * y ^ 2 + 2779 / 25000 * y ^ 2 * y -
        (136603 / 100000 * x + -(47719 / 100000) * x ^ 2 + 2779 / 25000 * x ^ 2 * x) =
        (y - x) * (136603 / 100000 - 47719 / 100000 * (x + y) + 2779 / 25000 * (x ^ 2 + x * y + y ^ 2)) := by ring
    have hpos : 0 < 136603 / 100000 - 47719 / 100000 * (x + y) + 2779 / 25000 * (x ^ 2 + x * y + y ^ 2) := by
      have hy : 0 ≤ y := r0.trans r1
      have : 0 ≤ x * y := mul_nonneg r0 hy
      nlinarith [sq_nonneg x, sq_nonneg y]
    constructor
    · have := mul_nonneg (sub_nonneg.2 r1) hpos.le
      linarith
    · intro e2
      have e3 : (y - x) * (136603 / 100000 - 47719 / 100000 * (x + y) + 2779 / 25000 * (x ^ 2 + x * y + y ^ 2)) = 0 := by
        rw [← e]; linarith
      rcases mul_eq_zero.1 e3 with h4 | h4
      · exact hab (by linarith)
      · linarith
  have e0 : eta 0 h = 0 := by unfold eta; simp
  have e1 : eta h h = 1 := by unfold eta; simp only [div_self hh.ne']; norm_num
  have k0 := key 0 l le_rfl hl hlh
  have k1 := key l h hl hlh le_rfl
  rw [e0] at k0
  rw [e1] at k1
  refine ⟨k0.1, k1.1, ⟨fun e => (k0.2 e.symm).symm, fun e => by rw [e, e0]⟩, ⟨fun e => k1.2 e, fun e => by rw [e, e1]⟩,
    fun l' h1 h2 => (key l l' hl h1 h2).1⟩

/-- C28: the derivatives of the mixing parameter are right. -/
theorem d_eta_spec (l : ℝ) {h : ℝ} (hh : h ≠ 0) :
    HasDerivAt (fun x => eta x h) (d_eta_h_l l h) l ∧ HasDerivAt (fun x => eta l x) (d_eta_h_pv l h) h := by
  unfold eta d_eta_h_l d_eta_h_pv
  dsimp only
  constructor
  · apply HasDerivAt.congr_deriv
    · phd
    · simp only [Nat.cast_ofNat, Nat.add_one_sub_one, pow_one]
      field_simp
      ring
  · apply HasDerivAt.congr_deriv
    · phd
    · simp only [Nat.cast_ofNat, Nat.add_one_sub_one, pow_one]
      field_simp
      ring

/-! ### the profile -/

/-- the symmetric part of the profile: Lorentzian and Gaussian of the same width mixed by `eta` -/
noncomputable def pseudoVoigt (d hg hl c : ℝ) : ℝ :=
  eta hl (h_pv hg hl) * lorentz d (h_pv hg hl * c) + (1 - eta hl (h_pv hg hl)) * gauss d (h_pv hg hl * c)

theorem h_pv_pos {g l : ℝ} (hg : 0 < g) (hl : 0 ≤ l) : 0 < h_pv g l := by
  have := (h_pv_spec hg.le hl).1
  exact lt_of_lt_of_le hg ((le_max_left _ _).trans this)

theorem pseudoVoigt_pos {d g l c : ℝ} (hg : 0 < g) (hl : 0 ≤ l) (hc : 0 < c) : 0 < pseudoVoigt d g l c := by
  have hh := h_pv_pos hg hl
  have hle := (le_max_right _ _).trans (h_pv_spec hg.le hl).1
  obtain ⟨h0, h1, h2, -, -⟩ := eta_spec hl hh hle
  have a := lorentz_pos d (mul_pos hh hc)
  have b := gauss_pos d (mul_pos hh hc)
  unfold pseudoVoigt
  generalize eta l (h_pv g l) = e at *
  rcases eq_or_lt_of_le h0 with rfl | h0
  · simpa using b
  · have : 0 < e * lorentz d (h_pv g l * c) := by positivity
    have : 0 ≤ (1 - e) * gauss d (h_pv g l * c) := mul_nonneg (by linarith) b.le
    linarith

theorem profile_eq (t t0 u v w i x y p1 p2 p3 p4 : ℝ) : profile t t0 u v w i x y p1 p2 p3 p4 =
    pseudoVoigt (t - t0) (h_g u v w i t) (h_l x y t) 1 *
      asymmetry_factor ((t - t0) * 180 / π / h_pv (h_g u v w i t) (h_l x y t)) t p1 p2 p3 p4 := by
  unfold profile pseudoVoigt
  simp only [mul_one]

theorem profile_2d_eq (t φ t0 u v w i x y p1 p2 p3 p4 q : ℝ) : profile_2d t φ t0 u v w i x y p1 p2 p3 p4 q =
    pseudoVoigt (t - t0) (h_g u v w i t) (h_l x y t) (coeff_phi φ q) *
      asymmetry_factor ((t - t0) * 180 / π / (h_pv (h_g u v w i t) (h_l x y t) * coeff_phi φ q)) t p1 p2 p3 p4 := rfl

/-- C28: the factor by which the peaks widen along the ring is positive, equals 1 at `phi = 0` and `p_phi` at the opposite side, and its
derivative is right. -/
theorem coeff_phi_spec (φ : ℝ) {q : ℝ} (hq : 0 < q) :
    0 < coeff_phi φ q ∧ coeff_phi 0 q = 1 ∧ coeff_phi π q = q ∧ coeff_phi φ 1 = 1 ∧ HasDerivAt (fun q => coeff_phi φ q) (d_coeff_phi φ q) q := by
  unfold coeff_phi d_coeff_phi
  dsimp only
  refine ⟨?_, by rw [cos_zero]; ring, by rw [cos_pi]; ring, by ring, ?_⟩
  · have h1 := cos_le_one φ
    have h2 := neg_one_le_cos φ
    by_cases h : cos φ = 1
    · rw [h]; linarith
    · have : 0 < 1 - cos φ := by have := lt_of_le_of_ne h1 h; linarith
      have : 0 < q * (1 - cos φ) := by positivity
      nlinarith
  · apply HasDerivAt.congr_deriv
    · phd
    · ring

/-- C28: without asymmetry parameters every profile value is positive, on a line and on an area detector. -/
theorem profile_pos {t t0 φ u v w i x y q : ℝ} (hl : 0 ≤ h_l x y t) (hq : 0 < q) :
    0 < profile t t0 u v w i x y 0 0 0 0 ∧ 0 < profile_2d t φ t0 u v w i x y 0 0 0 0 q := by
  rw [profile_eq, profile_2d_eq, (asymmetry_odd _ _ 0 0 0 0).2.2, (asymmetry_odd _ _ 0 0 0 0).2.2, mul_one, mul_one]
  exact ⟨pseudoVoigt_pos (h_g_pos _ _ _ _ _) hl one_pos, pseudoVoigt_pos (h_g_pos _ _ _ _ _) hl (coeff_phi_spec φ hq).1⟩

/-- C28: with them the sign is that of the asymmetry factor. -/
theorem profile_sign {t t0 u v w i x y p1 p2 p3 p4 : ℝ} (hl : 0 ≤ h_l x y t) :
    0 ≤ profile t t0 u v w i x y p1 p2 p3 p4 ↔
      0 ≤ asymmetry_factor ((t - t0) * 180 / π / h_pv (h_g u v w i t) (h_l x y t)) t p1 p2 p3 p4 := by
  rw [profile_eq]
  have := pseudoVoigt_pos (d := t - t0) (h_g_pos u v w i t) hl one_pos
  exact ⟨fun h => nonneg_of_mul_nonneg_right h this, fun h => by positivity⟩

/-- C28, non-negativity, is false in general: away from the peak some value of the first asymmetry parameter makes the profile negative. -/
theorem profile_negative {t t0 u v w i x y : ℝ} (h1 : 0 < t) (h2 : t < π) (h3 : t ≠ t0) (hl : 0 ≤ h_l x y t) :
    ∃ p1, profile t t0 u v w i x y p1 0 0 0 < 0 := by
  have hh := h_pv_pos (h_g_pos u v w i t) hl
  have hp := pi_pos
  obtain ⟨z, hz⟩ : ∃ z, (t - t0) * 180 / π / h_pv (h_g u v w i t) (h_l x y t) = z := ⟨_, rfl⟩
  have hz0 : z ≠ 0 := by
    rw [← hz]
    have := sub_ne_zero.2 h3
    positivity
  have ht : tan (1 / 2 * t) ≠ 0 := (tan_pos_of_pos_of_lt_pi_div_two (by linarith) (by linarith)).ne'
  have hf : f_a z ≠ 0 := by
    unfold f_a
    have := exp_pos (-z ^ 2)
    positivity
  refine ⟨-2 / (f_a z * (1 / tan (1 / 2 * t))), ?_⟩
  by_contra hc
  rw [not_lt, profile_sign hl, hz] at hc
  unfold asymmetry_factor at hc
  dsimp only at hc
  rw [show -2 / (f_a z * (1 / tan (1 / 2 * t))) * f_a z + 0 * f_b z = -2 * tan (1 / 2 * t) by field_simp; ring] at hc
  rw [show (1 : ℝ) + -2 * tan (1 / 2 * t) * (1 / tan (1 / 2 * t)) + (0 * f_a z + 0 * f_b z) * (1 / tan t) = -1 by
    rw [mul_assoc, mul_one_div_cancel ht]; ring] at hc
  linarith

/-- C28: the area-detector profile reduces to the line profile on the ring's zero angle and when the ring does not widen. -/
theorem profile_2d_reduces (t φ t0 u v w i x y p1 p2 p3 p4 q : ℝ) :
    profile_2d t 0 t0 u v w i x y p1 p2 p3 p4 q = profile t t0 u v w i x y p1 p2 p3 p4 ∧
    profile_2d t φ t0 u v w i x y p1 p2 p3 p4 1 = profile t t0 u v w i x y p1 p2 p3 p4 := by
  rw [profile_2d_eq, profile_2d_eq, profile_eq]
  have e1 : coeff_phi 0 q = 1 := by unfold coeff_phi; rw [cos_zero]; ring
  have e2 : coeff_phi φ 1 = 1 := by unfold coeff_phi; ring
  rw [e1, e2, mul_one]
  exact ⟨rfl, rfl⟩

/-! ### detector angles -/

theorem norm_mul_cos_arctan2 (y x : ℝ) : √(x ^ 2 + y ^ 2) * cos (arctan2 y x) = x ∧ √(x ^ 2 + y ^ 2) * sin (arctan2 y x) = y := by
  have hn : ‖(⟨x, y⟩ : ℂ)‖ = √(x ^ 2 + y ^ 2) := by
    rw [Complex.norm_def, Complex.normSq_mk]; congr 1; ring
  unfold arctan2
  rw [← hn]
  exact ⟨Complex.norm_mul_cos_arg _, Complex.norm_mul_sin_arg _⟩

theorem arctan2_polar {r t : ℝ} (hr : 0 < r) (h1 : -π < t) (h2 : t ≤ π) : arctan2 (r * sin t) (r * cos t) = t := by
  unfold arctan2
  have := Complex.arg_mul_cos_add_sin_mul_I hr ⟨h1, h2⟩
  convert this using 2
  apply Complex.ext <;> simp [Complex.cos_ofReal_re, Complex.sin_ofReal_re, Complex.cos_ofReal_im, Complex.sin_ofReal_im]

/-- C28: both pairs of detector angles describe the same direction (unit vector along beam, in plane, and vertical). -/
theorem same_direction (t φ : ℝ) :
    cos (nu_by t φ) * cos (gamma_by t φ) = cos t ∧ cos (nu_by t φ) * sin (gamma_by t φ) = sin t * cos φ ∧
    sin (nu_by t φ) = sin t * sin φ := by
  have hb : -1 ≤ sin t * sin φ ∧ sin t * sin φ ≤ 1 := by
    have := sin_sq_add_cos_sq t; have := sin_sq_add_cos_sq φ
    have h1 : (sin t * sin φ) ^ 2 ≤ 1 := by
      rw [mul_pow]
      nlinarith [sq_nonneg (cos t), sq_nonneg (cos φ), sq_nonneg (sin t), sq_nonneg (sin φ)]
    constructor <;> nlinarith
  have e : cos (nu_by t φ) = √(cos t ^ 2 + (sin t * cos φ) ^ 2) := by
    unfold nu_by
    dsimp only
    rw [cos_arcsin]
    congr 1
    have := sin_sq_add_cos_sq t; have := sin_sq_add_cos_sq φ
    grind
  have := norm_mul_cos_arctan2 (sin t * cos φ) (cos t)
  refine ⟨?_, ?_, ?_⟩
  · rw [e]; exact this.1
  · rw [e]; exact this.2
  · unfold nu_by; exact sin_arcsin hb.1 hb.2

theorem same_direction' (g n : ℝ) :
    cos (ttheta_by g n) = cos n * cos g ∧ sin (ttheta_by g n) * cos (phi_by g n) = cos n * sin g ∧
    sin (ttheta_by g n) * sin (phi_by g n) = sin n := by
  have hb : -1 ≤ cos n * cos g ∧ cos n * cos g ≤ 1 := by
    have := sin_sq_add_cos_sq n; have := sin_sq_add_cos_sq g
    have h1 : (cos n * cos g) ^ 2 ≤ 1 := by
      rw [mul_pow]
      nlinarith [sq_nonneg (cos n), sq_nonneg (cos g), sq_nonneg (sin n), sq_nonneg (sin g)]
    constructor <;> nlinarith
  have e : sin (ttheta_by g n) = √((sin g * cos n) ^ 2 + sin n ^ 2) := by
    unfold ttheta_by
    dsimp only
    rw [sin_arccos]
    congr 1
    have := sin_sq_add_cos_sq n; have := sin_sq_add_cos_sq g
    grind
  have := norm_mul_cos_arctan2 (sin n) (sin g * cos n)
  refine ⟨?_, ?_, ?_⟩
  · unfold ttheta_by; exact cos_arccos hb.1 hb.2
  · rw [e, mul_comm (cos n)]; exact this.1
  · rw [e]; exact this.2

/-- C28: scattering angle and ring angle survive the way to the detector angles and back. -/
theorem ttheta_phi_round_trip {t φ : ℝ} (h1 : 0 < t) (h2 : t < π) (h3 : -π < φ) (h4 : φ ≤ π) :
    ttheta_by (gamma_by t φ) (nu_by t φ) = t ∧ phi_by (gamma_by t φ) (nu_by t φ) = φ := by
  obtain ⟨a, b, c⟩ := same_direction t φ
  constructor
  · unfold ttheta_by
    dsimp only
    rw [a, arccos_cos h1.le h2.le]
  · unfold phi_by
    dsimp only
    rw [mul_comm (sin _), b, c]
    exact arctan2_polar (sin_pos_of_pos_of_lt_pi h1 h2) h3 h4

/-- C28: and the detector angles survive the way to scattering and ring angle and back. -/
theorem gamma_nu_round_trip {g n : ℝ} (h1 : -π < g) (h2 : g ≤ π) (h3 : -(π / 2) < n) (h4 : n < π / 2) :
    gamma_by (ttheta_by g n) (phi_by g n) = g ∧ nu_by (ttheta_by g n) (phi_by g n) = n := by
  obtain ⟨a, b, c⟩ := same_direction' g n
  constructor
  · unfold gamma_by
    dsimp only
    rw [a, b]
    exact arctan2_polar (cos_pos_of_mem_Ioo ⟨h3, h4⟩) h1 h2
  · unfold nu_by
    dsimp only
    rw [c]
    exact arcsin_sin h3.le h4.le

/-! ### cases that meet the hypotheses -/

example : 0 < (1 : ℝ) ∧ (1 : ℝ) < π ∧ -π < (-1 : ℝ) ∧ (-1 : ℝ) ≤ π := by
  have := pi_gt_three; refine ⟨by norm_num, by linarith, by linarith, by linarith⟩

example : 1 / 4503599627370496 < caglioti 1 0 1 0 1 ∧ caglioti 0 0 (-1) 0 1 < 1 / 4503599627370496 := by
  constructor
  · unfold caglioti
    have := sq_nonneg (tan (1 / 2 * 1))
    simp at this ⊢
    nlinarith
  · unfold caglioti; norm_num

example : 0 ≤ h_l 0 1 1 := by
  unfold h_l
  have : 0 < cos (1 / 2 * 1) := cos_pos_of_mem_Ioo ⟨by have := pi_gt_three; linarith, by have := pi_gt_three; linarith⟩
  simp at this ⊢
  exact this.le

end Cryspy.Powder
