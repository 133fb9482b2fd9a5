import Verif.Flip.Lemmas

/-!
# C25: derivatives of the polarised intensities

`y` is any extinction function whose reported derivative `dy` is right at every non-negative intensity.
-/

namespace Cryspy.Flip

open Cryspy.Mat

/-- differentiate; leaves the derivative of the extinction function -/
macro "fhd" : tactic => `(tactic| repeat' (first
  | with_reducible assumption
  | with_reducible exact hasDerivAt_id' _
  | with_reducible exact hasDerivAt_const _ _
  | with_reducible apply HasDerivAt.fun_add
  | with_reducible apply HasDerivAt.fun_sub
  | with_reducible apply HasDerivAt.fun_neg
  | with_reducible apply HasDerivAt.fun_mul
  | with_reducible apply HasDerivAt.fun_div
  | with_reducible apply HasDerivAt.fun_pow
  | with_reducible apply hasDerivAt_comp'))

theorem comb_plus {y Fp Fm Fx c : ℝ → ℝ} {p x fp fm fx c' yp ym yx : ℝ} (h1 : HasDerivAt y yp (Fp x))
    (h2 : HasDerivAt y ym (Fm x)) (h3 : HasDerivAt y yx (Fx x)) (hp : HasDerivAt Fp fp x) (hm : HasDerivAt Fm fm x)
    (hx : HasDerivAt Fx fx x) (hc : HasDerivAt c c' x) :
    HasDerivAt (fun t => 1 / 2 * ((1 + p) * y (Fp t) * Fp t + (1 - p) * y (Fm t) * Fm t) + y (Fx t) * Fx t + p * c t)
      (1 / 2 * ((1 + p) * (yp * fp * Fp x + y (Fp x) * fp) + (1 - p) * (ym * fm * Fm x + y (Fm x) * fm)) +
        (yx * fx * Fx x + y (Fx x) * fx) + p * c') x := by
  have a := hasDerivAt_comp' h1 hp
  have b := hasDerivAt_comp' h2 hm
  have d := hasDerivAt_comp' h3 hx
  refine HasDerivAt.congr_deriv (by fhd) ?_
  ring

theorem comb_minus {y Fp Fm Fx c : ℝ → ℝ} {p x fp fm fx c' yp ym yx : ℝ} (h1 : HasDerivAt y yp (Fp x))
    (h2 : HasDerivAt y ym (Fm x)) (h3 : HasDerivAt y yx (Fx x)) (hp : HasDerivAt Fp fp x) (hm : HasDerivAt Fm fm x)
    (hx : HasDerivAt Fx fx x) (hc : HasDerivAt c c' x) :
    HasDerivAt (fun t => 1 / 2 * ((1 - p) * y (Fp t) * Fp t + (1 + p) * y (Fm t) * Fm t) + y (Fx t) * Fx t - p * c t)
      (1 / 2 * ((1 - p) * (yp * fp * Fp x + y (Fp x) * fp) + (1 + p) * (ym * fm * Fm x + y (Fm x) * fm)) +
        (yx * fx * Fx x + y (Fx x) * fx) - p * c') x := by
  have a := hasDerivAt_comp' h1 hp
  have b := hasDerivAt_comp' h2 hm
  have d := hasDerivAt_comp' h3 hx
  refine HasDerivAt.congr_deriv (by fhd) ?_
  ring

set_option hygiene false in
/-- the arguments and values of the extinction function as variables -/
macro "comb_gen" : tactic => `(tactic| (
  try generalize (nr + (mr 0 * z 0 + mr 1 * z 1 + mr 2 * z 2)) ^ 2 + (ni + (mi 0 * z 0 + mi 1 * z 1 + mi 2 * z 2)) ^ 2 = Fp
  try generalize (nr - (mr 0 * z 0 + mr 1 * z 1 + mr 2 * z 2)) ^ 2 + (ni - (mi 0 * z 0 + mi 1 * z 1 + mi 2 * z 2)) ^ 2 = Fm
  try generalize mr 0 ^ 2 + mr 1 ^ 2 + mr 2 ^ 2 + (mi 0 ^ 2 + mi 1 ^ 2 + mi 2 ^ 2) -
    ((mr 0 * z 0 + mr 1 * z 1 + mr 2 * z 2) ^ 2 + (mi 0 * z 0 + mi 1 * z 1 + mi 2 * z 2) ^ 2) = Fx
  try generalize dy Fp = yp'
  try generalize dy Fm = ym'
  try generalize dy Fx = yx'
  try generalize y Fp = yp
  try generalize y Fm = ym
  try generalize y Fx = yx))

set_option hygiene false in
macro "comb_go" c:term : tactic => `(tactic| (
  apply HasDerivAt.congr_deriv
  · apply ($c)
    · refine hy _ ?_; beta_reduce; positivity
    · refine hy _ ?_; beta_reduce; positivity
    · exact hy _ hxy
    all_goals fhd
  · comb_gen; ring))

section
variable {y dy dk : ℝ → ℝ} (P e nr ni : ℝ) (mr mi z : Fin 3 → ℝ)

/-- C25: derivatives over the beam polarisation and the flipper efficiency. -/
theorem d_polarisation (y dy dk : ℝ → ℝ) :
    HasDerivAt (fun p => calc_iint_plus y dy dk p e nr ni mr mi z) (d_plus_P y dy dk P e nr ni mr mi z) P ∧
    HasDerivAt (fun p => calc_iint_minus y dy dk p e nr ni mr mi z) (d_minus_P y dy dk P e nr ni mr mi z) P ∧
    HasDerivAt (fun x => calc_iint_minus y dy dk P x nr ni mr mi z) (d_minus_e y dy dk P e nr ni mr mi z) e ∧
    HasDerivAt (fun x => calc_iint_plus y dy dk P x nr ni mr mi z) 0 e := by
  simp only [calc_iint_plus, calc_iint_minus, d_plus_P, d_minus_P, d_minus_e]
  refine ⟨?_, ?_, ?_, hasDerivAt_const _ _⟩ <;> apply HasDerivAt.congr_deriv <;> first | fhd | skip
  all_goals ring

/-- C25: derivatives over the nuclear structure factor. -/
theorem d_nuclear (hy : ∀ s, 0 ≤ s → HasDerivAt y (dy s) s) (hz : IsUnit3 z) :
    HasDerivAt (fun x => calc_iint_plus y dy dk P e x ni mr mi z) (d_plus_f_nucl_real y dy dk P e nr ni mr mi z) nr ∧
    HasDerivAt (fun x => calc_iint_plus y dy dk P e nr x mr mi z) (d_plus_f_nucl_imag y dy dk P e nr ni mr mi z) ni ∧
    HasDerivAt (fun x => calc_iint_minus y dy dk P e x ni mr mi z) (d_minus_f_nucl_real y dy dk P e nr ni mr mi z) nr ∧
    HasDerivAt (fun x => calc_iint_minus y dy dk P e nr x mr mi z) (d_minus_f_nucl_imag y dy dk P e nr ni mr mi z) ni := by
  have hxy := xy_nonneg hz.le mr mi
  simp only [calc_iint_plus, calc_iint_minus, d_plus_f_nucl_real, d_plus_f_nucl_imag, d_minus_f_nucl_real, d_minus_f_nucl_imag]
  refine ⟨?_, ?_, ?_, ?_⟩
  · comb_go comb_plus
  · comb_go comb_plus
  · comb_go comb_minus
  · comb_go comb_minus

/-- C25: derivatives over the magnetic interaction vector. -/
theorem d_magnetic (hy : ∀ s, 0 ≤ s → HasDerivAt y (dy s) s) (hz : IsUnit3 z) :
    IsGradient (fun x => calc_iint_plus y dy dk P e nr ni x mi z) (d_plus_f_m_perp_real y dy dk P e nr ni mr mi z) mr ∧
    IsGradient (fun x => calc_iint_plus y dy dk P e nr ni mr x z) (d_plus_f_m_perp_imag y dy dk P e nr ni mr mi z) mi ∧
    IsGradient (fun x => calc_iint_minus y dy dk P e nr ni x mi z) (d_minus_f_m_perp_real y dy dk P e nr ni mr mi z) mr ∧
    IsGradient (fun x => calc_iint_minus y dy dk P e nr ni mr x z) (d_minus_f_m_perp_imag y dy dk P e nr ni mr mi z) mi := by
  have hxy := xy_nonneg hz.le mr mi
  simp only [calc_iint_plus, calc_iint_minus, d_plus_f_m_perp_real, d_plus_f_m_perp_imag, d_minus_f_m_perp_real, d_minus_f_m_perp_imag]
  refine ⟨?_, ?_, ?_, ?_⟩ <;> refine fin3 ?_ ?_ ?_ <;>
    simp only [Function.update_apply, Fin.reduceEq, if_true, if_false, Matrix.cons_val]
  all_goals
    first
    | comb_go comb_plus
    | comb_go comb_minus

/-- C25: derivatives over any further parameter `k` of the extinction function. -/
theorem d_extinction_parameter (ky : ℝ → ℝ → ℝ) (k : ℝ) (hk : ∀ s, 0 ≤ s → HasDerivAt (fun t => ky t s) (dk s) k)
    (hz : IsUnit3 z) :
    HasDerivAt (fun t => calc_iint_plus (ky t) dy dk P e nr ni mr mi z) (d_plus_ext y dy dk P e nr ni mr mi z) k ∧
    HasDerivAt (fun t => calc_iint_minus (ky t) dy dk P e nr ni mr mi z) (d_minus_ext y dy dk P e nr ni mr mi z) k := by
  have hxy := hk _ (xy_nonneg hz.le mr mi)
  simp only [calc_iint_plus, calc_iint_minus, d_plus_ext, d_minus_ext]
  have h1 := hk ((nr + (mr 0 * z 0 + mr 1 * z 1 + mr 2 * z 2)) ^ 2 + (ni + (mi 0 * z 0 + mi 1 * z 1 + mi 2 * z 2)) ^ 2) (by positivity)
  have h2 := hk ((nr - (mr 0 * z 0 + mr 1 * z 1 + mr 2 * z 2)) ^ 2 + (ni - (mi 0 * z 0 + mi 1 * z 1 + mi 2 * z 2)) ^ 2) (by positivity)
  constructor
  · apply HasDerivAt.congr_deriv
    · fhd
    · ring
  · apply HasDerivAt.congr_deriv
    · fhd
    · ring

end

/-- The reported derivatives without an extinction function are those with the extinction function `1`. -/
theorem d_no_extinction (dk : ℝ → ℝ) (P e nr ni : ℝ) (mr mi z : Fin 3 → ℝ) :
    d_plus_none_P P e nr ni mr mi z = d_plus_P (fun _ => 1) (fun _ => 0) dk P e nr ni mr mi z ∧
    d_minus_none_P P e nr ni mr mi z = d_minus_P (fun _ => 1) (fun _ => 0) dk P e nr ni mr mi z ∧
    d_minus_none_e P e nr ni mr mi z = d_minus_e (fun _ => 1) (fun _ => 0) dk P e nr ni mr mi z ∧
    d_plus_none_f_nucl_real P e nr ni mr mi z = d_plus_f_nucl_real (fun _ => 1) (fun _ => 0) dk P e nr ni mr mi z ∧
    d_plus_none_f_nucl_imag P e nr ni mr mi z = d_plus_f_nucl_imag (fun _ => 1) (fun _ => 0) dk P e nr ni mr mi z ∧
    d_minus_none_f_nucl_real P e nr ni mr mi z = d_minus_f_nucl_real (fun _ => 1) (fun _ => 0) dk P e nr ni mr mi z ∧
    d_minus_none_f_nucl_imag P e nr ni mr mi z = d_minus_f_nucl_imag (fun _ => 1) (fun _ => 0) dk P e nr ni mr mi z := by
  simp only [d_plus_none_P, d_plus_P, d_minus_none_P, d_minus_P, d_minus_none_e, d_minus_e, d_plus_none_f_nucl_real,
    d_plus_f_nucl_real, d_plus_none_f_nucl_imag, d_plus_f_nucl_imag, d_minus_none_f_nucl_real, d_minus_f_nucl_real,
    d_minus_none_f_nucl_imag, d_minus_f_nucl_imag, zero_mul, and_self]

/-- The same for the magnetic interaction vector. -/
theorem d_no_extinction_magnetic (dk : ℝ → ℝ) (P e nr ni : ℝ) (mr mi z : Fin 3 → ℝ) :
    d_plus_none_f_m_perp_real P e nr ni mr mi z = d_plus_f_m_perp_real (fun _ => 1) (fun _ => 0) dk P e nr ni mr mi z ∧
    d_plus_none_f_m_perp_imag P e nr ni mr mi z = d_plus_f_m_perp_imag (fun _ => 1) (fun _ => 0) dk P e nr ni mr mi z ∧
    d_minus_none_f_m_perp_real P e nr ni mr mi z = d_minus_f_m_perp_real (fun _ => 1) (fun _ => 0) dk P e nr ni mr mi z ∧
    d_minus_none_f_m_perp_imag P e nr ni mr mi z = d_minus_f_m_perp_imag (fun _ => 1) (fun _ => 0) dk P e nr ni mr mi z := by
  simp only [d_plus_none_f_m_perp_real, d_plus_f_m_perp_real, d_plus_none_f_m_perp_imag, d_plus_f_m_perp_imag,
    d_minus_none_f_m_perp_real, d_minus_f_m_perp_real, d_minus_none_f_m_perp_imag, d_minus_f_m_perp_imag, zero_mul, and_self]

/-! ## flip ratio and asymmetry from the intensities -/

/-- C25: the flip ratio is differentiated by the quotient rule. -/
theorem d_flip_ratio_spec (u d : ℝ) (hd : d ≠ 0) :
    HasDerivAt (fun x => flip_ratio x d) (d_flip_ratio_plus u d) u ∧ HasDerivAt (fun x => flip_ratio u x) (d_flip_ratio_minus u d) d := by
  simp only [flip_ratio, d_flip_ratio_plus, d_flip_ratio_minus]
  constructor <;> apply HasDerivAt.congr_deriv
  all_goals first | (fhd; done) | (field_simp; done) | (field_simp; ring; done)

/-- C25: the same with a second-harmonic contribution `c·i2`. -/
theorem d_flip_ratio2_spec (u d c i2 : ℝ) (hd : d + c * i2 ≠ 0) :
    HasDerivAt (fun x => flip_ratio2 x d c i2) (d_flip_ratio2_iint_plus u d c i2) u ∧
    HasDerivAt (fun x => flip_ratio2 u x c i2) (d_flip_ratio2_iint_minus u d c i2) d ∧
    HasDerivAt (fun x => flip_ratio2 u d x i2) (d_flip_ratio2_c_lambda2 u d c i2) c ∧
    HasDerivAt (fun x => flip_ratio2 u d c x) (d_flip_ratio2_iint_2hkl u d c i2) i2 := by
  simp only [flip_ratio2, d_flip_ratio2_iint_plus, d_flip_ratio2_iint_minus, d_flip_ratio2_c_lambda2, d_flip_ratio2_iint_2hkl]
  refine ⟨?_, ?_, ?_, ?_⟩ <;> apply HasDerivAt.congr_deriv
  all_goals first | (fhd; done) | (field_simp; done) | (field_simp; ring; done)

/-- C25: the asymmetry `(I⁺−I⁻)/(I⁺+I⁻)`. -/
theorem d_asymmetry_spec (u d : ℝ) (hd : u + d ≠ 0) :
    HasDerivAt (fun x => asymmetry x d) (d_asymmetry_plus u d) u ∧ HasDerivAt (fun x => asymmetry u x) (d_asymmetry_minus u d) d := by
  simp only [asymmetry, d_asymmetry_plus, d_asymmetry_minus, add_zero]
  constructor <;> apply HasDerivAt.congr_deriv
  all_goals first | (fhd; done) | (field_simp; done) | (field_simp; ring; done)

/-- C25: the asymmetry with a second-harmonic contribution. -/
theorem d_asymmetry2_spec (u d c i2 : ℝ) (hd : u + d + 2 * c * i2 ≠ 0) :
    HasDerivAt (fun x => asymmetry2 x d c i2) (d_asymmetry2_iint_plus u d c i2) u ∧
    HasDerivAt (fun x => asymmetry2 u x c i2) (d_asymmetry2_iint_minus u d c i2) d ∧
    HasDerivAt (fun x => asymmetry2 u d x i2) (d_asymmetry2_c_lambda2 u d c i2) c ∧
    HasDerivAt (fun x => asymmetry2 u d c x) (d_asymmetry2_iint_2hkl u d c i2) i2 := by
  simp only [asymmetry2, d_asymmetry2_iint_plus, d_asymmetry2_iint_minus, d_asymmetry2_c_lambda2, d_asymmetry2_iint_2hkl]
  refine ⟨?_, ?_, ?_, ?_⟩ <;> apply HasDerivAt.congr_deriv
  all_goals first | (fhd; done) | (field_simp; done) | (field_simp; ring; done)

/-- The flip ratio is `1` exactly when the intensities agree, and the asymmetry `A` gives it back as `(1+A)/(1-A)`. -/
theorem flip_ratio_asymmetry (u d : ℝ) (hd : d ≠ 0) (hs : u + d ≠ 0) :
    flip_ratio u d = (1 + asymmetry u d) / (1 - asymmetry u d) ∧ (flip_ratio u d = 1 ↔ u = d) := by
  have h : 1 - asymmetry u d = 2 * d / (u + d) := by
    simp only [asymmetry, add_zero]; field_simp; ring
  have h' : 1 + asymmetry u d = 2 * u / (u + d) := by
    simp only [asymmetry, add_zero]; field_simp; ring
  rw [h, h']
  simp only [flip_ratio]
  exact ⟨by field_simp, div_eq_one_iff_eq hd⟩

/-- The hypotheses on the extinction function and on the field axis are met by `y(F²) = 1/(1+F²)` and a tilted axis. -/
example : (∀ s : ℝ, 0 ≤ s → HasDerivAt (fun s => 1 / (1 + s)) (-1 / (1 + s) ^ 2) s) ∧ IsUnit3 ![3 / 5, 0, 4 / 5] := by
  refine ⟨fun s hs => ?_, by unfold IsUnit3; simp only [Matrix.cons_val]; norm_num⟩
  have h : (1 + s) ≠ 0 := by positivity
  refine (HasDerivAt.fun_div (hasDerivAt_const s 1) (HasDerivAt.fun_add (hasDerivAt_const s 1) (hasDerivAt_id' s)) h).congr_deriv ?_
  simp

end Cryspy.Flip
