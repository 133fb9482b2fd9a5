import Verif.Slater.Trans
import Mathlib.Analysis.SpecialFunctions.Gaussian.GaussianIntegral
import Mathlib.MeasureTheory.Integral.IntegralEqImproper
import Mathlib.Analysis.SpecialFunctions.Trigonometric.Deriv

/-!
# The recurrence gives the transform with spherical Bessel functions
-/

namespace Cryspy.Slater

open MeasureTheory Set Filter Topology

/-- the spherical Bessel functions, by the three term relation (for an argument that is not zero) -/
noncomputable def besselJ : ℕ → ℝ → ℝ
  | 0, x => Real.sin x / x
  | 1, x => Real.sin x / x ^ 2 - Real.cos x / x
  | l + 2, x => (2 * (l + 1) + 1) / x * besselJ (l + 1) x - besselJ l x

theorem integrable_pow_exp (m : ℕ) {z : ℝ} (hz : 0 < z) : IntegrableOn (fun r : ℝ => r ^ m * Real.exp (-(z * r))) (Ioi 0) := by
  have h := integrableOn_rpow_mul_exp_neg_mul_rpow (p := 1) (s := m) (b := z) (by have : (0:ℝ) ≤ m := Nat.cast_nonneg m; linarith) one_pos hz
  refine h.congr_fun (fun x hx => ?_) measurableSet_Ioi
  simp only [Real.rpow_natCast, Real.rpow_one, neg_mul]

theorem integrable_bdd (m : ℕ) {z : ℝ} (hz : 0 < z) {g : ℝ → ℝ} (hg : Continuous g) (hb : ∀ x, |g x| ≤ 1) :
    IntegrableOn (fun r : ℝ => r ^ m * Real.exp (-(z * r)) * g r) (Ioi 0) := by
  refine Integrable.mono' (integrable_pow_exp m hz) ?_ ?_
  · exact (by fun_prop : Continuous fun r : ℝ => r ^ m * Real.exp (-(z * r)) * g r).aestronglyMeasurable
  · refine (ae_restrict_iff' measurableSet_Ioi).2 (ae_of_all _ fun x hx => ?_)
    have hx0 : 0 ≤ x ^ m * Real.exp (-(z * x)) := mul_nonneg (pow_nonneg (le_of_lt hx) m) (Real.exp_pos _).le
    rw [Real.norm_eq_abs, abs_mul, abs_of_nonneg hx0]
    exact mul_le_of_le_one_right hx0 (hb x)

theorem tendsto_bdd (m : ℕ) {z : ℝ} (hz : 0 < z) {g : ℝ → ℝ} (hb : ∀ x, |g x| ≤ 1) :
    Tendsto (fun r : ℝ => r ^ m * Real.exp (-(z * r)) * g r) atTop (𝓝 0) := by
  have h1 : Tendsto (fun r : ℝ => r ^ m * Real.exp (-(z * r))) atTop (𝓝 0) := by
    have := (isLittleO_pow_exp_pos_mul_atTop m hz).tendsto_div_nhds_zero
    refine this.congr fun x => ?_
    rw [Real.exp_neg, div_eq_mul_inv]
  refine squeeze_zero_norm' ?_ h1
  filter_upwards [eventually_ge_atTop 0] with x hx
  have hx0 : 0 ≤ x ^ m * Real.exp (-(z * x)) := mul_nonneg (pow_nonneg hx m) (Real.exp_pos _).le
  rw [Real.norm_eq_abs, abs_mul, abs_of_nonneg hx0]
  exact mul_le_of_le_one_right hx0 (hb x)

/-- sine and cosine integrals -/
noncomputable def S (z q : ℝ) (m : ℕ) : ℝ := ∫ r in Ioi (0:ℝ), r ^ m * Real.exp (-(z * r)) * Real.sin (q * r)
noncomputable def C (z q : ℝ) (m : ℕ) : ℝ := ∫ r in Ioi (0:ℝ), r ^ m * Real.exp (-(z * r)) * Real.cos (q * r)

theorem sinInt (m : ℕ) {z : ℝ} (hz : 0 < z) (q : ℝ) : IntegrableOn (fun r : ℝ => r ^ m * Real.exp (-(z * r)) * Real.sin (q * r)) (Ioi 0) :=
  integrable_bdd m hz (by fun_prop) fun x => Real.abs_sin_le_one _

theorem cosInt (m : ℕ) {z : ℝ} (hz : 0 < z) (q : ℝ) : IntegrableOn (fun r : ℝ => r ^ m * Real.exp (-(z * r)) * Real.cos (q * r)) (Ioi 0) :=
  integrable_bdd m hz (by fun_prop) fun x => Real.abs_cos_le_one _

theorem hasDeriv_sin (m : ℕ) (z q x : ℝ) : HasDerivAt (fun r : ℝ => r ^ m * Real.exp (-(z * r)) * Real.sin (q * r))
    ((m * x ^ (m - 1)) * Real.exp (-(z * x)) * Real.sin (q * x) - z * (x ^ m * Real.exp (-(z * x)) * Real.sin (q * x))
      + q * (x ^ m * Real.exp (-(z * x)) * Real.cos (q * x))) x := by
  have h1 := hasDerivAt_pow m x
  have h2 : HasDerivAt (fun r : ℝ => Real.exp (-(z * r))) (Real.exp (-(z * x)) * (-(z * 1))) x :=
    (((hasDerivAt_id x).const_mul z).neg).exp
  have h3 : HasDerivAt (fun r : ℝ => Real.sin (q * r)) (Real.cos (q * x) * (q * 1)) x := ((hasDerivAt_id x).const_mul q).sin
  have h4 : HasDerivAt (fun r : ℝ => r ^ m * Real.exp (-(z * r))) (m * x ^ (m - 1) * Real.exp (-(z * x)) + x ^ m * (Real.exp (-(z * x)) * (-(z * 1)))) x := h1.fun_mul h2
  refine (h4.fun_mul h3).congr_deriv ?_
  ring

theorem hasDeriv_cos (m : ℕ) (z q x : ℝ) : HasDerivAt (fun r : ℝ => r ^ m * Real.exp (-(z * r)) * Real.cos (q * r))
    ((m * x ^ (m - 1)) * Real.exp (-(z * x)) * Real.cos (q * x) - z * (x ^ m * Real.exp (-(z * x)) * Real.cos (q * x))
      - q * (x ^ m * Real.exp (-(z * x)) * Real.sin (q * x))) x := by
  have h1 := hasDerivAt_pow m x
  have h2 : HasDerivAt (fun r : ℝ => Real.exp (-(z * r))) (Real.exp (-(z * x)) * (-(z * 1))) x :=
    (((hasDerivAt_id x).const_mul z).neg).exp
  have h3 : HasDerivAt (fun r : ℝ => Real.cos (q * r)) (-Real.sin (q * x) * (q * 1)) x := ((hasDerivAt_id x).const_mul q).cos
  have h4 : HasDerivAt (fun r : ℝ => r ^ m * Real.exp (-(z * r))) (m * x ^ (m - 1) * Real.exp (-(z * x)) + x ^ m * (Real.exp (-(z * x)) * (-(z * 1)))) x := h1.fun_mul h2
  refine (h4.fun_mul h3).congr_deriv ?_
  ring

theorem sin_rel (m : ℕ) {z : ℝ} (hz : 0 < z) (q : ℝ) : (m + 1) * S z q m - z * S z q (m + 1) + q * C z q (m + 1) = 0 := by
  have hi : IntegrableOn (fun x : ℝ => ((m + 1 : ℕ) * x ^ (m + 1 - 1)) * Real.exp (-(z * x)) * Real.sin (q * x) -
      z * (x ^ (m + 1) * Real.exp (-(z * x)) * Real.sin (q * x)) + q * (x ^ (m + 1) * Real.exp (-(z * x)) * Real.cos (q * x))) (Ioi 0) := by
    refine Integrable.add (Integrable.sub ?_ ((sinInt (m + 1) hz q).const_mul z)) ((cosInt (m + 1) hz q).const_mul q)
    refine ((sinInt m hz q).const_mul ((m + 1 : ℕ) : ℝ)).congr (ae_of_all _ fun x => ?_)
    simp only [Nat.add_sub_cancel]
    ring
  have h := integral_Ioi_of_hasDerivAt_of_tendsto' (fun x _ => hasDeriv_sin (m + 1) z q x) hi
    (tendsto_bdd (m + 1) hz fun x => Real.abs_sin_le_one _)
  have e : ∫ x in Ioi (0:ℝ), (((m + 1 : ℕ) * x ^ (m + 1 - 1)) * Real.exp (-(z * x)) * Real.sin (q * x) -
      z * (x ^ (m + 1) * Real.exp (-(z * x)) * Real.sin (q * x)) + q * (x ^ (m + 1) * Real.exp (-(z * x)) * Real.cos (q * x))) =
      (m + 1) * S z q m - z * S z q (m + 1) + q * C z q (m + 1) := by
    unfold S C
    have hA : Integrable (fun x : ℝ => ((m : ℝ) + 1) * (x ^ m * Real.exp (-(z * x)) * Real.sin (q * x)) -
        z * (x ^ (m + 1) * Real.exp (-(z * x)) * Real.sin (q * x))) (volume.restrict (Ioi 0)) :=
      ((sinInt m hz q).const_mul _).sub ((sinInt (m + 1) hz q).const_mul z)
    rw [← integral_const_mul, ← integral_const_mul, ← integral_const_mul,
      ← integral_sub ((sinInt m hz q).const_mul _) ((sinInt (m + 1) hz q).const_mul z),
      ← integral_add hA ((cosInt (m + 1) hz q).const_mul q)]
    refine integral_congr_ae (ae_of_all _ fun x => ?_)
    simp only [Nat.add_sub_cancel]
    push_cast
    ring
  rw [← e, h]
  simp

theorem cos_rel (m : ℕ) {z : ℝ} (hz : 0 < z) (q : ℝ) : (m + 1) * C z q m - z * C z q (m + 1) - q * S z q (m + 1) = 0 := by
  have hi : IntegrableOn (fun x : ℝ => ((m + 1 : ℕ) * x ^ (m + 1 - 1)) * Real.exp (-(z * x)) * Real.cos (q * x) -
      z * (x ^ (m + 1) * Real.exp (-(z * x)) * Real.cos (q * x)) - q * (x ^ (m + 1) * Real.exp (-(z * x)) * Real.sin (q * x))) (Ioi 0) := by
    refine Integrable.sub (Integrable.sub ?_ ((cosInt (m + 1) hz q).const_mul z)) ((sinInt (m + 1) hz q).const_mul q)
    refine ((cosInt m hz q).const_mul ((m + 1 : ℕ) : ℝ)).congr (ae_of_all _ fun x => ?_)
    simp only [Nat.add_sub_cancel]
    ring
  have h := integral_Ioi_of_hasDerivAt_of_tendsto' (fun x _ => hasDeriv_cos (m + 1) z q x) hi
    (tendsto_bdd (m + 1) hz fun x => Real.abs_cos_le_one _)
  have e : ∫ x in Ioi (0:ℝ), (((m + 1 : ℕ) * x ^ (m + 1 - 1)) * Real.exp (-(z * x)) * Real.cos (q * x) -
      z * (x ^ (m + 1) * Real.exp (-(z * x)) * Real.cos (q * x)) - q * (x ^ (m + 1) * Real.exp (-(z * x)) * Real.sin (q * x))) =
      (m + 1) * C z q m - z * C z q (m + 1) - q * S z q (m + 1) := by
    unfold S C
    have hA : Integrable (fun x : ℝ => ((m : ℝ) + 1) * (x ^ m * Real.exp (-(z * x)) * Real.cos (q * x)) -
        z * (x ^ (m + 1) * Real.exp (-(z * x)) * Real.cos (q * x))) (volume.restrict (Ioi 0)) :=
      ((cosInt m hz q).const_mul _).sub ((cosInt (m + 1) hz q).const_mul z)
    rw [← integral_const_mul, ← integral_const_mul, ← integral_const_mul,
      ← integral_sub ((cosInt m hz q).const_mul _) ((cosInt (m + 1) hz q).const_mul z),
      ← integral_sub hA ((sinInt (m + 1) hz q).const_mul q)]
    refine integral_congr_ae (ae_of_all _ fun x => ?_)
    simp only [Nat.add_sub_cancel]
    push_cast
    ring
  rw [← e, h]
  simp

theorem start_rel {z : ℝ} (hz : 0 < z) (q : ℝ) : S z q 0 = q / (q ^ 2 + z ^ 2) ∧ C z q 0 = z / (q ^ 2 + z ^ 2) := by
  have hd : q ^ 2 + z ^ 2 ≠ 0 := by positivity
  have i1 : IntegrableOn (fun x : ℝ => (((0 : ℕ) : ℝ) * x ^ (0 - 1)) * Real.exp (-(z * x)) * Real.sin (q * x) -
      z * (x ^ 0 * Real.exp (-(z * x)) * Real.sin (q * x)) + q * (x ^ 0 * Real.exp (-(z * x)) * Real.cos (q * x))) (Ioi 0) := by
    refine Integrable.add (Integrable.sub ?_ ((sinInt 0 hz q).const_mul z)) ((cosInt 0 hz q).const_mul q)
    simp
  have i2 : IntegrableOn (fun x : ℝ => (((0 : ℕ) : ℝ) * x ^ (0 - 1)) * Real.exp (-(z * x)) * Real.cos (q * x) -
      z * (x ^ 0 * Real.exp (-(z * x)) * Real.cos (q * x)) - q * (x ^ 0 * Real.exp (-(z * x)) * Real.sin (q * x))) (Ioi 0) := by
    refine Integrable.sub (Integrable.sub ?_ ((cosInt 0 hz q).const_mul z)) ((sinInt 0 hz q).const_mul q)
    simp
  have h1 := integral_Ioi_of_hasDerivAt_of_tendsto' (fun x _ => hasDeriv_sin 0 z q x) i1 (tendsto_bdd 0 hz fun x => Real.abs_sin_le_one _)
  have h2 := integral_Ioi_of_hasDerivAt_of_tendsto' (fun x _ => hasDeriv_cos 0 z q x) i2 (tendsto_bdd 0 hz fun x => Real.abs_cos_le_one _)
  have e1 : ∫ x in Ioi (0:ℝ), ((((0 : ℕ) : ℝ) * x ^ (0 - 1)) * Real.exp (-(z * x)) * Real.sin (q * x) -
      z * (x ^ 0 * Real.exp (-(z * x)) * Real.sin (q * x)) + q * (x ^ 0 * Real.exp (-(z * x)) * Real.cos (q * x))) =
      - z * S z q 0 + q * C z q 0 := by
    unfold S C
    rw [← integral_const_mul, ← integral_const_mul, ← integral_add ((sinInt 0 hz q).const_mul _) ((cosInt 0 hz q).const_mul q)]
    refine integral_congr_ae (ae_of_all _ fun x => ?_)
    simp only [Nat.cast_zero]
    ring
  have e2 : ∫ x in Ioi (0:ℝ), ((((0 : ℕ) : ℝ) * x ^ (0 - 1)) * Real.exp (-(z * x)) * Real.cos (q * x) -
      z * (x ^ 0 * Real.exp (-(z * x)) * Real.cos (q * x)) - q * (x ^ 0 * Real.exp (-(z * x)) * Real.sin (q * x))) =
      - z * C z q 0 - q * S z q 0 := by
    unfold S C
    rw [← integral_const_mul, ← integral_const_mul, ← integral_sub ((cosInt 0 hz q).const_mul _) ((sinInt 0 hz q).const_mul q)]
    refine integral_congr_ae (ae_of_all _ fun x => ?_)
    simp only [Nat.cast_zero]
    ring
  rw [e1] at h1
  rw [e2] at h2
  simp only [pow_zero, mul_zero, neg_zero, Real.exp_zero, Real.sin_zero, Real.cos_zero, mul_one, sub_zero, zero_sub] at h1 h2
  constructor
  · rw [eq_div_iff hd]; linear_combination (-z) * h1 - q * h2
  · rw [eq_div_iff hd]; linear_combination (q) * h1 - z * h2

theorem SC_step (m : ℕ) {z : ℝ} (hz : 0 < z) (q : ℝ) :
    S z q (m + 1) = (m + 1) * (z * S z q m + q * C z q m) / (q ^ 2 + z ^ 2) ∧
    C z q (m + 1) = (m + 1) * (z * C z q m - q * S z q m) / (q ^ 2 + z ^ 2) := by
  have hd : q ^ 2 + z ^ 2 ≠ 0 := by positivity
  have h1 := sin_rel m hz q
  have h2 := cos_rel m hz q
  constructor
  · rw [eq_div_iff hd]; linear_combination (-z) * h1 - q * h2
  · rw [eq_div_iff hd]; linear_combination (q) * h1 - z * h2

theorem U_zero_order {z : ℝ} (hz : 0 < z) (q : ℝ) (m : ℕ) : q * U z (q ^ 2 + z ^ 2) 0 (m + 1) = S z q m := by
  have hd : q ^ 2 + z ^ 2 ≠ 0 := by positivity
  induction m using Nat.strong_induction_on with
  | _ m ih =>
    rcases m with _ | _ | m
    · rw [U_seed, (start_rel hz q).1]
      simp
      ring
    · have e := U_step z (q ^ 2 + z ^ 2) (l := 0) (k := 1) (le_refl _)
      rw [U_low z _ (by omega : 1 - 1 ≤ 0), U_seed z _ 0] at e
      rw [e, (SC_step 0 hz q).1, (start_rel hz q).1, (start_rel hz q).2]
      simp
      field_simp
      ring
    · have e := U_step z (q ^ 2 + z ^ 2) (l := 0) (k := m + 2) (by omega)
      rw [show m + 2 - 1 = m + 1 by omega] at e
      have h1 := ih (m + 1) (by omega)
      have h0 := ih m (by omega)
      rw [show m + 1 + 1 + 1 = m + 2 + 1 from rfl, e, (SC_step (m + 1) hz q).1, (SC_step m hz q).2]
      rw [show m + 1 + 1 = m + 2 from rfl] at h1
      have hs := (SC_step m hz q).1
      rw [← h0] at hs ⊢
      have h1' : q * U z (q ^ 2 + z ^ 2) 0 (m + 2) = (m + 1) * (z * (q * U z (q ^ 2 + z ^ 2) 0 (m + 1)) + q * C z q m) / (q ^ 2 + z ^ 2) := by
        rw [h1, hs]
      have h2 : q * ((2 * z * ((m + 2 : ℕ) : ℝ) * U z (q ^ 2 + z ^ 2) 0 (m + 2) -
          (((m + 2 : ℕ) : ℝ) + ((0 : ℕ) : ℝ)) * (((m + 2 : ℕ) : ℝ) - (((0 : ℕ) : ℝ) + 1)) * U z (q ^ 2 + z ^ 2) 0 (m + 1)) / (q ^ 2 + z ^ 2)) =
          (2 * z * ((m + 2 : ℕ) : ℝ) * (q * U z (q ^ 2 + z ^ 2) 0 (m + 2)) -
          (((m + 2 : ℕ) : ℝ) + ((0 : ℕ) : ℝ)) * (((m + 2 : ℕ) : ℝ) - (((0 : ℕ) : ℝ) + 1)) * (q * U z (q ^ 2 + z ^ 2) 0 (m + 1))) / (q ^ 2 + z ^ 2) := by ring
      rw [h2, h1, hs]
      generalize U z (q ^ 2 + z ^ 2) 0 (m + 1) = A
      generalize C z q m = B
      push_cast
      field_simp
      ring

theorem U_first_order {z : ℝ} (hz : 0 < z) (q : ℝ) (m : ℕ) :
    q ^ 3 * U z (q ^ 2 + z ^ 2) 1 (m + 2) = S z q m - q * C z q (m + 1) := by
  have hd : q ^ 2 + z ^ 2 ≠ 0 := by positivity
  have hrel : ∀ j, C z q (j + 1) = (j + 1) * (z * C z q j - q * S z q j) / (q ^ 2 + z ^ 2) := fun j => (SC_step j hz q).2
  induction m using Nat.strong_induction_on with
  | _ m ih =>
    rcases m with _ | _ | m
    · have := U_seed z (q ^ 2 + z ^ 2) 1
      rw [show 0 + 2 = 1 + 1 from rfl, this, hrel, (start_rel hz q).1, (start_rel hz q).2]
      simp
      field_simp
      ring
    · have e := U_step z (q ^ 2 + z ^ 2) (l := 1) (k := 2) (le_refl _)
      rw [U_low z _ (by omega : 2 - 1 ≤ 1)] at e
      have := U_seed z (q ^ 2 + z ^ 2) 1
      rw [show 1 + 1 = 2 from rfl] at this
      rw [this] at e
      rw [show 0 + 1 + 2 = 2 + 1 from rfl, e, show 0 + 1 = 1 from rfl, show 1 + 1 = 1 + 1 from rfl, hrel 1]
      have s1 := (SC_step 0 hz q).1
      have c1 := (SC_step 0 hz q).2
      rw [Nat.zero_add] at s1 c1
      rw [s1, c1, (start_rel hz q).1, (start_rel hz q).2]
      simp
      field_simp
      ring
    · have e := U_step z (q ^ 2 + z ^ 2) (l := 1) (k := m + 3) (by omega)
      rw [show m + 3 - 1 = m + 2 by omega] at e
      have h1 := ih (m + 1) (by omega)
      have h0 := ih m (by omega)
      rw [show m + 1 + 2 = m + 3 from rfl] at h1
      rw [show m + 1 + 1 + 2 = m + 3 + 1 from rfl, e]
      have h2 : q ^ 3 * ((2 * z * ((m + 3 : ℕ) : ℝ) * U z (q ^ 2 + z ^ 2) 1 (m + 3) -
          (((m + 3 : ℕ) : ℝ) + ((1 : ℕ) : ℝ)) * (((m + 3 : ℕ) : ℝ) - (((1 : ℕ) : ℝ) + 1)) * U z (q ^ 2 + z ^ 2) 1 (m + 2)) / (q ^ 2 + z ^ 2)) =
          (2 * z * ((m + 3 : ℕ) : ℝ) * (q ^ 3 * U z (q ^ 2 + z ^ 2) 1 (m + 3)) -
          (((m + 3 : ℕ) : ℝ) + ((1 : ℕ) : ℝ)) * (((m + 3 : ℕ) : ℝ) - (((1 : ℕ) : ℝ) + 1)) * (q ^ 3 * U z (q ^ 2 + z ^ 2) 1 (m + 2))) / (q ^ 2 + z ^ 2) := by ring
      rw [h2, h1, h0]
      rw [hrel (m + 1 + 1), hrel (m + 1), hrel m, (SC_step (m + 1) hz q).1, hrel m, (SC_step m hz q).1]
      generalize S z q m = A
      generalize C z q m = B
      push_cast
      field_simp
      ring

/-- The transform of `r^k exp(-z r)` with the spherical Bessel function of order `l` exists for `k > l` and is given by the
recurrence. -/
theorem transform {z q : ℝ} (hz : 0 < z) (hq : 0 < q) (l : ℕ) : ∀ k, l + 1 ≤ k →
    IntegrableOn (fun r : ℝ => r ^ k * Real.exp (-(z * r)) * besselJ l (q * r)) (Ioi 0) ∧
    ∫ r in Ioi (0:ℝ), r ^ k * Real.exp (-(z * r)) * besselJ l (q * r) = q ^ l * U z (q ^ 2 + z ^ 2) l k := by
  induction l using Nat.strong_induction_on with
  | _ l ih =>
    rcases l with _ | _ | l
    · intro k hk
      obtain ⟨m, rfl⟩ : ∃ m, k = m + 1 := ⟨k - 1, by omega⟩
      have he : EqOn (fun r : ℝ => q⁻¹ * (r ^ m * Real.exp (-(z * r)) * Real.sin (q * r)))
          (fun r : ℝ => r ^ (m + 1) * Real.exp (-(z * r)) * besselJ 0 (q * r)) (Ioi 0) := by
        intro r hr
        have hr0 : r ≠ 0 := ne_of_gt hr
        simp only [besselJ]
        field_simp
        ring
      refine ⟨IntegrableOn.congr_fun ((sinInt m hz q).const_mul q⁻¹) he measurableSet_Ioi, ?_⟩
      rw [← setIntegral_congr_fun measurableSet_Ioi he, integral_const_mul]
      change q⁻¹ * S z q m = _
      rw [← U_zero_order hz q m]
      field_simp
    · intro k hk
      obtain ⟨m, rfl⟩ : ∃ m, k = m + 2 := ⟨k - 2, by omega⟩
      have he : EqOn (fun r : ℝ => (q ^ 2)⁻¹ * (r ^ m * Real.exp (-(z * r)) * Real.sin (q * r)) -
            q⁻¹ * (r ^ (m + 1) * Real.exp (-(z * r)) * Real.cos (q * r)))
          (fun r : ℝ => r ^ (m + 2) * Real.exp (-(z * r)) * besselJ 1 (q * r)) (Ioi 0) := by
        intro r hr
        have hr0 : r ≠ 0 := ne_of_gt hr
        simp only [besselJ]
        field_simp
        ring
      refine ⟨IntegrableOn.congr_fun (((sinInt m hz q).const_mul _).sub ((cosInt (m + 1) hz q).const_mul _)) he measurableSet_Ioi, ?_⟩
      rw [Nat.zero_add, ← setIntegral_congr_fun measurableSet_Ioi he,
        integral_sub ((sinInt m hz q).const_mul _) ((cosInt (m + 1) hz q).const_mul _), integral_const_mul, integral_const_mul]
      change (q ^ 2)⁻¹ * S z q m - q⁻¹ * C z q (m + 1) = _
      have := U_first_order hz q m
      generalize U z (q ^ 2 + z ^ 2) 1 (m + 2) = A at *
      field_simp
      linear_combination -this
    · intro k hk
      obtain ⟨j, rfl⟩ : ∃ j, k = l + 3 + j := ⟨k - (l + 3), by omega⟩
      obtain ⟨a1, a2⟩ := ih (l + 1) (by omega) (l + 2 + j) (by omega)
      obtain ⟨b1, b2⟩ := ih l (by omega) (l + 3 + j) (by omega)
      have he : EqOn (fun r : ℝ => ((2 * (l + 1) + 1) / q) * (r ^ (l + 2 + j) * Real.exp (-(z * r)) * besselJ (l + 1) (q * r)) -
            r ^ (l + 3 + j) * Real.exp (-(z * r)) * besselJ l (q * r))
          (fun r : ℝ => r ^ (l + 3 + j) * Real.exp (-(z * r)) * besselJ (l + 2) (q * r)) (Ioi 0) := by
        intro r hr
        have hr0 : r ≠ 0 := ne_of_gt hr
        simp only [besselJ]
        rw [show l + 3 + j = l + 2 + j + 1 by omega, pow_succ]
        field_simp
      refine ⟨IntegrableOn.congr_fun ((a1.const_mul _).sub b1) he measurableSet_Ioi, ?_⟩
      rw [show l + 1 + 1 = l + 2 from rfl, ← setIntegral_congr_fun measurableSet_Ioi he, integral_sub (a1.const_mul _) b1, integral_const_mul, a2, b2]
      have h3 := U_three z q (by positivity) l j
      generalize U z (q ^ 2 + z ^ 2) (l + 2) (l + 3 + j) = A at *
      generalize U z (q ^ 2 + z ^ 2) (l + 1) (l + 2 + j) = B at *
      generalize U z (q ^ 2 + z ^ 2) l (l + 3 + j) = D at *
      have : q ^ (l + 2) * A = q ^ l * (q ^ 2 * A) := by ring
      rw [this, h3]
      field_simp
      ring

/-- without scattering angle the entry of order zero is the integral of `r^k exp(-z r)` -/
theorem U_forward {z : ℝ} (hz : z ≠ 0) (m : ℕ) : U z (0 ^ 2 + z ^ 2) 0 (m + 1) = (m + 1).factorial / z ^ (m + 2) := by
  induction m using Nat.strong_induction_on with
  | _ m ih =>
    rcases m with _ | _ | m
    · rw [U_seed]
      simp
    · have e := U_step z (0 ^ 2 + z ^ 2) (l := 0) (k := 1) (le_refl _)
      rw [U_low z _ (by omega : 1 - 1 ≤ 0), U_seed z _ 0] at e
      rw [e]
      simp [Nat.factorial]
      field_simp
    · have e := U_step z (0 ^ 2 + z ^ 2) (l := 0) (k := m + 2) (by omega)
      rw [show m + 2 - 1 = m + 1 by omega] at e
      rw [show m + 1 + 1 + 1 = m + 2 + 1 from rfl, e, ih m (by omega)]
      have h1 := ih (m + 1) (by omega)
      rw [show m + 1 + 1 = m + 2 from rfl] at h1
      rw [h1, Nat.factorial_succ (m + 2), Nat.factorial_succ (m + 1)]
      push_cast
      field_simp
      ring

theorem integral_pow_exp {z : ℝ} (hz : 0 < z) (m : ℕ) : ∫ r in Ioi (0:ℝ), r ^ m * Real.exp (-(z * r)) = m.factorial / z ^ (m + 1) := by
  have h := Real.integral_rpow_mul_exp_neg_mul_Ioi (a := (m : ℝ) + 1) (by positivity) hz
  rw [Real.Gamma_nat_eq_factorial] at h
  rw [show (m.factorial : ℝ) / z ^ (m + 1) = (1 / z) ^ ((m : ℝ) + 1) * m.factorial by
    rw [show ((m : ℝ) + 1) = ((m + 1 : ℕ) : ℝ) by push_cast; ring, Real.rpow_natCast, div_pow, one_pow]; ring, ← h]
  refine setIntegral_congr_fun measurableSet_Ioi fun r hr => ?_
  simp only [add_sub_cancel_right, Real.rpow_natCast]

end Cryspy.Slater
