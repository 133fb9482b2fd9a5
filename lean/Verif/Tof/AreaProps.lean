import Verif.Tof.Props
import Mathlib.MeasureTheory.Integral.IntegralEqImproper
import Mathlib.MeasureTheory.Measure.Lebesgue.Integral

/-!
# C46: the time-of-flight peak has unit area
-/

namespace Cryspy.Tof

open Real MeasureTheory Filter Topology

/-- A non-negative derivative of a function with limits at both ends is integrable, with the difference as integral. -/
theorem integral_of_nonneg {G f : ℝ → ℝ} {m n : ℝ} (hd : ∀ x, HasDerivAt G (f x) x) (hc : Continuous f) (hp : ∀ x, 0 ≤ f x)
    (hbot : Tendsto G atBot (𝓝 m)) (htop : Tendsto G atTop (𝓝 n)) : ∫ x, f x = n - m := by
  have hi : ∀ a b, ∫ x in a..b, ‖f x‖ = G b - G a := by
    intro a b
    have : (fun x => ‖f x‖) = f := by ext x; exact Real.norm_of_nonneg (hp x)
    rw [this]
    exact intervalIntegral.integral_eq_sub_of_hasDerivAt (fun x _ => hd x) (hc.intervalIntegrable _ _)
  have hint : Integrable f := by
    refine integrable_of_intervalIntegral_norm_tendsto (l := atTop) (a := fun i : ℝ => -i) (b := fun i : ℝ => i) (n - m)
      (fun i => ?_) tendsto_neg_atTop_atBot tendsto_id ?_
    · exact (hc.integrableOn_Icc).mono_set Set.Ioc_subset_Icc_self
    · simp only [hi]
      exact htop.sub (hbot.comp tendsto_neg_atTop_atBot)
  exact integral_of_hasDerivAt_of_tendsto hd hint hbot htop

theorem erfc_hasDeriv (x : ℝ) : HasDerivAt erfc (-(2 / √π) * exp (-x ^ 2)) x := by
  have e : erfc = fun x => erfc 0 - 2 / √π * ∫ t in (0:ℝ)..x, exp (-t ^ 2) := by
    ext x
    rw [erfc_eq, erfc_eq, ← intervalIntegral.integral_Iic_sub_Iic integrable_gauss.integrableOn integrable_gauss.integrableOn]
    ring
  rw [e]
  have hc : Continuous fun t : ℝ => exp (-t ^ 2) := by fun_prop
  have h := intervalIntegral.integral_hasDerivAt_right (hc.intervalIntegrable 0 x) (hc.stronglyMeasurableAtFilter _ _) hc.continuousAt
  refine (HasDerivAt.fun_sub (hasDerivAt_const x _) (HasDerivAt.fun_mul (hasDerivAt_const x _) h)).congr_deriv ?_
  ring

theorem erfc_comp {g : ℝ → ℝ} {g' x : ℝ} (h : HasDerivAt g g' x) :
    HasDerivAt (fun x => erfc (g x)) (-(2 / √π) * exp (-(g x) ^ 2) * g') x :=
  HasDerivAt.comp (h₂ := erfc) (h := g) x (erfc_hasDeriv (g x)) h

theorem erfc_neg (x : ℝ) : erfc (-x) = 2 - erfc x := by
  have h := integral_comp_neg_Iic x fun t => exp (-t ^ 2)
  simp only [neg_sq] at h
  have : erfc (-x) = 2 / √π * ∫ t in Set.Iic x, exp (-t ^ 2) := by rw [h]; rfl
  rw [this, erfc_eq]
  ring

theorem erfc_le {x : ℝ} (hx : 0 ≤ x) : erfc x ≤ 2 * exp (-x ^ 2) := by
  have h0 : 0 < 2 / √π := by have := Real.sqrt_pos.2 pi_pos; positivity
  have hsh : Integrable fun t : ℝ => exp (-x ^ 2) * exp (-(t - x) ^ 2) :=
    (integrable_gauss.comp_sub_right x).const_mul _
  have h1 : ∫ t in Set.Ioi x, exp (-t ^ 2) ≤ ∫ t in Set.Ioi x, exp (-x ^ 2) * exp (-(t - x) ^ 2) := by
    apply setIntegral_mono_on integrable_gauss.integrableOn hsh.integrableOn measurableSet_Ioi
    intro t ht
    rw [← exp_add]
    apply exp_le_exp.2
    have : x < t := ht
    nlinarith
  have h2 : ∫ t in Set.Ioi x, exp (-x ^ 2) * exp (-(t - x) ^ 2) ≤ ∫ t, exp (-x ^ 2) * exp (-(t - x) ^ 2) :=
    setIntegral_le_integral hsh (Eventually.of_forall fun t => by positivity)
  have h3 : ∫ t, exp (-x ^ 2) * exp (-(t - x) ^ 2) = exp (-x ^ 2) * √π := by
    rw [integral_const_mul, integral_sub_right_eq_self (fun t : ℝ => exp (-t ^ 2)) x, integral_gauss]
  unfold erfc
  have hp : 0 < √π := Real.sqrt_pos.2 pi_pos
  calc 2 / √π * ∫ t in Set.Ioi x, exp (-t ^ 2) ≤ 2 / √π * (exp (-x ^ 2) * √π) := by
        apply mul_le_mul_of_nonneg_left _ h0.le
        linarith
    _ = 2 * exp (-x ^ 2) := by field_simp

theorem gauss_tendsto : Tendsto (fun x : ℝ => exp (-x ^ 2)) atTop (𝓝 0) := by
  apply tendsto_exp_atBot.comp
  exact tendsto_neg_atTop_atBot.comp (tendsto_pow_atTop (by norm_num))

theorem erfc_atTop : Tendsto erfc atTop (𝓝 0) := by
  have h : Tendsto (fun x : ℝ => 2 * exp (-x ^ 2)) atTop (𝓝 0) := by simpa using gauss_tendsto.const_mul 2
  refine squeeze_zero' (Eventually.of_forall fun x => (erfc_pos x).le) ?_ h
  filter_upwards [eventually_ge_atTop 0] with x hx
  exact erfc_le hx

theorem erfc_atBot : Tendsto erfc atBot (𝓝 2) := by
  have h : Tendsto (fun x => 2 - erfc (-x)) atBot (𝓝 (2 - 0)) :=
    tendsto_const_nhds.sub (erfc_atTop.comp tendsto_neg_atBot_atTop)
  rw [sub_zero] at h
  refine h.congr fun x => ?_
  rw [erfc_neg]; ring

/-- the rising part of the peak -/
theorem part_integral {a s : ℝ} (ha : 0 < a) (hs : 0 < s) :
    ∫ x, exp (1 / 2 * a ^ 2 * s ^ 2 + x * a) * erfc (a * s / √2 + x / (s * √2)) = 2 / a := by
  have hp : 0 < √π := Real.sqrt_pos.2 pi_pos
  have h2 : 0 < √(2:ℝ) := by positivity
  have hq : √(2:ℝ) ^ 2 = 2 := Real.sq_sqrt (by norm_num)
  have key : ∀ x, 1 / 2 * a ^ 2 * s ^ 2 + x * a - (a * s / √2 + x / (s * √2)) ^ 2 = -(-x / (s * √2)) ^ 2 := by
    intro x
    field_simp
    grind
  have ec : Continuous erfc := continuous_iff_continuousAt.2 fun x => (erfc_hasDeriv x).continuousAt
  have hd : ∀ x, HasDerivAt (fun x => 1 / a * (exp (1 / 2 * a ^ 2 * s ^ 2 + x * a) * erfc (a * s / √2 + x / (s * √2)) + erfc (-x / (s * √2))))
      (exp (1 / 2 * a ^ 2 * s ^ 2 + x * a) * erfc (a * s / √2 + x / (s * √2))) x := by
    intro x
    have hc := fun t a : ℝ => hasDerivAt_const t a
    have h1 : HasDerivAt (fun x => 1 / 2 * a ^ 2 * s ^ 2 + x * a) a x :=
      (HasDerivAt.fun_add (hc x _) (HasDerivAt.fun_mul (hasDerivAt_id' x) (hc x a))).congr_deriv (by ring)
    have h3 : HasDerivAt (fun x => a * s / √2 + x / (s * √2)) (1 / (s * √2)) x := by
      refine (HasDerivAt.fun_add (hc x _) (HasDerivAt.fun_div (hasDerivAt_id' x) (hc x (s * √2)) (by positivity))).congr_deriv ?_
      field_simp
      ring
    have h4 : HasDerivAt (fun x => -x / (s * √2)) (-1 / (s * √2)) x := by
      refine (HasDerivAt.fun_div (HasDerivAt.fun_neg (hasDerivAt_id' x)) (hc x (s * √2)) (by positivity)).congr_deriv ?_
      field_simp
      ring
    have h5 : HasDerivAt (fun x => erfc (a * s / √2 + x / (s * √2))) (-(2 / √π) * exp (-(a * s / √2 + x / (s * √2)) ^ 2) * (1 / (s * √2))) x :=
      erfc_comp h3
    have h6 : HasDerivAt (fun x => erfc (-x / (s * √2))) (-(2 / √π) * exp (-(-x / (s * √2)) ^ 2) * (-1 / (s * √2))) x :=
      erfc_comp h4
    refine (HasDerivAt.fun_mul (hc x (1 / a)) (HasDerivAt.fun_add (HasDerivAt.fun_mul (HasDerivAt.exp h1) h5) h6)).congr_deriv ?_
    have e : exp (-(-x / (s * √2)) ^ 2) = exp (1 / 2 * a ^ 2 * s ^ 2 + x * a) * exp (-(a * s / √2 + x / (s * √2)) ^ 2) := by
      rw [← exp_add, ← key x]; congr 1
    rw [e]
    generalize exp (1 / 2 * a ^ 2 * s ^ 2 + x * a) = E
    generalize exp (-(a * s / √2 + x / (s * √2)) ^ 2) = F
    generalize erfc (a * s / √2 + x / (s * √2)) = C
    field_simp
    ring
  have hx : Tendsto (fun x : ℝ => x / (s * √2)) atTop atTop := tendsto_id.atTop_div_const (by positivity)
  have hxb : Tendsto (fun x : ℝ => x / (s * √2)) atBot atBot := tendsto_id.atBot_div_const (by positivity)
  have l1 : Tendsto (fun x => erfc (-x / (s * √2))) atTop (𝓝 2) := by
    have := erfc_atBot.comp (tendsto_neg_atTop_atBot.comp hx)
    refine this.congr fun x => ?_
    simp [neg_div]
  have l2 : Tendsto (fun x => erfc (-x / (s * √2))) atBot (𝓝 0) := by
    have := erfc_atTop.comp (tendsto_neg_atBot_atTop.comp hxb)
    refine this.congr fun x => ?_
    simp [neg_div]
  have l3 : Tendsto (fun x => exp (1 / 2 * a ^ 2 * s ^ 2 + x * a) * erfc (a * s / √2 + x / (s * √2))) atTop (𝓝 0) := by
    have h : Tendsto (fun x : ℝ => 2 * exp (-(x / (s * √2)) ^ 2)) atTop (𝓝 0) := by
      simpa using (gauss_tendsto.comp hx).const_mul 2
    refine squeeze_zero' (Eventually.of_forall fun x => (mul_pos (exp_pos _) (erfc_pos _)).le) ?_ h
    filter_upwards [eventually_ge_atTop 0] with x hx0
    have := erfc_le (x := a * s / √2 + x / (s * √2)) (by positivity)
    calc exp (1 / 2 * a ^ 2 * s ^ 2 + x * a) * erfc (a * s / √2 + x / (s * √2))
        ≤ exp (1 / 2 * a ^ 2 * s ^ 2 + x * a) * (2 * exp (-(a * s / √2 + x / (s * √2)) ^ 2)) := by gcongr
      _ = 2 * (exp (1 / 2 * a ^ 2 * s ^ 2 + x * a) * exp (-(a * s / √2 + x / (s * √2)) ^ 2)) := by ring
      _ = 2 * exp (-(x / (s * √2)) ^ 2) := by
        rw [← exp_add, show 1 / 2 * a ^ 2 * s ^ 2 + x * a + -(a * s / √2 + x / (s * √2)) ^ 2 = -(x / (s * √2)) ^ 2 by
          have := key x
          rw [neg_div, neg_sq] at this
          linarith]
  have l4 : Tendsto (fun x => exp (1 / 2 * a ^ 2 * s ^ 2 + x * a) * erfc (a * s / √2 + x / (s * √2))) atBot (𝓝 0) := by
    have h : Tendsto (fun x : ℝ => exp (1 / 2 * a ^ 2 * s ^ 2 + x * a) * 2) atBot (𝓝 0) := by
      have h1 : Tendsto (fun x : ℝ => 1 / 2 * a ^ 2 * s ^ 2 + x * a) atBot atBot :=
        tendsto_atBot_add_const_left _ _ (tendsto_id.atBot_mul_const ha)
      simpa using (tendsto_exp_atBot.comp h1).mul_const 2
    refine squeeze_zero (fun x => (mul_pos (exp_pos _) (erfc_pos _)).le) (fun x => ?_) h
    have := (erfc_lt_two (a * s / √2 + x / (s * √2))).le
    gcongr
  have hcont : Continuous fun x => exp (1 / 2 * a ^ 2 * s ^ 2 + x * a) * erfc (a * s / √2 + x / (s * √2)) := by
    have : Continuous fun x => erfc (a * s / √2 + x / (s * √2)) := ec.comp (by fun_prop)
    fun_prop
  rw [integral_of_nonneg hd hcont (fun x => (mul_pos (exp_pos _) (erfc_pos _)).le) ((l4.add l2).const_mul (1 / a))
    ((l3.add l1).const_mul (1 / a))]
  ring

theorem part_integrable {a s : ℝ} (ha : 0 < a) (hs : 0 < s) :
    Integrable fun x => exp (1 / 2 * a ^ 2 * s ^ 2 + x * a) * erfc (a * s / √2 + x / (s * √2)) := by
  by_contra h
  have := integral_undef h
  rw [part_integral ha hs] at this
  have : 0 < 2 / a := by positivity
  linarith

/-- C46: the area of the peak over all times is one, for all positive rise, decay and width. -/
theorem jorgensen_area {al be s : ℝ} (t0 : ℝ) (h1 : 0 < al) (h2 : 0 < be) (hs : 0 < s) : ∫ t, jorgensen al be s t t0 = 1 := by
  have hr : Real.rpow 2 (1 / 2) = √2 := by rw [Real.sqrt_eq_rpow]; rfl
  have e : ∀ t, jorgensen al be s t t0 = (fun x => 1 / 2 * al * be / (al + be) *
      (exp (1 / 2 * al ^ 2 * s ^ 2 + x * al) * erfc (al * s / √2 + x / (s * √2)) +
        exp (1 / 2 * be ^ 2 * s ^ 2 + -x * be) * erfc (be * s / √2 + -x / (s * √2)))) (t - t0) := by
    intro t
    unfold jorgensen jy jz ju jv
    dsimp only
    rw [hr]
    generalize t - t0 = x
    rw [show be * s / √2 - x / (s * √2) = be * s / √2 + -x / (s * √2) by ring,
      show 1 / 2 * be ^ 2 * s ^ 2 - x * be = 1 / 2 * be ^ 2 * s ^ 2 + -x * be by ring]
  simp only [e]
  rw [integral_sub_right_eq_self (fun x => 1 / 2 * al * be / (al + be) *
      (exp (1 / 2 * al ^ 2 * s ^ 2 + x * al) * erfc (al * s / √2 + x / (s * √2)) +
        exp (1 / 2 * be ^ 2 * s ^ 2 + -x * be) * erfc (be * s / √2 + -x / (s * √2)))) t0, integral_const_mul,
    integral_add (part_integrable h1 hs) (part_integrable h2 hs).comp_neg, part_integral h1 hs,
    integral_neg_eq_self (fun x => exp (1 / 2 * be ^ 2 * s ^ 2 + x * be) * erfc (be * s / √2 + x / (s * √2))), part_integral h2 hs]
  field_simp
  ring

example : ∫ t, jorgensen 2 0.3 5 t 4000 = 1 := jorgensen_area _ (by norm_num) (by norm_num) (by norm_num)

end Cryspy.Tof
