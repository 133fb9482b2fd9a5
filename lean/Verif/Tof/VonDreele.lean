import Verif.Tof.Props
import Verif.Tof.AreaProps
import Verif.Powder.Props
import Mathlib.MeasureTheory.Integral.ExpDecay

/-!
# C46: the pseudo-Voigt peak of the time-of-flight profile

`tof_Jorgensen_VonDreele` takes `exp1 z` for `exp z * exp1 z` and `2 π` for `2 / π`.
-/

namespace Cryspy.Tof

open Real MeasureTheory Filter Topology

/-- `scipy.special.exp1` for a complex number off the negative real axis: the integral of `exp(-s)/s` from `z` to infinity, along the line
parallel to the real axis. -/
noncomputable def exp1 (z : ℂ) : ℂ := ∫ t in Set.Ioi (0 : ℝ), Complex.exp (-(z + t)) / (z + t)

/-- `oml_a_2d`, `oml_b_2d`: A_functions_base/powder_diffraction_tof.py:115, 134-147 (the replacement of NaN and infinities of `exp1`, which
come from the range of doubles, is left out). -/
noncomputable def oml (a γ δ : ℝ) : ℝ := -(exp1 ⟨a * δ, 1 / 2 * a * γ⟩).im * (2 * π)

/-- `profile_l_2d`, powder_diffraction_tof.py:116, 134-148. -/
noncomputable def profileL (al be γ δ : ℝ) : ℝ := 1 / 2 * al * be / (al + be) * (oml al γ δ + oml be γ (-δ))

/-- `tof_Jorgensen_VonDreele`, powder_diffraction_tof.py:114-151. -/
noncomputable def vonDreele (al be s γ t t0 : ℝ) : ℝ :=
  (1 - tof_eta s γ) * jorgensen al be s t t0 + tof_eta s γ * profileL al be γ (t - t0)

/-- C46: the pseudo-Voigt peak, too, depends on the distance to the position only, and exchanging rise and decay mirrors it. -/
theorem vonDreele_mirror (al be s γ t t0 c : ℝ) :
    vonDreele be al s γ t t0 = vonDreele al be s γ (2 * t0 - t) t0 ∧ vonDreele al be s γ (t + c) (t0 + c) = vonDreele al be s γ t t0 := by
  obtain ⟨h1, h2⟩ := jorgensen_mirror al be s t t0 c
  constructor
  · unfold vonDreele
    rw [h1]
    have : profileL be al γ (t - t0) = profileL al be γ (2 * t0 - t - t0) := by
      unfold profileL
      rw [show 2 * t0 - t - t0 = -(t - t0) by ring, neg_neg, add_comm be al]
      ring
    rw [this]
  · unfold vonDreele
    rw [h2, show t + c - (t0 + c) = t - t0 by ring]

/-- C46: without a Lorentzian width it is the Gaussian peak. -/
theorem vonDreele_gauss (al be : ℝ) {s : ℝ} (t t0 : ℝ) : vonDreele al be s 0 t t0 = jorgensen al be s t t0 := by
  have : tof_eta s 0 = 0 := by
    rw [(tof_width_mixing s 0).2]; simp [Powder.eta]
  unfold vonDreele
  rw [this]; ring

/-- the integrand on the line `Im = π` -/
theorem exp1_integrand (x t : ℝ) :
    (Complex.exp (-((⟨x, π⟩ : ℂ) + t)) / ((⟨x, π⟩ : ℂ) + t)).im = exp (-(x + t)) * π / ((x + t) ^ 2 + π ^ 2) := by
  have e : ((⟨x, π⟩ : ℂ) + t) = ((x + t : ℝ) : ℂ) + π * Complex.I := by
    apply Complex.ext <;> simp
  rw [e, show -(((x + t : ℝ) : ℂ) + π * Complex.I) = ((-(x + t) : ℝ) : ℂ) + -(π * Complex.I) by push_cast; ring, Complex.exp_add,
    Complex.exp_neg (π * Complex.I), Complex.exp_pi_mul_I, ← Complex.ofReal_exp]
  rw [Complex.div_im]
  have hn : Complex.normSq (((x + t : ℝ) : ℂ) + π * Complex.I) = (x + t) ^ 2 + π ^ 2 := by
    simp [Complex.normSq_apply]; ring
  rw [hn]
  generalize exp (-(x + t)) = r
  generalize (x + t) ^ 2 + π ^ 2 = d
  simp
  ring

theorem exp1_integrable (x : ℝ) : IntegrableOn (fun t : ℝ => Complex.exp (-((⟨x, π⟩ : ℂ) + t)) / ((⟨x, π⟩ : ℂ) + t)) (Set.Ioi 0) := by
  have hg : IntegrableOn (fun t : ℝ => exp (-x) / π * exp (-1 * t)) (Set.Ioi 0) := (exp_neg_integrableOn_Ioi 0 one_pos).const_mul _
  have hne : ∀ t : ℝ, ((⟨x, π⟩ : ℂ) + t) ≠ 0 := by
    intro t h
    have := congrArg Complex.im h
    simp at this
  refine Integrable.mono' hg ?_ ?_
  · refine Continuous.aestronglyMeasurable ?_
    exact (Complex.continuous_exp.comp (by fun_prop)).div (by fun_prop) hne
  · refine Eventually.of_forall fun t => ?_
    rw [norm_div, Complex.norm_exp]
    have h1 : π ≤ ‖((⟨x, π⟩ : ℂ) + t)‖ := by
      have := Complex.abs_im_le_norm ((⟨x, π⟩ : ℂ) + t)
      simp at this
      rwa [abs_of_pos pi_pos] at this
    have h2 : (-((⟨x, π⟩ : ℂ) + t)).re = -x + -1 * t := by simp; ring
    rw [h2, exp_add, div_mul_eq_mul_div]
    gcongr

theorem exp1_im (x : ℝ) : (exp1 ⟨x, π⟩).im = ∫ t in Set.Ioi (0 : ℝ), exp (-(x + t)) * π / ((x + t) ^ 2 + π ^ 2) := by
  unfold exp1
  have := (Complex.imCLM.integral_comp_comm (exp1_integrable x))
  simp only [Complex.imCLM_apply] at this
  rw [← this]
  exact integral_congr_ae (Eventually.of_forall fun t => exp1_integrand x t)

theorem exp1_im_integrable (x : ℝ) : IntegrableOn (fun t : ℝ => exp (-(x + t)) * π / ((x + t) ^ 2 + π ^ 2)) (Set.Ioi 0) := by
  refine (Complex.imCLM.integrable_comp (exp1_integrable x)).congr (Eventually.of_forall fun t => ?_)
  exact exp1_integrand x t

theorem exp1_im_nonneg (x : ℝ) : 0 ≤ (exp1 ⟨x, π⟩).im := by
  rw [exp1_im]
  exact integral_nonneg fun t => by positivity

/-- far on the negative side it grows exponentially -/
theorem exp1_im_large {x : ℝ} (hx : x ≤ -1) : exp (-(x + 1)) * π / (x ^ 2 + π ^ 2) ≤ (exp1 ⟨x, π⟩).im := by
  rw [exp1_im]
  have hp := pi_pos
  have h1 : ∫ _ in Set.Ioc (0 : ℝ) 1, exp (-(x + 1)) * π / (x ^ 2 + π ^ 2) = exp (-(x + 1)) * π / (x ^ 2 + π ^ 2) := by
    rw [setIntegral_const]; simp
  rw [← h1]
  calc _ ≤ ∫ t in Set.Ioc (0 : ℝ) 1, exp (-(x + t)) * π / ((x + t) ^ 2 + π ^ 2) := by
        refine setIntegral_mono_on ?_ ((exp1_im_integrable x).mono_set Set.Ioc_subset_Ioi_self) measurableSet_Ioc ?_
        · exact integrableOn_const (by simp) (by simp)
        · intro t ht
          have h2 : (x + t) ^ 2 ≤ x ^ 2 := by
            have a1 : 0 ≤ -(x + t) := by linarith [ht.2]
            nlinarith [ht.1, ht.2]
          have h3 : exp (-(x + 1)) ≤ exp (-(x + t)) := exp_le_exp.2 (by linarith [ht.2])
          gcongr
    _ ≤ _ := setIntegral_mono_set (exp1_im_integrable x) (Eventually.of_forall fun t => by positivity)
        (Eventually.of_forall Set.Ioc_subset_Ioi_self)

/-- C46, failure: for a Lorentzian width `γ = 2π/α` (rise and decay alike) the Lorentzian part of the peak is nowhere positive. -/
theorem profileL_negative {al : ℝ} (ha : 0 < al) (δ : ℝ) : profileL al al (2 * π / al) δ ≤ 0 := by
  have hy : 1 / 2 * al * (2 * π / al) = π := by field_simp
  unfold profileL oml
  rw [hy]
  have h1 := exp1_im_nonneg (al * δ)
  have h2 := exp1_im_nonneg (al * -δ)
  have h3 : 0 ≤ 1 / 2 * al * al / (al + al) := by positivity
  have h4 : -(exp1 ⟨al * δ, π⟩).im * (2 * π) + -(exp1 ⟨al * -δ, π⟩).im * (2 * π) ≤ 0 := by
    have := pi_pos
    nlinarith [mul_nonneg h1 this.le, mul_nonneg h2 this.le]
  exact mul_nonpos_of_nonneg_of_nonpos h3 h4

/-- the Gaussian part is bounded before the peak -/
theorem jorgensen_bounded {al be s : ℝ} (ha : 0 < al) (hb : 0 < be) (hs : 0 < s) {t t0 : ℝ} (h : t ≤ t0) :
    jorgensen al be s t t0 ≤ 1 / 2 * al * be / (al + be) * (exp (1 / 2 * al ^ 2 * s ^ 2) * 2 + 2) := by
  set δ := t - t0 with hδ
  have hd : δ ≤ 0 := by rw [hδ]; linarith
  obtain ⟨e1, e2, e3, e4⟩ := jorgensen_quantities al be δ hs.ne'
  have h0 : jorgensen al be s t t0 = 1 / 2 * al * be / (al + be) * (exp (ju al be s δ) * erfc (jy al be s δ) + exp (jv al be s δ) * erfc (jz al be s δ)) := rfl
  rw [h0]
  have hn : 0 ≤ 1 / 2 * al * be / (al + be) := by positivity
  refine mul_le_mul_of_nonneg_left (add_le_add ?_ ?_) hn
  · refine mul_le_mul ?_ (erfc_lt_two _).le (erfc_pos _).le (exp_pos _).le
    refine exp_le_exp.2 ?_
    rw [e3]
    nlinarith
  · have hz : 0 ≤ jz al be s δ := by
      rw [e2]
      refine div_nonneg ?_ (by positivity)
      nlinarith [sq_nonneg s]
    calc exp (jv al be s δ) * erfc (jz al be s δ) ≤ exp (jv al be s δ) * (2 * exp (-(jz al be s δ) ^ 2)) :=
          mul_le_mul_of_nonneg_left (erfc_le hz) (exp_pos _).le
      _ = 2 * exp (jv al be s δ + -(jz al be s δ) ^ 2) := by rw [exp_add]; ring
      _ ≤ 2 * 1 := by
          refine mul_le_mul_of_nonneg_left ?_ (by norm_num)
          rw [← exp_zero]
          refine exp_le_exp.2 ?_
          rw [e4, e2, div_pow, mul_pow, sq_sqrt (by norm_num : (0:ℝ) ≤ 2)]
          rw [show be / 2 * (be * s ^ 2 - 2 * δ) + -((be * s ^ 2 - δ) ^ 2 / (s ^ 2 * 2)) = -(δ ^ 2 / (s ^ 2 * 2)) by field_simp; ring]
          have : 0 ≤ δ ^ 2 / (s ^ 2 * 2) := by positivity
          linarith
      _ = 2 := by ring

/-- C46, failure: with a Lorentzian width the peak is neither positive nor a peak: for `γ = 2π/α` it falls below every bound before the
peak. -/
theorem vonDreele_unbounded {al s : ℝ} (ha : 0 < al) (hs : 0 < s) (t0 : ℝ) :
    Tendsto (fun t => vonDreele al al s (2 * π / al) t t0) atBot atBot := by
  set γ := 2 * π / al with hγ
  have hg : 0 < γ := by positivity
  have hy : 1 / 2 * al * γ = π := by rw [hγ]; field_simp
  have hη := Powder.eta_spec (l := γ) (h := Powder.h_pv s γ) hg.le
    (lt_of_lt_of_le hg (le_trans (le_max_right s γ) (Powder.h_pv_spec hs.le hg.le).1)) (le_trans (le_max_right s γ) (Powder.h_pv_spec hs.le hg.le).1)
  have heta : tof_eta s γ = Powder.eta γ (Powder.h_pv s γ) := (tof_width_mixing s γ).2
  rw [← heta] at hη
  have hpos : 0 < tof_eta s γ := lt_of_le_of_ne hη.1 fun h => hg.ne' (hη.2.2.1.1 h.symm)
  set η := tof_eta s γ
  set C := 1 / 2 * al * al / (al + al) * (exp (1 / 2 * al ^ 2 * s ^ 2) * 2 + 2) with hC
  have hC0 : 0 ≤ C := by positivity
  set K := η * (1 / 2 * al * al / (al + al)) * (2 * π) with hK
  have hK0 : 0 < K := by have := pi_pos; positivity
  -- comparison function
  have hlim : Tendsto (fun t : ℝ => C - K * (exp (-(al * (t - t0) + 1)) * π / ((al * (t - t0)) ^ 2 + π ^ 2))) atBot atBot := by
    have hx : Tendsto (fun t : ℝ => -(al * (t - t0))) atBot atTop := by
      refine tendsto_neg_atBot_atTop.comp ?_
      exact (tendsto_atBot_add_const_right _ (-t0) tendsto_id).const_mul_atBot ha
    have hx2 : Tendsto (fun x : ℝ => exp (x - 1) * π / (x ^ 2 + π ^ 2)) atTop atTop := by
      have h1 : Tendsto (fun x : ℝ => exp x / x ^ 2) atTop atTop := tendsto_exp_div_pow_atTop 2
      have h2 : Tendsto (fun x : ℝ => exp (-1) * π / (1 + π ^ 2) * (exp x / x ^ 2)) atTop atTop :=
        h1.const_mul_atTop (by have := pi_pos; positivity)
      refine tendsto_atTop_mono' _ ?_ h2
      filter_upwards [eventually_ge_atTop 1] with x hx
      rw [show exp (x - 1) = exp (-1) * exp x by rw [← exp_add]; ring_nf]
      have hp := pi_pos
      rw [div_mul_div_comm, show exp (-1) * π * exp x = exp (-1) * exp x * π by ring]
      refine div_le_div_of_nonneg_left (by positivity) (by positivity) ?_
      nlinarith [sq_nonneg π, mul_nonneg (sq_nonneg π) (by nlinarith : (0:ℝ) ≤ x ^ 2 - 1)]
    have h3 := (hx2.comp hx).const_mul_atTop hK0
    have h4 := tendsto_atBot_add_const_left _ C (tendsto_neg_atTop_atBot.comp h3)
    refine h4.congr fun t => ?_
    simp only [Function.comp]
    rw [show -(al * (t - t0)) - 1 = -(al * (t - t0) + 1) by ring, neg_sq]
    ring
  refine tendsto_atBot_mono' _ ?_ hlim
  filter_upwards [eventually_le_atBot (t0 - 1 / al)] with t ht
  have hx1 : al * (t - t0) ≤ -1 := by
    have : t - t0 ≤ -(1 / al) := by linarith
    calc al * (t - t0) ≤ al * -(1 / al) := mul_le_mul_of_nonneg_left this ha.le
      _ = -1 := by field_simp
  have ht0 : t ≤ t0 := by
    have : 0 < 1 / al := by positivity
    linarith
  have hG := jorgensen_bounded ha ha hs ht0
  rw [← hC] at hG
  have hG0 := jorgensen_pos s t t0 ha ha
  have hL : profileL al al γ (t - t0) ≤ -(1 / 2 * al * al / (al + al)) * (2 * π) * (exp (-(al * (t - t0) + 1)) * π / ((al * (t - t0)) ^ 2 + π ^ 2)) := by
    unfold profileL oml
    rw [hy]
    have h1 := exp1_im_large hx1
    have h2 := exp1_im_nonneg (al * -(t - t0))
    have h3 : 0 ≤ 1 / 2 * al * al / (al + al) := by positivity
    have hp := pi_pos
    have h5 : -(exp1 ⟨al * (t - t0), π⟩).im * (2 * π) + -(exp1 ⟨al * -(t - t0), π⟩).im * (2 * π) ≤
        -(2 * π) * (exp (-(al * (t - t0) + 1)) * π / ((al * (t - t0)) ^ 2 + π ^ 2)) := by
      nlinarith [mul_le_mul_of_nonneg_right h1 hp.le, mul_nonneg h2 hp.le]
    calc _ ≤ 1 / 2 * al * al / (al + al) * (-(2 * π) * (exp (-(al * (t - t0) + 1)) * π / ((al * (t - t0)) ^ 2 + π ^ 2))) :=
          mul_le_mul_of_nonneg_left h5 h3
      _ = _ := by ring
  unfold vonDreele
  have h6 : (1 - η) * jorgensen al al s t t0 ≤ C := by
    have : (1 - η) * jorgensen al al s t t0 ≤ 1 * jorgensen al al s t t0 := mul_le_mul_of_nonneg_right (by linarith) hG0.le
    linarith
  have h7 := mul_le_mul_of_nonneg_left hL hpos.le
  calc _ ≤ C + η * (-(1 / 2 * al * al / (al + al)) * (2 * π) * (exp (-(al * (t - t0) + 1)) * π / ((al * (t - t0)) ^ 2 + π ^ 2))) := add_le_add h6 h7
    _ = _ := by rw [hK]; ring

/-- an instance: equal rise and decay 1, width 1 -/
example : ∃ t, vonDreele 1 1 1 (2 * π / 1) t 0 < -1000 := by
  have h := vonDreele_unbounded (al := 1) (s := 1) one_pos one_pos 0
  exact ((tendsto_atBot.1 h (-1001)).exists).imp fun t ht => by linarith

end Cryspy.Tof
