import Verif.Powder.POModel
import Verif.Cell.Props
import Mathlib.Analysis.SpecialFunctions.Pow.Deriv
import Mathlib.Analysis.SpecialFunctions.Sqrt
import Mathlib.Analysis.Calculus.Deriv.Inv
import Mathlib.MeasureTheory.Integral.IntervalIntegral.FundThmCalculus

/-!
# C27: preferred orientation

`marchDollase` is the textbook formula (modified March-Dollase with a random fraction `g2`); the theorems are about the model of
A_functions_base/preferred_orientation.py.
-/

namespace Cryspy.Powder

open Cryspy.Cell Real

/-- The modified March-Dollase factor of a reflection whose texture axis makes the angle with cosine `c` with the scattering
vector: a fraction `g2` is random, the rest follows `(g1² c² + (1-c²)/g1)^(-3/2)`. -/
noncomputable def marchDollase (g1 g2 c : ℝ) : ℝ := g2 + (1 - g2) * (g1 ^ 2 * c ^ 2 + (1 - c ^ 2) / g1) ^ (-(3 / 2) : ℝ)

/-! ### lemmas -/

theorem base_pos {g c : ℝ} (hg : 0 < g) (hc : c ^ 2 ≤ 1) : 0 < g ^ 2 * c ^ 2 + (1 - c ^ 2) / g := by
  have h1 : 0 ≤ 1 - c ^ 2 := by linarith
  rcases eq_or_ne c 0 with rfl | h0
  · simp; exact hg
  · have : 0 < c ^ 2 := by positivity
    positivity

theorem hh_eq {g : ℝ} (c : ℝ) : 1 / g + (g ^ 2 - 1 / g) * c = g ^ 2 * c + (1 - c) / g := by ring

theorem rpow_neg_three_halves {x : ℝ} (hp : 0 < x) : x ^ (-(3 / 2) : ℝ) = 1 / √x ^ 3 := by
  rw [Real.sqrt_eq_rpow, ← Real.rpow_natCast, ← Real.rpow_mul hp.le, Real.rpow_neg hp.le, one_div]
  norm_num

/-- The direction has length at most one, for any input. -/
theorem eq_ccs_le (hkl : Fin 3 → ℝ) (uc : Fin 6 → ℝ) :
    calc_eq_ccs hkl uc 0 ^ 2 + calc_eq_ccs hkl uc 1 ^ 2 + calc_eq_ccs hkl uc 2 ^ 2 ≤ 1 := by
  unfold calc_eq_ccs
  simp only [Matrix.cons_val]
  generalize calc_q_ccs hkl uc 0 = x
  generalize calc_q_ccs hkl uc 1 = y
  generalize calc_q_ccs hkl uc 2 = z
  have hs : 0 ≤ x ^ 2 + y ^ 2 + z ^ 2 := by positivity
  have hq := Real.sq_sqrt hs
  by_cases h : √(x ^ 2 + y ^ 2 + z ^ 2) = 0
  · rw [if_neg (by simpa using h)]
    rw [h] at hq
    have : x ^ 2 + y ^ 2 + z ^ 2 = 0 := by rw [← hq]; ring
    simp; linarith
  · rw [if_pos h, div_pow, div_pow, div_pow, hq, ← add_div, ← add_div]
    exact div_self_le_one _

theorem cosAxis_sq_le (hkl axis : Fin 3 → ℝ) (uc : Fin 6 → ℝ) : cosAxis hkl axis uc ^ 2 ≤ 1 := by
  have h1 := eq_ccs_le hkl uc
  have h2 := eq_ccs_le axis uc
  unfold cosAxis
  generalize calc_eq_ccs hkl uc 0 = a at *
  generalize calc_eq_ccs hkl uc 1 = b at *
  generalize calc_eq_ccs hkl uc 2 = c at *
  generalize calc_eq_ccs axis uc 0 = x at *
  generalize calc_eq_ccs axis uc 1 = y at *
  generalize calc_eq_ccs axis uc 2 = z at *
  have : (x * a + y * b + z * c) ^ 2 ≤ (x ^ 2 + y ^ 2 + z ^ 2) * (a ^ 2 + b ^ 2 + c ^ 2) := by
    nlinarith [sq_nonneg (x * b - y * a), sq_nonneg (x * c - z * a), sq_nonneg (y * c - z * b)]
  have h3 : (x ^ 2 + y ^ 2 + z ^ 2) * (a ^ 2 + b ^ 2 + c ^ 2) ≤ 1 * 1 := by gcongr
  linarith

theorem eq_ccs_smul {t : ℝ} (ht : 0 < t) (hkl : Fin 3 → ℝ) (uc : Fin 6 → ℝ) :
    calc_eq_ccs (t • hkl) uc = calc_eq_ccs hkl uc := by
  have hq : ∀ i, calc_q_ccs (t • hkl) uc i = t * calc_q_ccs hkl uc i := by
    intro i
    unfold calc_q_ccs
    fin_cases i <;> simp <;> ring
  unfold calc_eq_ccs
  dsimp only
  rw [hq, hq, hq]
  generalize calc_q_ccs hkl uc 0 = x
  generalize calc_q_ccs hkl uc 1 = y
  generalize calc_q_ccs hkl uc 2 = z
  have e : √((t * x) ^ 2 + (t * y) ^ 2 + (t * z) ^ 2) = t * √(x ^ 2 + y ^ 2 + z ^ 2) := by
    rw [show (t * x) ^ 2 + (t * y) ^ 2 + (t * z) ^ 2 = t ^ 2 * (x ^ 2 + y ^ 2 + z ^ 2) by ring,
      Real.sqrt_mul (by positivity), Real.sqrt_sq ht.le]
  rw [e]
  by_cases h : √(x ^ 2 + y ^ 2 + z ^ 2) = 0
  · have hs : 0 ≤ x ^ 2 + y ^ 2 + z ^ 2 := by positivity
    have := (Real.sqrt_eq_zero hs).1 h
    have hx : x = 0 := by nlinarith [sq_nonneg y, sq_nonneg z]
    have hy : y = 0 := by nlinarith [sq_nonneg x, sq_nonneg z]
    have hz : z = 0 := by nlinarith [sq_nonneg x, sq_nonneg y]
    simp [hx, hy, hz]
  · rw [if_pos h, if_pos (mul_ne_zero ht.ne' h)]
    congr 1
    · field_simp
    · congr 1
      · field_simp
      · congr 1
        field_simp

theorem eq_ccs_neg (hkl : Fin 3 → ℝ) (uc : Fin 6 → ℝ) : calc_eq_ccs (-hkl) uc = -calc_eq_ccs hkl uc := by
  have hq : ∀ i, calc_q_ccs (-hkl) uc i = -calc_q_ccs hkl uc i := by
    intro i
    unfold calc_q_ccs
    fin_cases i <;> simp <;> ring
  unfold calc_eq_ccs
  dsimp only
  rw [hq, hq, hq]
  simp only [neg_sq, neg_div]
  ext i
  fin_cases i <;> simp

theorem cosAxis_neg (hkl axis : Fin 3 → ℝ) (uc : Fin 6 → ℝ) : cosAxis (-hkl) axis uc = -cosAxis hkl axis uc := by
  unfold cosAxis
  rw [eq_ccs_neg]
  simp only [Pi.neg_apply]; ring

/-- The one-detector factor uses the sine of the angle between axis and reflection. -/
theorem poPd_eq (hkl : Fin 3 → ℝ) (g1 g2 : ℝ) (axis : Fin 3 → ℝ) (uc : Fin 6 → ℝ) :
    poPd hkl g1 g2 axis uc = marchDollase g1 g2 (√(1 - cosAxis hkl axis uc ^ 2)) := by
  have h := cosAxis_sq_le hkl axis uc
  unfold poPd po_pd_cos marchDollase
  dsimp only
  rw [Real.sq_sqrt (by linarith), abs_of_nonneg (by linarith : 0 ≤ 1 - cosAxis hkl axis uc ^ 2), hh_eq]
  rfl

theorem clip2d {c : ℝ} (h : c ^ 2 ≤ 1) : ¬ c > 1 ∧ ¬ 1 - c ^ 2 < 0 := ⟨by nlinarith, by linarith⟩

/-- C27: the area-detector factor is the March-Dollase factor of the angle between axis and reflection less the detector angle. -/
theorem poPd2d_eq (α : ℝ) (hkl : Fin 3 → ℝ) (g1 g2 : ℝ) (axis : Fin 3 → ℝ) (uc : Fin 6 → ℝ) :
    poPd2d α hkl g1 g2 axis uc = marchDollase g1 g2 (cos (arccos (cosAxis hkl axis uc) - α)) := by
  have h := cosAxis_sq_le hkl axis uc
  have hb : -1 ≤ cosAxis hkl axis uc ∧ cosAxis hkl axis uc ≤ 1 := by constructor <;> nlinarith
  obtain ⟨c1, c2⟩ := clip2d h
  unfold poPd2d po_pd2d_cos marchDollase
  dsimp only
  rw [if_neg c1, if_neg c2, hh_eq, cos_sub, cos_arccos hb.1 hb.2, sin_arccos]
  rfl

/-! ### properties -/

theorem marchDollase_pos {g1 g2 c : ℝ} (h1 : 0 < g1) (h2 : 0 ≤ g2) (h3 : g2 ≤ 1) (hc : c ^ 2 ≤ 1) : 0 < marchDollase g1 g2 c := by
  unfold marchDollase
  have := rpow_pos_of_pos (base_pos h1 hc) (-(3 / 2))
  rcases eq_or_lt_of_le h3 with rfl | h
  · simp
  · have : 0 < 1 - g2 := by linarith
    positivity

theorem marchDollase_random {g1 g2 : ℝ} (c : ℝ) (h : g1 = 1 ∨ g2 = 1) : marchDollase g1 g2 c = 1 := by
  unfold marchDollase
  rcases h with rfl | rfl <;> simp

theorem sin_sq_le (hkl axis : Fin 3 → ℝ) (uc : Fin 6 → ℝ) : √(1 - cosAxis hkl axis uc ^ 2) ^ 2 ≤ 1 := by
  have := cosAxis_sq_le hkl axis uc
  rw [Real.sq_sqrt (by linarith)]
  have := sq_nonneg (cosAxis hkl axis uc)
  linarith

/-- C27: the factors are positive. -/
theorem po_pos (α : ℝ) (hkl : Fin 3 → ℝ) {g1 g2 : ℝ} (axis : Fin 3 → ℝ) (uc : Fin 6 → ℝ) (h1 : 0 < g1) (h2 : 0 ≤ g2) (h3 : g2 ≤ 1) :
    0 < poPd hkl g1 g2 axis uc ∧ 0 < poPd2d α hkl g1 g2 axis uc := by
  rw [poPd_eq, poPd2d_eq]
  exact ⟨marchDollase_pos h1 h2 h3 (sin_sq_le _ _ _), marchDollase_pos h1 h2 h3 (cos_sq_le_one _)⟩

/-- C27: a random powder has no texture correction. -/
theorem po_random (α : ℝ) (hkl : Fin 3 → ℝ) {g1 g2 : ℝ} (axis : Fin 3 → ℝ) (uc : Fin 6 → ℝ) (h : g1 = 1 ∨ g2 = 1) :
    poPd hkl g1 g2 axis uc = 1 ∧ poPd2d α hkl g1 g2 axis uc = 1 := by
  rw [poPd_eq, poPd2d_eq]
  exact ⟨marchDollase_random _ h, marchDollase_random _ h⟩

/-- C27: the length of the texture axis does not matter. -/
theorem po_axis_scale (α : ℝ) (hkl : Fin 3 → ℝ) (g1 g2 : ℝ) (axis : Fin 3 → ℝ) (uc : Fin 6 → ℝ) {t : ℝ} (ht : 0 < t) :
    poPd hkl g1 g2 (t • axis) uc = poPd hkl g1 g2 axis uc ∧ poPd2d α hkl g1 g2 (t • axis) uc = poPd2d α hkl g1 g2 axis uc := by
  have : cosAxis hkl (t • axis) uc = cosAxis hkl axis uc := by unfold cosAxis; rw [eq_ccs_smul ht]
  unfold poPd poPd2d
  rw [this]; exact ⟨rfl, rfl⟩

/-- C27: the one-detector factor is the same for a reflection and its Friedel mate. -/
theorem po_pd_friedel (hkl : Fin 3 → ℝ) (g1 g2 : ℝ) (axis : Fin 3 → ℝ) (uc : Fin 6 → ℝ) :
    poPd (-hkl) g1 g2 axis uc = poPd hkl g1 g2 axis uc := by
  rw [poPd_eq, poPd_eq, cosAxis_neg, neg_sq]

/-- C27: for the area detector the mate is seen at the opposite detector angle. -/
theorem po_pd2d_friedel (α : ℝ) (hkl : Fin 3 → ℝ) (g1 g2 : ℝ) (axis : Fin 3 → ℝ) (uc : Fin 6 → ℝ) :
    poPd2d (-α) (-hkl) g1 g2 axis uc = poPd2d α hkl g1 g2 axis uc := by
  rw [poPd2d_eq, poPd2d_eq, cosAxis_neg, arccos_neg, show π - arccos (cosAxis hkl axis uc) - -α = π - (arccos (cosAxis hkl axis uc) - α) by ring,
    cos_pi_sub]
  unfold marchDollase
  rw [neg_sq]

theorem md_hasDeriv_g1 {g1 g2 c : ℝ} (h1 : 0 < g1) (hc : c ^ 2 ≤ 1) : HasDerivAt (fun g => marchDollase g g2 c)
    (-(3 / 2) * (1 - g2) * (g1 ^ 2 * c ^ 2 + (1 - c ^ 2) / g1) ^ (-(5 / 2) : ℝ) * (-(1 - c ^ 2) / g1 ^ 2 + 2 * c ^ 2 * g1)) g1 := by
  unfold marchDollase
  have hc' := fun t a : ℝ => hasDerivAt_const t a
  have hb : HasDerivAt (fun g => g ^ 2 * c ^ 2 + (1 - c ^ 2) / g) (-(1 - c ^ 2) / g1 ^ 2 + 2 * c ^ 2 * g1) g1 := by
    refine (HasDerivAt.fun_add (HasDerivAt.fun_mul (HasDerivAt.fun_pow (hasDerivAt_id' g1) 2) (hc' g1 (c ^ 2)))
      (HasDerivAt.fun_div (hc' g1 (1 - c ^ 2)) (hasDerivAt_id' g1) h1.ne')).congr_deriv ?_
    simp only [Nat.cast_ofNat, Nat.add_one_sub_one, pow_one]
    ring
  refine (HasDerivAt.fun_add (hc' g1 g2) (HasDerivAt.fun_mul (hc' g1 (1 - g2)) (HasDerivAt.rpow_const hb
    (.inl (base_pos h1 hc).ne')))).congr_deriv ?_
  rw [show (-(3 / 2) - 1 : ℝ) = -(5 / 2) by norm_num]
  ring

theorem md_hasDeriv_g2 (g1 g2 c : ℝ) : HasDerivAt (fun g => marchDollase g1 g c)
    (1 - (g1 ^ 2 * c ^ 2 + (1 - c ^ 2) / g1) ^ (-(3 / 2) : ℝ)) g2 := by
  unfold marchDollase
  have hc' := fun t a : ℝ => hasDerivAt_const t a
  refine (HasDerivAt.fun_add (hasDerivAt_id' g2) (HasDerivAt.fun_mul (HasDerivAt.fun_sub (hc' g2 1) (hasDerivAt_id' g2)) (hc' g2 _))).congr_deriv ?_
  ring

/-- C27: the reported derivatives of the one-detector factor are the derivatives. -/
theorem d_po_pd_spec (hkl : Fin 3 → ℝ) {g1 : ℝ} (g2 : ℝ) (axis : Fin 3 → ℝ) (uc : Fin 6 → ℝ) (h1 : 0 < g1) :
    HasDerivAt (fun g => poPd hkl g g2 axis uc) (dPoPdG1 hkl g1 g2 axis uc) g1 ∧
    HasDerivAt (fun g => poPd hkl g1 g axis uc) (dPoPdG2 hkl g1 g2 axis uc) g2 := by
  have h := cosAxis_sq_le hkl axis uc
  have hs := sin_sq_le hkl axis uc
  simp only [poPd_eq]
  refine ⟨(md_hasDeriv_g1 h1 hs).congr_deriv ?_, (md_hasDeriv_g2 g1 g2 _).congr_deriv ?_⟩
  · unfold dPoPdG1 d_po_pd_g1_cos
    dsimp only
    rw [Real.sq_sqrt (by linarith), abs_of_nonneg (by linarith : 0 ≤ 1 - cosAxis hkl axis uc ^ 2), hh_eq]
    rfl
  · unfold dPoPdG2 d_po_pd_g2_cos
    dsimp only
    rw [Real.sq_sqrt (by linarith), abs_of_nonneg (by linarith : 0 ≤ 1 - cosAxis hkl axis uc ^ 2), hh_eq]
    rfl

/-- C27: the reported derivatives of the area-detector factor are the derivatives. -/
theorem d_po_pd2d_spec (α : ℝ) (hkl : Fin 3 → ℝ) {g1 : ℝ} (g2 : ℝ) (axis : Fin 3 → ℝ) (uc : Fin 6 → ℝ) (h1 : 0 < g1) :
    HasDerivAt (fun g => poPd2d α hkl g g2 axis uc) (dPoPd2dG1 α hkl g1 g2 axis uc) g1 ∧
    HasDerivAt (fun g => poPd2d α hkl g1 g axis uc) (dPoPd2dG2 α hkl g1 g2 axis uc) g2 := by
  have h := cosAxis_sq_le hkl axis uc
  have hb : -1 ≤ cosAxis hkl axis uc ∧ cosAxis hkl axis uc ≤ 1 := by constructor <;> nlinarith
  obtain ⟨c1, c2⟩ := clip2d h
  simp only [poPd2d_eq]
  refine ⟨(md_hasDeriv_g1 h1 (cos_sq_le_one _)).congr_deriv ?_, (md_hasDeriv_g2 g1 g2 _).congr_deriv ?_⟩
  · unfold dPoPd2dG1 d_po_pd2d_g1_cos
    dsimp only
    rw [if_neg c1, if_neg c2, hh_eq, cos_sub, cos_arccos hb.1 hb.2, sin_arccos]
    rfl
  · unfold dPoPd2dG2 d_po_pd2d_g2_cos
    dsimp only
    rw [if_neg c1, if_neg c2, hh_eq, cos_sub, cos_arccos hb.1 hb.2, sin_arccos]
    rfl

/-- C27: texture only redistributes intensity: the March-Dollase factor averages to one over all orientations of the axis
(the cosine is uniform on [0,1] for random directions). -/
theorem marchDollase_average {g1 : ℝ} (g2 : ℝ) (h1 : 0 < g1) : ∫ c in (0:ℝ)..1, marchDollase g1 g2 c = 1 := by
  have hB : ∀ c ∈ Set.uIcc (0:ℝ) 1, 0 < g1 ^ 2 * c ^ 2 + (1 - c ^ 2) / g1 := by
    intro c hc
    rw [Set.uIcc_of_le (by norm_num)] at hc
    exact base_pos h1 (by nlinarith [hc.1, hc.2])
  have hd : ∀ c ∈ Set.uIcc (0:ℝ) 1, HasDerivAt (fun c => g2 * c + (1 - g2) * (g1 * c / √(g1 ^ 2 * c ^ 2 + (1 - c ^ 2) / g1)))
      (marchDollase g1 g2 c) c := by
    intro c hc
    have hp := hB c hc
    have hsq := Real.sqrt_pos.2 hp
    have hc' := fun t a : ℝ => hasDerivAt_const t a
    have hb : HasDerivAt (fun c => g1 ^ 2 * c ^ 2 + (1 - c ^ 2) / g1) (2 * (g1 ^ 2 - 1 / g1) * c) c := by
      refine (HasDerivAt.fun_add (HasDerivAt.fun_mul (hc' c (g1 ^ 2)) (HasDerivAt.fun_pow (hasDerivAt_id' c) 2))
        (HasDerivAt.fun_div (HasDerivAt.fun_sub (hc' c 1) (HasDerivAt.fun_pow (hasDerivAt_id' c) 2)) (hc' c g1) h1.ne')).congr_deriv ?_
      simp only [Nat.cast_ofNat, Nat.add_one_sub_one, pow_one]
      field_simp
      ring
    refine (HasDerivAt.fun_add (HasDerivAt.fun_mul (hc' c g2) (hasDerivAt_id' c)) (HasDerivAt.fun_mul (hc' c (1 - g2))
      (HasDerivAt.fun_div (HasDerivAt.fun_mul (hc' c g1) (hasDerivAt_id' c)) (HasDerivAt.sqrt hb hp.ne') hsq.ne'))).congr_deriv ?_
    unfold marchDollase
    have e : (g1 ^ 2 * c ^ 2 + (1 - c ^ 2) / g1) ^ (-(3 / 2) : ℝ) = 1 / √(g1 ^ 2 * c ^ 2 + (1 - c ^ 2) / g1) ^ 3 := rpow_neg_three_halves hp
    rw [e]
    have hq := Real.sq_sqrt hp.le
    generalize √(g1 ^ 2 * c ^ 2 + (1 - c ^ 2) / g1) = S at *
    have hq' : S ^ 2 * g1 = g1 ^ 3 * c ^ 2 + (1 - c ^ 2) := by rw [hq]; field_simp
    field_simp
    grind
  rw [intervalIntegral.integral_eq_sub_of_hasDerivAt hd]
  · have : √(g1 ^ 2 * 1 ^ 2 + (1 - 1 ^ 2) / g1) = g1 := by
      rw [show g1 ^ 2 * 1 ^ 2 + (1 - 1 ^ 2) / g1 = g1 ^ 2 by simp, Real.sqrt_sq h1.le]
    rw [this]
    field_simp
    ring
  · apply ContinuousOn.intervalIntegrable
    unfold marchDollase
    apply ContinuousOn.add continuousOn_const
    apply ContinuousOn.mul continuousOn_const
    apply ContinuousOn.rpow_const
    · fun_prop
    · intro c hc; exact .inl (hB c hc).ne'

/-- C27: the one-detector factor uses the sine in place of the cosine, and so does not average to one: over all orientations of
the axis its mean is `g2 + (1-g2)·g1^(-3/2)`. -/
theorem po_pd_average {g1 : ℝ} (g2 : ℝ) (h1 : 0 < g1) :
    ∫ c in (0:ℝ)..1, po_pd_cos c g1 g2 = g2 + (1 - g2) * g1 ^ (-(3 / 2) : ℝ) := by
  have hB : ∀ c ∈ Set.uIcc (0:ℝ) 1, 0 < g1 ^ 2 * (1 - c ^ 2) + c ^ 2 / g1 := by
    intro c hc
    rw [Set.uIcc_of_le (by norm_num)] at hc
    rcases eq_or_ne c 0 with rfl | h0
    · simp; positivity
    · have : 0 < c ^ 2 := by positivity
      have : 0 ≤ 1 - c ^ 2 := by nlinarith [hc.1, hc.2]
      positivity
  have hf : ∀ c ∈ Set.uIcc (0:ℝ) 1, po_pd_cos c g1 g2 = g2 + (1 - g2) * (g1 ^ 2 * (1 - c ^ 2) + c ^ 2 / g1) ^ (-(3 / 2) : ℝ) := by
    intro c hc
    rw [Set.uIcc_of_le (by norm_num)] at hc
    unfold po_pd_cos
    dsimp only
    rw [abs_of_nonneg (by nlinarith [hc.1, hc.2]), hh_eq, show 1 - (1 - c ^ 2) = c ^ 2 by ring]
    rfl
  have hd : ∀ c ∈ Set.uIcc (0:ℝ) 1, HasDerivAt (fun c => g2 * c + (1 - g2) * (c / g1 ^ 2 / √(g1 ^ 2 * (1 - c ^ 2) + c ^ 2 / g1)))
      (g2 + (1 - g2) * (g1 ^ 2 * (1 - c ^ 2) + c ^ 2 / g1) ^ (-(3 / 2) : ℝ)) c := by
    intro c hc
    have hp := hB c hc
    have hsq := Real.sqrt_pos.2 hp
    have hc' := fun t a : ℝ => hasDerivAt_const t a
    have hb : HasDerivAt (fun c => g1 ^ 2 * (1 - c ^ 2) + c ^ 2 / g1) (2 * (1 / g1 - g1 ^ 2) * c) c := by
      refine (HasDerivAt.fun_add (HasDerivAt.fun_mul (hc' c (g1 ^ 2)) (HasDerivAt.fun_sub (hc' c 1) (HasDerivAt.fun_pow (hasDerivAt_id' c) 2)))
        (HasDerivAt.fun_div (HasDerivAt.fun_pow (hasDerivAt_id' c) 2) (hc' c g1) h1.ne')).congr_deriv ?_
      simp only [Nat.cast_ofNat, Nat.add_one_sub_one, pow_one]
      field_simp
      ring
    refine (HasDerivAt.fun_add (HasDerivAt.fun_mul (hc' c g2) (hasDerivAt_id' c)) (HasDerivAt.fun_mul (hc' c (1 - g2))
      (HasDerivAt.fun_div (HasDerivAt.fun_div (hasDerivAt_id' c) (hc' c (g1 ^ 2)) (by positivity)) (HasDerivAt.sqrt hb hp.ne') hsq.ne'))).congr_deriv ?_
    have e : (g1 ^ 2 * (1 - c ^ 2) + c ^ 2 / g1) ^ (-(3 / 2) : ℝ) = 1 / √(g1 ^ 2 * (1 - c ^ 2) + c ^ 2 / g1) ^ 3 := rpow_neg_three_halves hp
    rw [e]
    have hq := Real.sq_sqrt hp.le
    generalize √(g1 ^ 2 * (1 - c ^ 2) + c ^ 2 / g1) = S at *
    have hq' : S ^ 2 * g1 = g1 ^ 3 * (1 - c ^ 2) + c ^ 2 := by rw [hq]; field_simp
    field_simp
    grind
  rw [intervalIntegral.integral_congr hf, intervalIntegral.integral_eq_sub_of_hasDerivAt hd]
  · have : √(g1 ^ 2 * (1 - 1 ^ 2) + 1 ^ 2 / g1) = g1 ^ (-(1 / 2) : ℝ) := by
      rw [show g1 ^ 2 * (1 - 1 ^ 2) + 1 ^ 2 / g1 = g1⁻¹ by simp, Real.sqrt_eq_rpow, Real.rpow_neg h1.le, Real.inv_rpow h1.le]
    rw [this]
    have e2 : g1 ^ (-(3 / 2) : ℝ) = 1 / g1 ^ 2 / g1 ^ (-(1 / 2) : ℝ) := by
      rw [eq_div_iff (by positivity), ← Real.rpow_add h1, show (-(3 / 2) + -(1 / 2) : ℝ) = -2 by norm_num, Real.rpow_neg h1.le, one_div]
      norm_num
    rw [e2]
    simp
  · apply ContinuousOn.intervalIntegrable
    apply ContinuousOn.add continuousOn_const
    apply ContinuousOn.mul continuousOn_const
    apply ContinuousOn.rpow_const
    · fun_prop
    · intro c hc; exact .inl (hB c hc).ne'

/-- The hypotheses are met by a common choice of parameters. -/
example : 0 < (0.7 : ℝ) ∧ 0 ≤ (0.2 : ℝ) ∧ (0.2 : ℝ) ≤ 1 ∧ 0 < (2 : ℝ) := by norm_num

end Cryspy.Powder
