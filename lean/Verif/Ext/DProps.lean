import Verif.Ext.Props

/-!
# C26: the reported derivatives of the extinction factors
-/

namespace Cryspy.Ext

open Real

/-- `primary` is the value of the primary factor wherever that is a number. -/
theorem primaryY_eq {f r V c w y : ℝ} (h : primaryY f r V c w = some y) :
    y = primary f r V c w ∧ 1 + primary_B f r V c w * primary_x f r V c w ≠ 0 ∧
      0 < radicand 2 (primary_A f r V c w) (primary_B f r V c w) (primary_x f r V c w) := by
  unfold primaryY invSqrt at h
  split at h
  · exact ⟨(Option.some.inj h).symm, ‹_›⟩
  · cases h

theorem lorentzY_eq {f r m V c w y : ℝ} (hrm : 0 < r * m) (h : lorentzY f r m V c w = some y) :
    y = lorentz f r m V c w ∧ 1 + lorentz_B f r m V c w * lorentz_x f r m V c w ≠ 0 ∧
      0 < radicand 2 (lorentz_A f r m V c w) (lorentz_B f r m V c w) (lorentz_x f r m V c w) := by
  unfold lorentzY at h
  rw [if_pos (by have := pi_pos; rw [show r * (m * π / (180 * 60)) = r * m * (π / (180 * 60)) by ring]; positivity)] at h
  unfold invSqrt at h
  split at h
  · exact ⟨(Option.some.inj h).symm, ‹_›⟩
  · cases h

/-! ## primary extinction: all five derivatives -/

/-- C26: the reported derivatives of the primary factor are the true ones, wherever the factor is a number. -/
theorem d_primary_spec {f r V c w y : ℝ} (hV : V ≠ 0) (h : primaryY f r V c w = some y) :
    HasDerivAt (fun t => primary t r V c w) (d_primary_f_sq f r V c w) f ∧
    HasDerivAt (fun t => primary f t V c w) (d_primary_radius f r V c w) r ∧
    HasDerivAt (fun t => primary f r t c w) (d_primary_volume_unit_cell f r V c w) V ∧
    HasDerivAt (fun t => primary f r V t w) (d_primary_cos_2theta f r V c w) c ∧
    HasDerivAt (fun t => primary f r V c t) (d_primary_wavelength f r V c w) w := by
  obtain ⟨-, h1, h2⟩ := primaryY_eq h
  unfold primary_B primary_x at h1
  unfold primary_B primary_x primary_A at h2
  unfold primary d_primary_f_sq d_primary_radius d_primary_volume_unit_cell d_primary_cos_2theta d_primary_wavelength
  dsimp only at h1 h2 ⊢
  have hc := fun t a : ℝ => hasDerivAt_const t a
  have hid := fun t : ℝ => hasDerivAt_id' t
  have h1' := h1
  obtain ⟨D, hD⟩ : ∃ D, 1 + (11 / 50 - 3 / 25 * (1 / 2 - c) ^ 2) * (3 / 2 * f * (w * r / V) ^ 2) = D := ⟨_, rfl⟩
  rw [hD] at h1'
  refine ⟨?_, ?_, ?_, ?_, ?_⟩
  · refine (hasDerivAt_form (hc f 2) (hc f _) (hc f _)
      (HasDerivAt.fun_mul (HasDerivAt.fun_mul (hc f _) (hid f)) (hc f _)) h1 h2).congr_deriv ?_
    rw [hD]; field_simp; ring
  · refine (hasDerivAt_form (hc r 2) (hc r _) (hc r _)
      (HasDerivAt.fun_mul (hc r _) (HasDerivAt.fun_pow (HasDerivAt.fun_div (HasDerivAt.fun_mul (hc r _) (hid r)) (hc r V) hV) 2)) h1 h2).congr_deriv ?_
    rw [hD]; simp only [Nat.cast_ofNat, Nat.add_one_sub_one, pow_one]; field_simp; ring
  · refine (hasDerivAt_form (hc V 2) (hc V _) (hc V _)
      (HasDerivAt.fun_mul (hc V _) (HasDerivAt.fun_pow (HasDerivAt.fun_div (hc V _) (hid V) hV) 2)) h1 h2).congr_deriv ?_
    rw [hD]; simp only [Nat.cast_ofNat, Nat.add_one_sub_one, pow_one]; field_simp; ring
  · refine (hasDerivAt_form (hc c 2) (HasDerivAt.fun_add (hc c _) (HasDerivAt.fun_mul (hc c _) (hid c)))
      (HasDerivAt.fun_sub (hc c _) (HasDerivAt.fun_mul (hc c _) (HasDerivAt.fun_pow (HasDerivAt.fun_sub (hc c _) (hid c)) 2)))
      (hc c _) h1 h2).congr_deriv ?_
    rw [hD]; simp only [Nat.cast_ofNat, Nat.add_one_sub_one, pow_one]; field_simp; ring
  · refine (hasDerivAt_form (hc w 2) (hc w _) (hc w _)
      (HasDerivAt.fun_mul (hc w _) (HasDerivAt.fun_pow (HasDerivAt.fun_div (HasDerivAt.fun_mul (hid w) (hc w _)) (hc w V) hV) 2)) h1 h2).congr_deriv ?_
    rw [hD]; simp only [Nat.cast_ofNat, Nat.add_one_sub_one, pow_one]; field_simp; ring

/-! ## secondary extinction: derivative over the intensity -/

/-- C26: derivative of the Lorentz factor over the intensity. -/
theorem d_lorentz_f_sq_spec {f r m V c w y : ℝ} (hrm : 0 < r * m) (h : lorentzY f r m V c w = some y) :
    HasDerivAt (fun t => lorentz t r m V c w) (d_lorentz_f_sq f r m V c w) f := by
  obtain ⟨-, h1, h2⟩ := lorentzY_eq hrm h
  unfold lorentz_B lorentz_x at h1
  unfold lorentz_B lorentz_x lorentz_A at h2
  unfold lorentz d_lorentz_f_sq
  dsimp only at h1 h2 ⊢
  have hc := fun t a : ℝ => hasDerivAt_const t a
  have hid := fun t : ℝ => hasDerivAt_id' t
  refine (hasDerivAt_form (hc f 2) (hc f _) (hc f _)
      (HasDerivAt.fun_mul (HasDerivAt.fun_mul (HasDerivAt.fun_mul (HasDerivAt.fun_mul (hc f _) (hid f)) (hc f _)) (hc f _)) (hc f _))
      h1 h2).congr_deriv ?_
  generalize (if c > 0 then (3 / 20 : ℝ) - 1 / 5 * (3 / 4 - c) ^ 2 else -(9 / 20) * c) = B
  generalize m * π / (180 * 60) / (m * π / (180 * 60) * w + r * √(1 - c ^ 2)) = T
  ring

/-- The branch of the Gauss model away from the pole. -/
theorem gauss_pos {f r m V c w : ℝ} (hf : 0 ≤ f) (hm : 0 ≤ m) (hw : 0 ≤ w)
    (hp : 0 < 1 + gauss_B f r m V c w * gauss_x f r m V c w) :
    0 < radicand (53 / 25) (gauss_A f r m V c w) (gauss_B f r m V c w) (gauss_x f r m V c w) := by
  have hx := gauss_x_nonneg (V := V) (r := r) (c := c) hf hm hw
  unfold radicand
  have := gauss_A_pos f r m V c w
  have : 0 ≤ gauss_A f r m V c w * gauss_x f r m V c w ^ 2 / (1 + gauss_B f r m V c w * gauss_x f r m V c w) := by positivity
  linarith

/-- `gauss` is the value of the Gauss factor below the pole. -/
theorem gaussY_eq {f r m V c w : ℝ} (hrm : 0 < r * m) (hf : 0 ≤ f) (hm : 0 ≤ m) (hw : 0 ≤ w)
    (hp : 0 < 1 + gauss_B f r m V c w * gauss_x f r m V c w) : gaussY f r m V c w = some (gauss f r m V c w) := by
  have hr := gauss_pos hf hm hw hp
  unfold gaussY
  rw [if_pos (by have := pi_pos; rw [show r * (m * π / (180 * 60)) = r * m * (π / (180 * 60)) by ring]; positivity),
    if_neg (fun h => absurd h.2 (not_lt.2 hr.le)), invSqrt_of_pos hp.ne' hr]
  rfl

/-- C26: derivative of the Gauss factor over the intensity, below the pole. -/
theorem d_gauss_f_sq_spec {f r m V c w : ℝ} (hf : 0 ≤ f) (hm : 0 ≤ m) (hw : 0 ≤ w)
    (hp : 0 < 1 + gauss_B f r m V c w * gauss_x f r m V c w) :
    HasDerivAt (fun t => gauss t r m V c w) (d_gauss_f_sq f r m V c w) f := by
  have h2 := gauss_pos hf hm hw hp
  have h1 := hp.ne'
  unfold gauss_B gauss_x gauss_A at h2
  unfold gauss_B gauss_x at h1
  unfold gauss d_gauss_f_sq
  dsimp only at h1 h2 ⊢
  have hc := fun t a : ℝ => hasDerivAt_const t a
  have hid := fun t : ℝ => hasDerivAt_id' t
  refine (hasDerivAt_form (hc f _) (hc f _) (hc f _)
      (HasDerivAt.fun_mul (HasDerivAt.fun_mul (HasDerivAt.fun_mul (HasDerivAt.fun_mul (hc f _) (hid f)) (hc f _)) (hc f _)) (hc f _))
      h1 h2).congr_deriv ?_
  generalize m * π / (180 * 60) / √((m * π / (180 * 60) * w) ^ 2 + 9 / 8 * r ^ 2 * (1 - c ^ 2)) = T
  ring

/-! ## secondary extinction: the other reported derivatives are wrong -/

theorem slope_pos {k A B x : ℝ} (hk : 0 < k) (hx : 0 ≤ x) (hB : 0 ≤ B) (hA : 0 ≤ A ∨ 0 < B ∧ -A < k * B) :
    0 < k + 2 * A * x / (1 + B * x) - A * B * x ^ 2 / (1 + B * x) ^ 2 := by
  have h1 : 0 < 1 + B * x := by positivity
  have : k + 2 * A * x / (1 + B * x) - A * B * x ^ 2 / (1 + B * x) ^ 2 =
      (k * (1 + B * x) ^ 2 + A * (2 * x + B * x ^ 2)) / (1 + B * x) ^ 2 := by field_simp; ring
  rw [this]
  apply div_pos _ (by positivity)
  have hs : 0 ≤ 2 * x + B * x ^ 2 := by positivity
  rcases hA with hA | ⟨hB', hA⟩
  · have := mul_nonneg hA hs
    have : 0 < k * (1 + B * x) ^ 2 := by positivity
    linarith
  · nlinarith [mul_le_mul_of_nonneg_right hA.le hs]

theorem not_hasDerivAt {g : ℝ → ℝ} {D a b d t : ℝ} (h : HasDerivAt g (D * a) t) (hD : D ≠ 0) (hd : d = D * b) (hab : a ≠ b) :
    ¬ HasDerivAt g d t := fun h' => by
  have := h.unique h'
  rw [hd] at this
  exact hab (mul_left_cancel₀ hD this)

section
variable {f r m V c w : ℝ}

theorem lorentz_strict (h1 : -1 ≤ c) (h2 : c ≤ 1) (f r m V w : ℝ) : 0 ≤ lorentz_A f r m V c w ∨
    0 < lorentz_B f r m V c w ∧ -lorentz_A f r m V c w < 2 * lorentz_B f r m V c w := by
  unfold lorentz_A lorentz_B
  dsimp only
  split
  · exact .inl (by nlinarith)
  · rename_i h
    push Not at h
    by_cases h' : 0 ≤ 1 / 40 + 57 / 200 * c
    · exact .inl h'
    · push Not at h'
      exact .inr ⟨by nlinarith, by nlinarith⟩

/-- Derivative through `x` alone; the outer factor is never zero. -/
theorem form_x {k A B x' t : ℝ} {x : ℝ → ℝ} (hk : 0 < k) (hx0 : 0 ≤ x t) (hB : 0 ≤ B) (hA : 0 ≤ A ∨ 0 < B ∧ -A < k * B)
    (hx : HasDerivAt x x' t) : ∃ D ≠ 0, D = -(1 / 2) * (1 / √(radicand k A B (x t))) ^ 3 *
        (k + 2 * A * x t / (1 + B * x t) - A * B * x t ^ 2 / (1 + B * x t) ^ 2) ∧
      HasDerivAt (fun s => 1 / √(1 + k * x s + A * x s ^ 2 / (1 + B * x s))) (D * x') t := by
  have hg : Good k A B := ⟨hB, hA.imp id (fun h => ⟨h.1, h.2.le⟩)⟩
  have h1 : 0 < 1 + B * x t := by positivity
  have h2 : 0 < radicand k A B (x t) := lt_of_lt_of_le one_pos (one_le_radicand hk.le hg hx0)
  have hs := slope_pos hk hx0 hB hA
  refine ⟨_, ?_, rfl, ?_⟩
  · have : 0 < √(radicand k A B (x t)) := Real.sqrt_pos.2 h2
    have : 0 < (1 / √(radicand k A B (x t))) ^ 3 * (k + 2 * A * x t / (1 + B * x t) - A * B * x t ^ 2 / (1 + B * x t) ^ 2) := by
      positivity
    intro h
    nlinarith
  · refine (hasDerivAt_form (hasDerivAt_const t k) (hasDerivAt_const t A) (hasDerivAt_const t B) hx h1.ne' h2).congr_deriv ?_
    unfold radicand
    ring

theorem lorentz_x_radius (hr : 0 < r) (hm : 0 < m) (hV : 0 < V) (hw : 0 < w) :
    HasDerivAt (fun t => lorentz_x f t m V c w)
      (3 / 2 * f * w * (w / V) ^ 2 * (m * π / (180 * 60)) * r * (2 * (m * π / (180 * 60)) * w + r * √(1 - c ^ 2)) /
        (m * π / (180 * 60) * w + r * √(1 - c ^ 2)) ^ 2) r := by
  have hpi := pi_pos
  unfold lorentz_x
  dsimp only
  have hden : m * π / (180 * 60) * w + r * √(1 - c ^ 2) ≠ 0 := by positivity
  have hc := fun t a : ℝ => hasDerivAt_const t a
  have hid := fun t : ℝ => hasDerivAt_id' t
  refine (HasDerivAt.fun_mul (HasDerivAt.fun_mul (hc r _) (HasDerivAt.fun_pow (HasDerivAt.fun_div
          (HasDerivAt.fun_mul (hc r w) (hid r)) (hc r V) hV.ne') 2))
        (HasDerivAt.fun_div (hc r _) (HasDerivAt.fun_add (hc r _) (HasDerivAt.fun_mul (hid r) (hc r _))) hden)).congr_deriv ?_
  generalize √(1 - c ^ 2) = S at *
  generalize m * π / (180 * 60) = M at *
  simp only [Nat.cast_ofNat, Nat.add_one_sub_one, pow_one]
  field_simp
  ring

theorem lorentz_x_mosaicity (hr : 0 < r) (hm : 0 < m) (hV : 0 < V) (hw : 0 < w) :
    HasDerivAt (fun t => lorentz_x f r t V c w)
      (3 / 2 * f * w * (w * r / V) ^ 2 * (π / (180 * 60)) * (r * √(1 - c ^ 2)) /
        (m * π / (180 * 60) * w + r * √(1 - c ^ 2)) ^ 2) m := by
  have hpi := pi_pos
  unfold lorentz_x
  dsimp only
  have hden : m * π / (180 * 60) * w + r * √(1 - c ^ 2) ≠ 0 := by positivity
  have hc := fun t a : ℝ => hasDerivAt_const t a
  have hid := fun t : ℝ => hasDerivAt_id' t
  have hM : HasDerivAt (fun t => t * π / (180 * 60)) (π / (180 * 60)) m :=
    (HasDerivAt.fun_div (HasDerivAt.fun_mul (hid m) (hc m π)) (hc m (180 * 60)) (by norm_num)).congr_deriv (by ring)
  refine (HasDerivAt.fun_mul (hc m _) (HasDerivAt.fun_div hM (HasDerivAt.fun_add (HasDerivAt.fun_mul hM (hc m w)) (hc m _)) hden)).congr_deriv ?_
  generalize √(1 - c ^ 2) = S at *
  field_simp
  ring

/-- C26 is false for the Lorentz model: the reported derivative over the radius is zero, the true one never is. -/
theorem d_lorentz_radius_wrong (hf : 0 < f) (hr : 0 < r) (hm : 0 < m) (hV : 0 < V) (hw : 0 < w) (h1 : -1 ≤ c) (h2 : c ≤ 1) :
    ¬ HasDerivAt (fun t => lorentz f t m V c w) (d_lorentz_radius f r m V c w) r := by
  have hpi := pi_pos
  obtain ⟨D, hD, -, h⟩ := form_x (x := fun t => lorentz_x f t m V c w) (by norm_num : (0:ℝ) < 2)
    (lorentz_x_nonneg (V := V) (c := c) hf.le hr.le hm.le hw.le) (lorentz_good h1 h2 f r m V w).1
    (lorentz_strict h1 h2 f r m V w) (lorentz_x_radius hr hm hV hw)
  refine not_hasDerivAt (b := 0) h hD (by simp [d_lorentz_radius]) (ne_of_gt ?_)
  positivity

/-- The same for the mosaicity. -/
theorem d_lorentz_mosaicity_wrong (hf : 0 < f) (hr : 0 < r) (hm : 0 < m) (hV : 0 < V) (hw : 0 < w) (h1 : -1 < c) (h2 : c < 1) :
    ¬ HasDerivAt (fun t => lorentz f r t V c w) (d_lorentz_mosaicity f r m V c w) m := by
  have hpi := pi_pos
  have hS : 0 < √(1 - c ^ 2) := Real.sqrt_pos.2 (by nlinarith)
  obtain ⟨D, hD, -, h⟩ := form_x (x := fun t => lorentz_x f r t V c w) (by norm_num : (0:ℝ) < 2)
    (lorentz_x_nonneg (V := V) (c := c) hf.le hr.le hm.le hw.le) (lorentz_good h1.le h2.le f r m V w).1
    (lorentz_strict h1.le h2.le f r m V w) (lorentz_x_mosaicity hr hm hV hw)
  refine not_hasDerivAt (b := 0) h hD (by simp [d_lorentz_mosaicity]) (ne_of_gt ?_)
  positivity

theorem gauss_x_radius (hr : 0 < r) (hm : 0 < m) (hV : 0 < V) (hw : 0 < w) (h1 : -1 ≤ c) (h2 : c ≤ 1) :
    HasDerivAt (fun t => gauss_x f t m V c w)
      (2 * r * (3 / 2) * f * w * (w / V) ^ 2 * (m * π / (180 * 60) / √((m * π / (180 * 60) * w) ^ 2 + 9 / 8 * r ^ 2 * (1 - c ^ 2))) -
        3 / 2 * f * w * (w * r / V) ^ 2 * (m * π / (180 * 60)) / √((m * π / (180 * 60) * w) ^ 2 + 9 / 8 * r ^ 2 * (1 - c ^ 2)) ^ 3 *
          9 / 8 * r * (1 - c ^ 2)) r := by
  have hpi := pi_pos
  have hs : 0 ≤ 1 - c ^ 2 := by nlinarith
  have hS : 0 < (m * π / (180 * 60) * w) ^ 2 + 9 / 8 * r ^ 2 * (1 - c ^ 2) := by positivity
  unfold gauss_x
  dsimp only
  have hc := fun t a : ℝ => hasDerivAt_const t a
  have hid := fun t : ℝ => hasDerivAt_id' t
  have hq := HasDerivAt.sqrt (HasDerivAt.fun_add (hc r ((m * π / (180 * 60) * w) ^ 2)) (HasDerivAt.fun_mul (HasDerivAt.fun_mul (hc r (9 / 8))
    (HasDerivAt.fun_pow (hid r) 2)) (hc r (1 - c ^ 2)))) hS.ne'
  have hne := (Real.sqrt_pos.2 hS).ne'
  refine (HasDerivAt.fun_mul (HasDerivAt.fun_mul (hc r _) (HasDerivAt.fun_pow (HasDerivAt.fun_div
          (HasDerivAt.fun_mul (hc r w) (hid r)) (hc r V) hV.ne') 2)) (HasDerivAt.fun_div (hc r _) hq hne)).congr_deriv ?_
  generalize √((m * π / (180 * 60) * w) ^ 2 + 9 / 8 * r ^ 2 * (1 - c ^ 2)) = S at *
  generalize m * π / (180 * 60) = M at *
  simp only [Nat.cast_ofNat, Nat.add_one_sub_one, pow_one]
  field_simp
  ring

theorem gauss_x_mosaicity (hm : 0 < m) (hr : 0 < r) (hw : 0 < w) (h1 : -1 ≤ c) (h2 : c ≤ 1) :
    HasDerivAt (fun t => gauss_x f r t V c w)
      (π / (180 * 60) * (3 / 2) * f * w * (w * r / V) ^ 2 * (1 / √((m * π / (180 * 60) * w) ^ 2 + 9 / 8 * r ^ 2 * (1 - c ^ 2)) -
        m * π / (180 * 60) / √((m * π / (180 * 60) * w) ^ 2 + 9 / 8 * r ^ 2 * (1 - c ^ 2)) ^ 3 * w ^ 2 * (m * π / (180 * 60)))) m := by
  have hpi := pi_pos
  have hs : 0 ≤ 1 - c ^ 2 := by nlinarith
  have hS : 0 < (m * π / (180 * 60) * w) ^ 2 + 9 / 8 * r ^ 2 * (1 - c ^ 2) := by positivity
  unfold gauss_x
  dsimp only
  have hc := fun t a : ℝ => hasDerivAt_const t a
  have hid := fun t : ℝ => hasDerivAt_id' t
  have hM : HasDerivAt (fun t => t * π / (180 * 60)) (π / (180 * 60)) m :=
    (HasDerivAt.fun_div (HasDerivAt.fun_mul (hid m) (hc m π)) (hc m (180 * 60)) (by norm_num)).congr_deriv (by ring)
  have hq := HasDerivAt.sqrt (HasDerivAt.fun_add (HasDerivAt.fun_pow (HasDerivAt.fun_mul hM (hc m w)) 2) (hc m (9 / 8 * r ^ 2 * (1 - c ^ 2)))) hS.ne'
  have hne := (Real.sqrt_pos.2 hS).ne'
  refine (HasDerivAt.fun_mul (hc m _) (HasDerivAt.fun_div hM hq hne)).congr_deriv ?_
  generalize √((m * π / (180 * 60) * w) ^ 2 + 9 / 8 * r ^ 2 * (1 - c ^ 2)) = S at *
  simp only [Nat.cast_ofNat, Nat.add_one_sub_one, pow_one]
  field_simp
  ring

/-- C26 is false for the Gauss model: the reported derivative over the radius has the wrong sign and size in one term. -/
theorem d_gauss_radius_wrong (hf : 0 < f) (hr : 0 < r) (hm : 0 < m) (hV : 0 < V) (hw : 0 < w) (h1 : -1 < c) (h2 : c ≤ 0.8) :
    ¬ HasDerivAt (fun t => gauss f t m V c w) (d_gauss_radius f r m V c w) r := by
  have hpi := pi_pos
  norm_num at h2
  have hs : 0 < 1 - c ^ 2 := by nlinarith
  have hS : 0 < √((m * π / (180 * 60) * w) ^ 2 + 9 / 8 * r ^ 2 * (1 - c ^ 2)) := Real.sqrt_pos.2 (by positivity)
  obtain ⟨D, hD, hDe, h⟩ := form_x (x := fun t => gauss_x f t m V c w) (k := 53 / 25) (by norm_num)
    (gauss_x_nonneg hf.le hm.le hw.le) (B := gauss_B f r m V c w) (by unfold gauss_B; dsimp only; linarith)
    (.inl (gauss_A_pos f r m V c w).le) (gauss_x_radius hr hm hV hw h1.le (by linarith))
  refine not_hasDerivAt h hD (b := 2 * r * (3 / 2) * f * w * (w / V) ^ 2 * (m * π / (180 * 60) / √((m * π / (180 * 60) * w) ^ 2 + 9 / 8 * r ^ 2 * (1 - c ^ 2))) +
        3 / 2 * f * w * (w * r / V) ^ 2 * (m * π / (180 * 60)) / √((m * π / (180 * 60) * w) ^ 2 + 9 / 8 * r ^ 2 * (1 - c ^ 2)) ^ 3 *
          9 / 8 * 2 * r * (1 - c ^ 2)) (by rw [hDe]; rfl) (ne_of_lt ?_)
  have : 0 < 3 / 2 * f * w * (w * r / V) ^ 2 * (m * π / (180 * 60)) / √((m * π / (180 * 60) * w) ^ 2 + 9 / 8 * r ^ 2 * (1 - c ^ 2)) ^ 3 *
          9 / 8 * r * (1 - c ^ 2) := by positivity
  linarith

/-- The same for the mosaicity. -/
theorem d_gauss_mosaicity_wrong (hf : 0 < f) (hr : 0 < r) (hm : 0 < m) (hV : 0 < V) (hw : 0 < w) (h1 : -1 < c) (h2 : c ≤ 0.8) :
    ¬ HasDerivAt (fun t => gauss f r t V c w) (d_gauss_mosaicity f r m V c w) m := by
  have hpi := pi_pos
  norm_num at h2
  have hs : 0 < 1 - c ^ 2 := by nlinarith
  have hS : 0 < √((m * π / (180 * 60) * w) ^ 2 + 9 / 8 * r ^ 2 * (1 - c ^ 2)) := Real.sqrt_pos.2 (by positivity)
  obtain ⟨D, hD, hDe, h⟩ := form_x (x := fun t => gauss_x f r t V c w) (k := 53 / 25) (by norm_num)
    (gauss_x_nonneg hf.le hm.le hw.le) (B := gauss_B f r m V c w) (by unfold gauss_B; dsimp only; linarith)
    (.inl (gauss_A_pos f r m V c w).le) (gauss_x_mosaicity hm hr hw h1.le (by linarith))
  refine not_hasDerivAt h hD (b := π / (180 * 60) * (3 / 2) * f * w * (w * r / V) ^ 2 * (1 / √((m * π / (180 * 60) * w) ^ 2 + 9 / 8 * r ^ 2 * (1 - c ^ 2)) +
        m * π / (180 * 60) / √((m * π / (180 * 60) * w) ^ 2 + 9 / 8 * r ^ 2 * (1 - c ^ 2)) ^ 3 * 2 * w ^ 2 * (m * π / (180 * 60)))) ?_ (ne_of_lt ?_)
  · rw [hDe]
    unfold d_gauss_mosaicity radicand gauss_A gauss_B gauss_x
    dsimp only
    ring
  · have : 0 < π / (180 * 60) * (3 / 2) * f * w * (w * r / V) ^ 2 := by positivity
    apply mul_lt_mul_of_pos_left _ this
    have : 0 < m * π / (180 * 60) / √((m * π / (180 * 60) * w) ^ 2 + 9 / 8 * r ^ 2 * (1 - c ^ 2)) ^ 3 * w ^ 2 * (m * π / (180 * 60)) := by positivity
    linarith

end

/-- A case that meets the hypotheses of the positive results. -/
example : ∃ y, primaryY 3 1 10 0.5 1 = some y ∧ 0 < y ∧ y ≤ 1 := primary_range (by norm_num) (by norm_num) (by norm_num)

end Cryspy.Ext
