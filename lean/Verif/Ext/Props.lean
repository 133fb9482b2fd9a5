import Verif.Ext.Lemmas

/-!
# C26: extinction factors

`cos_2theta` is called `c`, the squared structure factor `f`, radius `r`, mosaicity `m`, cell volume `V`, wavelength `w`.
-/

namespace Cryspy.Ext

open Real

/-! ## range -/

theorem primary_good {c : ℝ} (h1 : -0.67 ≤ c) (h2 : c ≤ 1) (f r V w : ℝ) : Good 2 (primary_A f r V c w) (primary_B f r V c w) := by
  unfold primary_A primary_B
  dsimp only
  refine ⟨by nlinarith, ?_⟩
  by_cases h : 0 ≤ 1 / 5 + 9 / 20 * c
  · exact .inl h
  · right
    push Not at h
    constructor <;> nlinarith

theorem primary_x_nonneg {f : ℝ} (hf : 0 ≤ f) (r V c w : ℝ) : 0 ≤ primary_x f r V c w := by
  unfold primary_x; dsimp only; positivity

/-- C26, primary extinction: the factor is in (0,1] for scattering angles up to 132° (`cos 2θ ≥ -0.67`). -/
theorem primary_range {f r V c w : ℝ} (hf : 0 ≤ f) (h1 : -0.67 ≤ c) (h2 : c ≤ 1) :
    ∃ y, primaryY f r V c w = some y ∧ 0 < y ∧ y ≤ 1 :=
  invSqrt_good (by norm_num) (primary_good h1 h2 f r V w) (primary_x_nonneg hf r V c w)

/-- C26 is false for backscattering: strong primary extinction gives NaN. -/
theorem primary_nan : primaryY 8 1 1 (-1) 1 = none := by
  unfold primaryY invSqrt radicand primary_A primary_B primary_x
  rw [if_neg]
  norm_num

theorem lorentz_good {c : ℝ} (h1 : -1 ≤ c) (h2 : c ≤ 1) (f r m V w : ℝ) :
    Good 2 (lorentz_A f r m V c w) (lorentz_B f r m V c w) := by
  unfold lorentz_A lorentz_B
  dsimp only
  split
  · refine ⟨by nlinarith, .inl (by nlinarith)⟩
  · rename_i h
    push Not at h
    refine ⟨by nlinarith, ?_⟩
    by_cases h' : 0 ≤ 1 / 40 + 57 / 200 * c
    · exact .inl h'
    · push Not at h'
      exact .inr ⟨by nlinarith, by nlinarith⟩

theorem lorentz_x_nonneg {f r m V c w : ℝ} (hf : 0 ≤ f) (hr : 0 ≤ r) (hm : 0 ≤ m) (hw : 0 ≤ w) : 0 ≤ lorentz_x f r m V c w := by
  unfold lorentz_x; dsimp only; have := pi_pos; positivity

/-- C26, Lorentz model: the factor is in (0,1] for every scattering angle. -/
theorem lorentz_range {f r m V c w : ℝ} (hf : 0 ≤ f) (hr : 0 ≤ r) (hm : 0 ≤ m) (hw : 0 ≤ w) (h1 : -1 ≤ c) (h2 : c ≤ 1) :
    ∃ y, lorentzY f r m V c w = some y ∧ 0 < y ∧ y ≤ 1 := by
  unfold lorentzY
  split
  · exact invSqrt_good (by norm_num) (lorentz_good h1 h2 f r m V w) (lorentz_x_nonneg hf hr hm hw)
  · exact ⟨_, rfl, by simp [lorentz_off], by simp [lorentz_off]⟩

theorem gauss_A_pos (f r m V c w : ℝ) : 0 < gauss_A f r m V c w := by
  unfold gauss_A; dsimp only; nlinarith [sq_nonneg (c + 1)]

theorem gauss_x_nonneg {f r m V c w : ℝ} (hf : 0 ≤ f) (hm : 0 ≤ m) (hw : 0 ≤ w) : 0 ≤ gauss_x f r m V c w := by
  unfold gauss_x; dsimp only; have := pi_pos; positivity

/-- Beyond the pole of the Gauss formula the radicand is negative. -/
theorem gauss_beyond {c x : ℝ} (h1 : -1 ≤ c) (h2 : c ≤ 1) (hx : 0 ≤ x) (h : 1 + (1 / 50 - 1 / 40 * c) * x < 0) :
    radicand (53 / 25) (29 / 50 + 12 / 25 * c + 6 / 25 * c ^ 2) (1 / 50 - 1 / 40 * c) x < 0 := by
  obtain ⟨B, hB⟩ : ∃ B, 1 / 50 - 1 / 40 * c = B := ⟨_, rfl⟩
  rw [hB] at h ⊢
  have hB1 : -(1 / 200) ≤ B := by rw [← hB]; linarith
  have hB0 : B < 0 := by nlinarith
  have hc : 4 / 5 < c := by rw [← hB] at hB0; linarith
  have hA : 1 < 29 / 50 + 12 / 25 * c + 6 / 25 * c ^ 2 := by nlinarith
  obtain ⟨A, hA'⟩ : ∃ A, 29 / 50 + 12 / 25 * c + 6 / 25 * c ^ 2 = A := ⟨_, rfl⟩
  rw [hA'] at hA ⊢
  have hx200 : 200 < x := by nlinarith
  unfold radicand
  have hd : 0 < -(1 + B * x) := by linarith
  have : A * x ^ 2 / (1 + B * x) = -(A * x ^ 2 / -(1 + B * x)) := by
    rw [div_neg, neg_neg]
  rw [this]
  have : 1 + 53 / 25 * x < A * x ^ 2 / -(1 + B * x) := by
    rw [lt_div_iff₀ hd]
    have e1 : -(1 + B * x) < 1 / 200 * x := by nlinarith
    nlinarith
  linarith

/-- C26, Gauss model: the factor is in (0,1] for every scattering angle, except exactly at the pole of the formula. -/
theorem gauss_range {f r m V c w : ℝ} (hf : 0 ≤ f) (hm : 0 ≤ m) (hw : 0 ≤ w) (h1 : -1 ≤ c) (h2 : c ≤ 1)
    (hp : 1 + gauss_B f r m V c w * gauss_x f r m V c w ≠ 0) : ∃ y, gaussY f r m V c w = some y ∧ 0 < y ∧ y ≤ 1 := by
  unfold gaussY
  split
  · split
    · exact ⟨1, rfl, by norm_num, le_rfl⟩
    · rename_i h
      have hx := gauss_x_nonneg (V := V) (r := r) (c := c) hf hm hw
      rcases lt_or_gt_of_ne hp with hlt | hgt
      · exact absurd ⟨hp, gauss_beyond h1 h2 hx hlt⟩ h
      · have hr : 1 ≤ radicand (53 / 25) (gauss_A f r m V c w) (gauss_B f r m V c w) (gauss_x f r m V c w) := by
          unfold radicand
          have := gauss_A_pos f r m V c w
          have : 0 ≤ gauss_A f r m V c w * gauss_x f r m V c w ^ 2 / (1 + gauss_B f r m V c w * gauss_x f r m V c w) := by
            positivity
          linarith
        exact ⟨_, invSqrt_of_pos hp (by linarith), inv_sqrt_range hr⟩
  · exact ⟨_, rfl, by simp [gauss_off], by simp [gauss_off]⟩

/-- C26: the whole factor is in (0,1] for scattering angles up to 132°, for every model name. -/
theorem extinction_range (model : String) {f r m V c w : ℝ} (hf : 0 ≤ f) (hr : 0 ≤ r) (hm : 0 ≤ m) (hw : 0 ≤ w)
    (h1 : -0.67 ≤ c) (h2 : c ≤ 1) (hp : 1 + gauss_B f r m V c w * gauss_x f r m V c w ≠ 0) :
    ∃ y, extinctionY model f r m V c w = some y ∧ 0 < y ∧ y ≤ 1 := by
  obtain ⟨p, ep, hp0, hp1⟩ := primary_range (r := r) (V := V) (w := w) hf h1 h2
  have hs : ∃ s, secondaryY model f r m V c w = some s ∧ 0 < s ∧ s ≤ 1 := by
    unfold secondaryY
    split
    · exact gauss_range hf hm hw (by linarith) h2 hp
    · split
      · exact lorentz_range hf hr hm hw (by linarith) h2
      · exact ⟨1, rfl, by norm_num, le_rfl⟩
  obtain ⟨s, es, hs0, hs1⟩ := hs
  refine ⟨p * s, ?_, by positivity, by nlinarith⟩
  unfold extinctionY
  rw [ep, es]

/-! ## no extinction -/

/-- C26: no intensity, no extinction. -/
theorem extinction_zero_intensity (model : String) (r m V c w : ℝ) : extinctionY model 0 r m V c w = some 1 := by
  have h1 : primaryY 0 r V c w = some 1 := by unfold primaryY; rw [show primary_x 0 r V c w = 0 by simp [primary_x], invSqrt_zero]
  have h2 : gaussY 0 r m V c w = some 1 := by
    unfold gaussY
    rw [show gauss_x 0 r m V c w = 0 by simp [gauss_x], radicand_zero, invSqrt_zero]
    simp [gauss_off]
  have h3 : lorentzY 0 r m V c w = some 1 := by
    unfold lorentzY
    rw [show lorentz_x 0 r m V c w = 0 by simp [lorentz_x], invSqrt_zero]
    simp [lorentz_off]
  unfold extinctionY secondaryY
  rw [h1, h2, h3]
  simp

/-- C26: no radius, no extinction. -/
theorem extinction_zero_radius (model : String) (f m V c w : ℝ) : extinctionY model f 0 m V c w = some 1 := by
  have h1 : primaryY f 0 V c w = some 1 := by unfold primaryY; rw [show primary_x f 0 V c w = 0 by simp [primary_x], invSqrt_zero]
  have h2 : gaussY f 0 m V c w = some 1 := by simp [gaussY, gauss_off]
  have h3 : lorentzY f 0 m V c w = some 1 := by simp [lorentzY, lorentz_off]
  unfold extinctionY secondaryY
  rw [h1, h2, h3]
  simp

/-- C26: without mosaicity, or for an unknown model name, only primary extinction is applied. -/
theorem extinction_primary_only (model : String) (f r m V c w : ℝ)
    (h : m = 0 ∨ ¬ "gauss".toList.isPrefixOf model.toLower.toList ∧ ¬ "lorentz".toList.isPrefixOf model.toLower.toList) :
    extinctionY model f r m V c w = primaryY f r V c w := by
  have : secondaryY model f r m V c w = some 1 := by
    rcases h with rfl | ⟨h1, h2⟩
    · simp [secondaryY, gaussY, lorentzY, gauss_off, lorentz_off]
    · simp only [secondaryY, if_neg h1, if_neg h2]
  unfold extinctionY
  rw [this]
  cases primaryY f r V c w <;> simp

/-! ## monotony in the intensity -/

/-- C26: the primary factor decreases when the intensity grows. -/
theorem primary_antitone {f f' r V c w y y' : ℝ} (hf : 0 ≤ f) (hff : f ≤ f') (h1 : -0.67 ≤ c) (h2 : c ≤ 1)
    (e : primaryY f r V c w = some y) (e' : primaryY f' r V c w = some y') : y' ≤ y := by
  refine invSqrt_anti (by norm_num) (primary_good h1 h2 f r V w) (primary_x_nonneg hf r V c w) ?_ e e'
  unfold primary_x
  dsimp only
  gcongr

/-- C26: the Lorentz factor decreases when the intensity grows. -/
theorem lorentz_antitone {f f' r m V c w y y' : ℝ} (hf : 0 ≤ f) (hff : f ≤ f') (hr : 0 ≤ r) (hm : 0 ≤ m) (hw : 0 ≤ w)
    (h1 : -1 ≤ c) (h2 : c ≤ 1) (e : lorentzY f r m V c w = some y) (e' : lorentzY f' r m V c w = some y') : y' ≤ y := by
  unfold lorentzY at e e'
  split at e
  · rw [if_pos ‹_›] at e'
    refine invSqrt_anti (by norm_num) (lorentz_good h1 h2 f r m V w) (lorentz_x_nonneg hf hr hm hw) ?_ e e'
    unfold lorentz_x
    have := pi_pos
    dsimp only
    gcongr
  · rw [if_neg ‹_›] at e'
    have := (Option.some.inj e).symm.trans (show lorentz_off f r m V c w = lorentz_off f' r m V c w from rfl)
    rw [this, Option.some.inj e']

/-- C26, the part of monotony that holds for the Gauss model: scattering angles above 37° (`cos 2θ ≤ 0.8`). -/
theorem gauss_antitone {f f' r m V c w y y' : ℝ} (hf : 0 ≤ f) (hff : f ≤ f') (hm : 0 ≤ m) (hw : 0 ≤ w)
    (h2 : c ≤ 0.8) (e : gaussY f r m V c w = some y) (e' : gaussY f' r m V c w = some y') : y' ≤ y := by
  have hA : ∀ f, Good (53 / 25) (gauss_A f r m V c w) (gauss_B f r m V c w) := fun f =>
    ⟨by unfold gauss_B; dsimp only; norm_num at h2; linarith, .inl (gauss_A_pos _ _ _ _ _ _).le⟩
  have hx : ∀ f, 0 ≤ f → 0 ≤ gauss_x f r m V c w := fun f hf => gauss_x_nonneg hf hm hw
  have hn : ∀ f, 0 ≤ f → ¬ radicand (53 / 25) (gauss_A f r m V c w) (gauss_B f r m V c w) (gauss_x f r m V c w) < 0 := fun f hf => by
    have := one_le_radicand (by norm_num) (hA f) (hx f hf); linarith
  unfold gaussY at e e'
  split at e
  · rw [if_pos ‹_›, if_neg (fun h => hn f' (hf.trans hff) h.2)] at e'
    rw [if_neg (fun h => hn f hf h.2)] at e
    refine invSqrt_anti (by norm_num) (hA f) (hx f hf) ?_ e e'
    unfold gauss_x
    have := pi_pos
    dsimp only
    gcongr
  · rw [if_neg ‹_›] at e'
    have := (Option.some.inj e).symm.trans (show gauss_off f r m V c w = gauss_off f' r m V c w from rfl)
    rw [this, Option.some.inj e']

/-- C26 is false for the Gauss model at small angles: the factor of a strong reflection jumps back to one. -/
theorem gauss_not_antitone : ∃ y, gaussY 100 1 1 1 1 1 = some y ∧ y < 1 ∧ gaussY 200 1 1 1 1 1 = some 1 := by
  have hpi := pi_pos
  have hx : ∀ f, gauss_x f 1 1 1 1 1 = 3 / 2 * f := by
    intro f
    unfold gauss_x
    dsimp only
    have : (1 * π / (180 * 60) * 1) ^ 2 + 9 / 8 * 1 ^ 2 * (1 - 1 ^ 2) = (1 * π / (180 * 60)) ^ 2 := by ring
    rw [this, Real.sqrt_sq (by positivity), div_self (by positivity)]
    ring
  have hA : ∀ f, gauss_A f 1 1 1 1 1 = 13 / 10 := by intro f; unfold gauss_A; norm_num
  have hB : ∀ f, gauss_B f 1 1 1 1 1 = -(1 / 200) := by intro f; unfold gauss_B; norm_num
  have hc : (1 : ℝ) * (1 * π / (180 * 60)) > 0 := by positivity
  have hr : radicand (53 / 25) (13 / 10) (-(1 / 200)) (3 / 2 * 100) = 117319 := by unfold radicand; norm_num
  have hr' : radicand (53 / 25) (13 / 10) (-(1 / 200)) (3 / 2 * 200) < 0 := by unfold radicand; norm_num
  refine ⟨1 / √117319, ?_, ?_, ?_⟩
  · unfold gaussY
    rw [if_pos hc, hx, hA, hB, if_neg, invSqrt_of_pos, hr]
    · norm_num
    · rw [hr]; norm_num
    · rw [hr]; norm_num
  · have : 1 < √117319 := by rw [Real.lt_sqrt] <;> norm_num
    rw [div_lt_one (by positivity)]
    exact this
  · unfold gaussY
    rw [if_pos hc, hx, hA, hB, if_pos]
    exact ⟨by norm_num, hr'⟩

/-- A case that meets the hypotheses of the range results: `cos 2θ = 1/2`, everything else positive. -/
example (model : String) : ∃ y, extinctionY model 3 1 2 10 0.5 1 = some y ∧ 0 < y ∧ y ≤ 1 := by
  refine extinction_range model (by norm_num) (by norm_num) (by norm_num) (by norm_num) (by norm_num) (by norm_num) ?_
  have h : 0 ≤ gauss_x 3 1 2 10 0.5 1 := gauss_x_nonneg (by norm_num) (by norm_num) (by norm_num)
  have hB : 0 ≤ gauss_B 3 1 2 10 0.5 1 := by unfold gauss_B; norm_num
  positivity

end Cryspy.Ext
