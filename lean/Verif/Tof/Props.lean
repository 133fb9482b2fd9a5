import Verif.Tof.Model
import Verif.Powder.Props

/-!
# C29: time of flight and d-spacing; C46: time-of-flight peak shape (values)
-/

namespace Cryspy.Tof

open Real

variable {z a b d : ℝ}

theorem radicand_eq (z a b d : ℝ) : a ^ 2 - 4 * (z - time_thermal d z a b) * b = (a + 2 * b * d) ^ 2 := by
  unfold time_thermal; ring

/-- C29: on the branch where the time increases with `d` (slope `dtt1 + 2 dtt2 d > 0`) the conversion to time and back is exact when
`dtt2` is not positive. -/
theorem d_of_time_spec (hb : b ≤ 0) (hs : 0 < a + 2 * b * d) : dByTime (time_thermal d z a b) z a b = some d := by
  unfold dByTime
  rw [radicand_eq, if_neg (not_lt.2 (sq_nonneg _))]
  rcases lt_or_eq_of_le hb with h | rfl
  · have hb' := h.ne
    rw [if_pos h]
    unfold d_by_time_neg
    dsimp only
    rw [radicand_eq, Real.sqrt_sq hs.le]
    congr 1
    field_simp
    ring
  · rw [if_neg (lt_irrefl _), if_neg (lt_irrefl _), if_neg (by linarith)]
    have ha : a ≠ 0 := by linarith
    unfold d_by_time_zero time_thermal
    congr 1
    field_simp
    ring

/-- C29 is false for positive `dtt2`: the other root is returned, never `d`; for a positive `dtt1` and `d` it is negative. -/
theorem d_of_time_wrong (hb : 0 < b) (hs : 0 < a + 2 * b * d) :
    ∃ d', dByTime (time_thermal d z a b) z a b = some d' ∧ d' ≠ d ∧ (0 ≤ a → 0 < d → d' < 0) := by
  refine ⟨-d - a / b, ?_, ?_, ?_⟩
  · unfold dByTime
    rw [radicand_eq, if_neg (not_lt.2 (sq_nonneg _)), if_neg (not_lt.2 hb.le), if_pos hb]
    unfold d_by_time_pos
    dsimp only
    rw [radicand_eq, Real.sqrt_sq hs.le]
    congr 1
    field_simp
    ring
  · intro h
    field_simp at h
    linarith
  · intro ha hd
    have : 0 ≤ a / b := by positivity
    linarith

/-- C29: a time converted to `d` and back is unchanged, whichever root is taken. -/
theorem time_of_d {t : ℝ} (h : dByTime t z a b = some d) : time_thermal d z a b = t := by
  unfold dByTime at h
  split at h
  · simp at h
  · rename_i hr
    have hq := Real.sq_sqrt (not_lt.1 hr)
    split at h
    · rename_i hb
      have hb' := hb.ne
      simp only [Option.some.injEq] at h
      rw [← h]
      unfold d_by_time_neg time_thermal
      dsimp only
      generalize √(a ^ 2 - 4 * (z - t) * b) = S at *
      field_simp
      grind
    · split at h
      · rename_i hb
        have hb' := hb.ne'
        simp only [Option.some.injEq] at h
        rw [← h]
        unfold d_by_time_pos time_thermal
        dsimp only
        generalize √(a ^ 2 - 4 * (z - t) * b) = S at *
        field_simp
        grind
      · rename_i h1 h2
        have hb : b = 0 := le_antisymm (not_lt.1 h2) (not_lt.1 h1)
        split at h
        · simp at h
        · rename_i ha
          simp only [Option.some.injEq] at h
          rw [← h, hb]
          unfold d_by_time_zero time_thermal
          field_simp
          ring

/-- C29: on the increasing branch the time determines `d`, and a longer time means a larger `d`. -/
theorem time_strictMono {d' : ℝ} (h1 : 0 < a + 2 * b * d) (h2 : 0 < a + 2 * b * d') :
    time_thermal d z a b < time_thermal d' z a b ↔ d < d' := by
  have e : time_thermal d' z a b - time_thermal d z a b = (d' - d) * (((a + 2 * b * d) + (a + 2 * b * d')) / 2) := by
    unfold time_thermal; ring
  have hp : 0 < ((a + 2 * b * d) + (a + 2 * b * d')) / 2 := by linarith
  constructor
  · intro h
    by_contra hd
    have := mul_nonneg (sub_nonneg.2 (not_lt.1 hd)) hp.le
    nlinarith
  · intro h
    have := mul_pos (sub_pos.2 h) hp
    linarith

theorem npMin_spec (t : ℝ) (ts : List ℝ) : npMin t ts ∈ t :: ts ∧ ∀ x ∈ t :: ts, npMin t ts ≤ x := by
  induction ts generalizing t with
  | nil => simp [npMin]
  | cons s ts ih =>
    have := ih (min t s)
    unfold npMin at *
    simp only [List.foldl_cons]
    refine ⟨?_, ?_⟩
    · rcases List.mem_cons.1 this.1 with h | h
      · rcases min_choice t s with e | e <;> rw [h, e] <;> simp
      · simp [h]
    · intro x hx
      have h0 := this.2 (min t s) (by simp)
      rcases List.mem_cons.1 hx with rfl | hx
      · exact h0.trans (min_le_left _ _)
      · rcases List.mem_cons.1 hx with rfl | hx
        · exact h0.trans (min_le_right _ _)
        · exact this.2 x (by simp [hx])

theorem npMax_spec (t : ℝ) (ts : List ℝ) : npMax t ts ∈ t :: ts ∧ ∀ x ∈ t :: ts, x ≤ npMax t ts := by
  induction ts generalizing t with
  | nil => simp [npMax]
  | cons s ts ih =>
    have := ih (max t s)
    unfold npMax at *
    simp only [List.foldl_cons]
    refine ⟨?_, ?_⟩
    · rcases List.mem_cons.1 this.1 with h | h
      · rcases max_choice t s with e | e <;> rw [h, e] <;> simp
      · simp [h]
    · intro x hx
      have h0 := this.2 (max t s) (by simp)
      rcases List.mem_cons.1 hx with rfl | hx
      · exact (le_max_left _ _).trans h0
      · rcases List.mem_cons.1 hx with rfl | hx
        · exact (le_max_right _ _).trans h0
        · exact this.2 x (by simp [hx])

theorem dRoot_eq (hb : b ≠ 0) (hs : 0 ≤ a + 2 * b * d) : dRoot (time_thermal d z a b) z a b = some d := by
  have e : a ^ 2 - 4 * b * (z - time_thermal d z a b) = (a + 2 * b * d) ^ 2 := by unfold time_thermal; ring
  unfold dRoot
  rw [e, if_neg (by rintro (h | h); exact absurd h (not_lt.2 (sq_nonneg _)); exact hb h), Real.sqrt_sq hs]
  congr 1
  field_simp
  ring

/-- C29: the d-range of a pattern.  When the points of the pattern are the times of `ds` on the increasing branch and `dtt2` is not zero,
the range is exactly the smallest and the largest of them. -/
theorem d_range_spec (d0 : ℝ) (ds : List ℝ) (hb : b ≠ 0) (hs : ∀ d ∈ d0 :: ds, 0 < a + 2 * b * d) :
    ∃ lo hi, dMinMax (time_thermal d0 z a b) (ds.map fun d => time_thermal d z a b) z a b = (some lo, some hi) ∧
      lo ∈ d0 :: ds ∧ hi ∈ d0 :: ds ∧ ∀ d ∈ d0 :: ds, lo ≤ d ∧ d ≤ hi := by
  have hmap : time_thermal d0 z a b :: ds.map (fun d => time_thermal d z a b) = (d0 :: ds).map fun d => time_thermal d z a b := rfl
  obtain ⟨m1, m2⟩ := npMin_spec (time_thermal d0 z a b) (ds.map fun d => time_thermal d z a b)
  obtain ⟨M1, M2⟩ := npMax_spec (time_thermal d0 z a b) (ds.map fun d => time_thermal d z a b)
  rw [hmap] at m1 m2 M1 M2
  obtain ⟨lo, hlo, elo⟩ := List.mem_map.1 m1
  obtain ⟨hi, hhi, ehi⟩ := List.mem_map.1 M1
  refine ⟨lo, hi, ?_, hlo, hhi, ?_⟩
  · unfold dMinMax
    rw [← elo, ← ehi, dRoot_eq hb (hs lo hlo).le, dRoot_eq hb (hs hi hhi).le]
  · intro d hd
    have t1 := m2 _ (List.mem_map_of_mem hd)
    have t2 := M2 _ (List.mem_map_of_mem hd)
    rw [← elo] at t1
    rw [← ehi] at t2
    constructor
    · by_contra h
      exact absurd ((time_strictMono (hs d hd) (hs lo hlo)).2 (not_le.1 h)) (not_lt.2 t1)
    · by_contra h
      exact absurd ((time_strictMono (hs hi hhi) (hs d hd)).2 (not_le.1 h)) (not_lt.2 t2)

/-- C29 is false for `dtt2 = 0`: the range is not a number although the conversion is linear. -/
theorem d_range_zero (t : ℝ) (ts : List ℝ) (z a : ℝ) : dMinMax t ts z a 0 = (none, none) := by
  unfold dMinMax dRoot
  simp

/-- C29 is false for positive `dtt2`: the d-spacing given for a point of the pattern lies outside the d-range given for the pattern. -/
theorem d_range_disagrees (hb : 0 < b) (hs : 0 < a + 2 * b * d) :
    ∃ d' lo hi, dByTime (time_thermal d z a b) z a b = some d' ∧ dMinMax (time_thermal d z a b) [] z a b = (some lo, some hi) ∧ d' < lo := by
  refine ⟨-d - a / b, d, d, ?_, ?_, ?_⟩
  · unfold dByTime
    rw [radicand_eq, if_neg (not_lt.2 (sq_nonneg _)), if_neg (not_lt.2 hb.le), if_pos hb]
    unfold d_by_time_pos
    dsimp only
    rw [radicand_eq, Real.sqrt_sq hs.le]
    congr 1
    field_simp
    ring
  · unfold dMinMax npMin npMax
    simp only [List.foldl_nil]
    rw [dRoot_eq hb.ne' hs.le]
  · have : -d - a / b - d = -(a + 2 * b * d) / b := by field_simp; ring
    have : -(a + 2 * b * d) / b < 0 := div_neg_of_neg_of_pos (by linarith) hb
    linarith

example : (-0.5 : ℝ) ≤ 0 ∧ 0 < (7000 : ℝ) + 2 * (-0.5) * 3 ∧ ∀ d ∈ [(1.5 : ℝ), 3, 0.7], 0 < (7000 : ℝ) + 2 * (-0.5) * d := by
  refine ⟨by norm_num, by norm_num, ?_⟩
  simp; norm_num

/-! ### the complementary error function -/

theorem integrable_gauss : MeasureTheory.Integrable fun t : ℝ => exp (-t ^ 2) := by
  have := integrable_exp_neg_mul_sq (b := 1) one_pos
  simpa using this

theorem integral_gauss : ∫ t : ℝ, exp (-t ^ 2) = √π := by
  have := integral_gaussian 1
  simpa using this

theorem erfc_pos (x : ℝ) : 0 < erfc x := by
  unfold erfc
  have h : 0 < ∫ t in Set.Ioi x, exp (-t ^ 2) := by
    rw [MeasureTheory.setIntegral_pos_iff_support_of_nonneg_ae (Filter.Eventually.of_forall fun t => (exp_pos _).le) integrable_gauss.integrableOn]
    have : Function.support (fun t : ℝ => exp (-t ^ 2)) = Set.univ := by
      ext t; simp
    rw [this, Set.univ_inter]
    simp
  have := pi_pos
  positivity

theorem integral_Iic_pos (x : ℝ) : 0 < ∫ t in Set.Iic x, exp (-t ^ 2) := by
  rw [MeasureTheory.setIntegral_pos_iff_support_of_nonneg_ae (Filter.Eventually.of_forall fun t => (exp_pos _).le) integrable_gauss.integrableOn]
  have : Function.support (fun t : ℝ => exp (-t ^ 2)) = Set.univ := by
    ext t; simp
  rw [this, Set.univ_inter]
  simp

theorem erfc_eq (x : ℝ) : erfc x = 2 - 2 / √π * ∫ t in Set.Iic x, exp (-t ^ 2) := by
  have h := MeasureTheory.integral_add_compl (measurableSet_Iic (a := x)) integrable_gauss
  rw [Set.compl_Iic, integral_gauss] at h
  unfold erfc
  have hp : 0 < √π := Real.sqrt_pos.2 pi_pos
  rw [show ∫ t in Set.Ioi x, exp (-t ^ 2) = √π - ∫ t in Set.Iic x, exp (-t ^ 2) by linarith]
  field_simp

theorem erfc_lt_two (x : ℝ) : erfc x < 2 := by
  rw [erfc_eq]
  have := integral_Iic_pos x
  have hp : 0 < √π := Real.sqrt_pos.2 pi_pos
  have : 0 < 2 / √π * ∫ t in Set.Iic x, exp (-t ^ 2) := by positivity
  linarith

/-- C29: the epithermal time lies strictly between the epithermal and the thermal calibration line, at their common value when they meet. -/
theorem time_epithermal_between (d zero dtt1 zerot dtt1t dtt2t width x_cross : ℝ) :
    ∃ n, 0 < n ∧ n < 1 ∧ time_epithermal d zero dtt1 zerot dtt1t dtt2t width x_cross =
      n * (zero + dtt1 * d) + (1 - n) * (zerot + dtt1t * d - dtt2t / d) := by
  refine ⟨1 / 2 * erfc (width * (x_cross - 1 / d)), ?_, ?_, rfl⟩
  · have := erfc_pos (width * (x_cross - 1 / d)); positivity
  · have := erfc_lt_two (width * (x_cross - 1 / d)); linarith

/-! ### the peak shape -/

/-- C46: the quantities of the Jorgensen peak are those of the documentation. -/
theorem jorgensen_quantities (al be d : ℝ) {s : ℝ} (hs : s ≠ 0) :
    jy al be s d = (al * s ^ 2 + d) / (s * √2) ∧ jz al be s d = (be * s ^ 2 - d) / (s * √2) ∧
    ju al be s d = al / 2 * (al * s ^ 2 + 2 * d) ∧ jv al be s d = be / 2 * (be * s ^ 2 - 2 * d) := by
  have h2 : Real.rpow 2 (1 / 2) = √2 := by rw [Real.sqrt_eq_rpow]; rfl
  have hp : √(2:ℝ) ≠ 0 := by positivity
  refine ⟨?_, ?_, ?_, ?_⟩
  · unfold jy; dsimp only; rw [h2]; field_simp
  · unfold jz; dsimp only; rw [h2]; field_simp
  · unfold ju; ring
  · unfold jv; ring

/-- C46: the peak is positive everywhere. -/
theorem jorgensen_pos {al be : ℝ} (s t t0 : ℝ) (h1 : 0 < al) (h2 : 0 < be) : 0 < jorgensen al be s t t0 := by
  unfold jorgensen
  dsimp only
  have e1 := erfc_pos (jy al be s (t - t0))
  have e2 := erfc_pos (jz al be s (t - t0))
  positivity

/-- C46: exchanging rise and decay mirrors the peak about its position; it depends on the distance to the position only. -/
theorem jorgensen_mirror (al be s t t0 c : ℝ) :
    jorgensen be al s t t0 = jorgensen al be s (2 * t0 - t) t0 ∧ jorgensen al be s (t + c) (t0 + c) = jorgensen al be s t t0 := by
  constructor
  · unfold jorgensen jy jz ju jv
    dsimp only
    rw [show 2 * t0 - t - t0 = -(t - t0) by ring]
    generalize t - t0 = x
    rw [show 1 / 2 * be * al / (be + al) = 1 / 2 * al * be / (al + be) by rw [add_comm be al]; ring]
    rw [show al * s / Real.rpow 2 (1 / 2) + -x / (s * Real.rpow 2 (1 / 2)) = al * s / Real.rpow 2 (1 / 2) - x / (s * Real.rpow 2 (1 / 2)) by ring,
      show be * s / Real.rpow 2 (1 / 2) - -x / (s * Real.rpow 2 (1 / 2)) = be * s / Real.rpow 2 (1 / 2) + x / (s * Real.rpow 2 (1 / 2)) by ring,
      show 1 / 2 * al ^ 2 * s ^ 2 + -x * al = 1 / 2 * al ^ 2 * s ^ 2 - x * al by ring,
      show 1 / 2 * be ^ 2 * s ^ 2 - -x * be = 1 / 2 * be ^ 2 * s ^ 2 + x * be by ring]
    ring
  · unfold jorgensen
    rw [add_sub_add_right_eq_sub]

/-- C46: total width and mixing of the time-of-flight code are those of the constant-wavelength code. -/
theorem tof_width_mixing (g l : ℝ) : tof_h_pv g l = Powder.h_pv g l ∧ tof_eta g l = Powder.eta l (Powder.h_pv g l) := by
  have e : tof_h_pv g l = Powder.h_pv g l := by
    unfold tof_h_pv Powder.h_pv
    dsimp only
    congr 1
    ring
  refine ⟨e, ?_⟩
  have : tof_eta g l = 136603 / 100000 * (l * 1 / tof_h_pv g l) - 47719 / 100000 * (l * 1 / tof_h_pv g l) ^ 2 +
    2779 / 25000 * (l * 1 / tof_h_pv g l) ^ 3 := rfl
  rw [this, e]
  unfold Powder.eta
  ring

/-- C46: the Gaussian width is the documented polynomial where that is not negative. -/
theorem calc_sigma_sq (d s0 s1 s2 sg st : ℝ) (h : 0 ≤ (s2 + sg) * d ^ 4 + (s1 + st) * d ^ 2 + s0) :
    calc_sigma d s0 s1 s2 sg st ^ 2 = (s2 + sg) * d ^ 4 + (s1 + st) * d ^ 2 + s0 := by
  unfold calc_sigma
  dsimp only
  rw [Real.sq_sqrt (abs_nonneg _), show (d ^ 2) ^ 2 = d ^ 4 by ring, abs_of_nonneg h]

end Cryspy.Tof
