import Verif.Range.Model
import Verif.Tof.Props
import Verif.Hkl.Props

/-!
# C71: the reflections of a pattern cover what was measured

`AppearsAt` says at which scattering angle a reflection appears (Bragg's law with `sthovl = sin θ/λ`).
-/

namespace Cryspy.Range

open Real Tof Hkl

/-- Bragg's law: the reflection `h` appears at the scattering angle `t` -/
def AppearsAt (uc : Fin 6 → ℝ) (wavelength : ℝ) (h : Symm.V3) (t : ℝ) : Prop :=
  0 ≤ t ∧ t ≤ π ∧ wavelength * sthovl uc h = sin (t / 2)

theorem appears_eq {uc : Fin 6 → ℝ} {w : ℝ} (hw : 0 < w) {h : Symm.V3} {t : ℝ} (ha : AppearsAt uc w h t) : sthovl uc h = sin (t / 2) / w := by
  rw [eq_div_iff hw.ne', mul_comm]
  exact ha.2.2

theorem sin_mono {x y : ℝ} (h1 : -(π / 2) ≤ x) (h2 : y ≤ π / 2) (h : x ≤ y) : sin x ≤ sin y := sin_le_sin_of_le_of_le_pi_div_two h1 h2 h

/-- C71: a one-dimensional pattern between 0 and 176 degrees: every reflection that appears within four degrees of a measured point is in the
range (unless `sin θ/λ` is below 0.0001). -/
theorem pd_covers {t : ℝ} {ts : List ℝ} {off w : ℝ} (hw : 0 < w) (hm : ∀ x ∈ t :: ts, 0 ≤ x - off ∧ x - off ≤ π - π / 45)
    {uc : Fin 6 → ℝ} {h : Symm.V3} {τ : ℝ} (ha : AppearsAt uc w h τ) {x : ℝ} (hx : x ∈ t :: ts) (hn : |τ - (x - off)| ≤ π / 45)
    (hs : 1 / 10000 ≤ sthovl uc h) : InRange uc (rangePd t ts off w).1 (rangePd t ts off w).2 h := by
  have hpi := pi_pos
  set z := t - off with hz
  set zs := ts.map fun x => x - off with hzs
  have hmem : ∀ y, y ∈ z :: zs → 0 ≤ y ∧ y ≤ π - π / 45 := by
    intro y hy
    have : y ∈ (t :: ts).map fun x => x - off := hy
    obtain ⟨u, hu, rfl⟩ := List.mem_map.1 this
    exact hm u hu
  have hx' : x - off ∈ z :: zs := List.mem_map_of_mem (f := fun x => x - off) hx
  obtain ⟨m1, m2⟩ := npMin_spec z zs
  obtain ⟨M1, M2⟩ := npMax_spec z zs
  have hmin := hmem _ m1
  have hmax := hmem _ M1
  have hxm := m2 _ hx'
  have hxM := M2 _ hx'
  have hτ := abs_le.1 hn
  have e := appears_eq hw ha
  -- both ends
  have lo : sin (1 / 2 * npMin z zs - π / 90) / w ≤ sthovl uc h := by
    rw [e]
    have : sin (1 / 2 * npMin z zs - π / 90) ≤ sin (τ / 2) := sin_mono (by linarith) (by linarith [ha.2.1]) (by linarith)
    gcongr
  have hi : sthovl uc h ≤ sin (1 / 2 * npMax z zs + π / 90) / w := by
    rw [e]
    have : sin (τ / 2) ≤ sin (1 / 2 * npMax z zs + π / 90) := sin_mono (by linarith [ha.1]) (by linarith) (by linarith)
    gcongr
  have lt : sin (1 / 2 * npMin z zs - π / 90) / w < sin (1 / 2 * npMax z zs + π / 90) / w := by
    have : sin (1 / 2 * npMin z zs - π / 90) < sin (1 / 2 * npMax z zs + π / 90) :=
      sin_lt_sin_of_lt_of_le_pi_div_two (by linarith) (by linarith) (by linarith)
    gcongr
  unfold rangePd InRange
  simp only [← hz, ← hzs]
  by_cases h0 : sin (1 / 2 * npMin z zs - π / 90) / w ≤ 0
  · simp only [if_pos h0]
    by_cases h1 : sin (1 / 2 * npMax z zs + π / 90) / w ≤ 1 / 10000
    · simp only [if_pos h1]
      refine ⟨hs, ?_⟩
      rw [if_neg (by norm_num)]
      linarith
    · simp only [if_neg h1]
      exact ⟨hs, hi⟩
  · simp only [if_neg h0, if_neg (not_le.2 lt)]
    exact ⟨lo, hi⟩

/-- C71, with C58: such a reflection, if the centring allows it, is equivalent to exactly one of the list that the pattern is calculated from. -/
theorem pd_listed {s : Sf.Sym} {uc : Fin 6 → ℝ} (g : Good s uc) (c : Choices uc) {t : ℝ} {ts : List ℝ} {off w : ℝ} (hw : 0 < w)
    (hm : ∀ x ∈ t :: ts, 0 ≤ x - off ∧ x - off ≤ π - π / 45) (hb : SmallBox uc (rangePd t ts off w).2) {h : Symm.V3} {τ : ℝ}
    (ha : AppearsAt uc w h τ) {x : ℝ} (hx : x ∈ t :: ts) (hn : |τ - (x - off)| ≤ π / 45) (hs : 1 / 10000 ≤ sthovl uc h) (hc : Allowed s h) :
    ∃! p, p ∈ indexHkl uc c (rangePd t ts off w).1 (rangePd t ts off w).2 s.reduced s.trans s.centro ∧ Equivalent s h p.1 :=
  list_complete g c _ _ hb h (pd_covers hw hm ha hx hn hs) hc

/-- C71, failure near backscattering: when the pattern goes beyond 178 degrees the reflection at its last point is not in the range. -/
theorem pd_backscatter_lost {t : ℝ} {ts : List ℝ} {off w : ℝ} (hw : 0 < w) (hmin : 0 ≤ npMin (t - off) (ts.map fun x => x - off))
    (hmin' : npMin (t - off) (ts.map fun x => x - off) ≤ π / 2) (hmax : π - π / 90 < npMax (t - off) (ts.map fun x => x - off))
    (hmax' : npMax (t - off) (ts.map fun x => x - off) ≤ π) {uc : Fin 6 → ℝ} {h : Symm.V3}
    (ha : AppearsAt uc w h (npMax (t - off) (ts.map fun x => x - off))) (hs : 1 / 10000 ≤ sthovl uc h / 2) :
    ¬ InRange uc (rangePd t ts off w).1 (rangePd t ts off w).2 h := by
  have hpi := pi_pos
  have e := appears_eq hw ha
  unfold rangePd InRange
  dsimp only
  generalize hz : npMin (t - off) (ts.map fun x => x - off) = a at *
  generalize hZ : npMax (t - off) (ts.map fun x => x - off) = b at *
  have eb : sin (1 / 2 * b + π / 90) = sin (π - (1 / 2 * b + π / 90)) := (sin_pi_sub _).symm
  have k1 : sin (1 / 2 * b + π / 90) < sin (b / 2) := by
    rw [eb]
    exact sin_lt_sin_of_lt_of_le_pi_div_two (by linarith) (by linarith) (by linarith)
  have k2 : sin (1 / 2 * a - π / 90) < sin (1 / 2 * b + π / 90) := by
    rw [eb]
    exact sin_lt_sin_of_lt_of_le_pi_div_two (by linarith) (by linarith) (by linarith)
  -- at least half of the largest value is left
  have k3 : sin (b / 2) / 2 < sin (1 / 2 * b + π / 90) := by
    have : sin (π / 6) < sin (π - (1 / 2 * b + π / 90)) :=
      sin_lt_sin_of_lt_of_le_pi_div_two (by linarith) (by linarith) (by linarith)
    rw [sin_pi_div_six, ← eb] at this
    linarith [sin_le_one (b / 2)]
  have lt : ¬ sin (1 / 2 * b + π / 90) / w ≤ (if sin (1 / 2 * a - π / 90) / w ≤ 0 then 1 / 10000 else sin (1 / 2 * a - π / 90) / w) := by
    split_ifs with h0
    · rw [not_le]
      refine lt_of_le_of_lt hs ?_
      rw [e, div_div, mul_comm w 2, ← div_div]
      gcongr
    · rw [not_le]
      gcongr
  simp only [if_neg lt]
  rintro ⟨-, h2⟩
  rw [e, div_le_div_iff_of_pos_right hw] at h2
  linarith

/-! ### Two dimensions -/

theorem ttheta_by_eq (g n : ℝ) : Powder.ttheta_by g n = arccos (cos n * cos g) := rfl

theorem cos_ttheta (g n : ℝ) : cos (Powder.ttheta_by g n) = cos n * cos g := by
  rw [ttheta_by_eq, cos_arccos]
  · nlinarith [neg_one_le_cos n, neg_one_le_cos g, cos_le_one n, cos_le_one g, abs_le.1 (abs_mul (cos n) (cos g) ▸
      mul_le_one₀ (abs_cos_le_one n) (abs_nonneg _) (abs_cos_le_one g))]
  · exact (abs_le.1 (abs_mul (cos n) (cos g) ▸ mul_le_one₀ (abs_cos_le_one n) (abs_nonneg _) (abs_cos_le_one g))).2

/-- C71: a two-dimensional pattern with gamma between 0 and 90 degrees and with nu not farther below the plane than above: every reflection that
appears within four degrees of the scattering angle of a measured pixel is in the range (unless `sin θ/λ` is below 0.00001). -/
theorem pd2d_covers {g n : ℝ} {gs ns : List ℝ} {oG oN w : ℝ} (hw : 0 < w) (hg : ∀ x ∈ g :: gs, 0 ≤ x - oG ∧ x - oG ≤ π / 2)
    (hn : ∀ y ∈ n :: ns, |y - oN| ≤ π / 2 ∧ ∃ y' ∈ n :: ns, |y - oN| ≤ y' - oN) {uc : Fin 6 → ℝ} {h : Symm.V3} {τ : ℝ}
    (ha : AppearsAt uc w h τ) {x y : ℝ} (hx : x ∈ g :: gs) (hy : y ∈ n :: ns) (hd : |τ - Powder.ttheta_by (x - oG) (y - oN)| ≤ π / 45)
    (hs : 1 / 100000 ≤ sthovl uc h) : InRange uc (rangePd2d g gs n ns oG oN w).1 (rangePd2d g gs n ns oG oN w).2 h := by
  have hpi := pi_pos
  set z := g - oG with hz
  set zs := gs.map fun x => x - oG with hzs
  set v := n - oN with hv
  set vs := ns.map fun x => x - oN with hvs
  have hgm : ∀ u, u ∈ z :: zs → 0 ≤ u ∧ u ≤ π / 2 := by
    intro u hu
    have : u ∈ (g :: gs).map fun x => x - oG := hu
    obtain ⟨q, hq, rfl⟩ := List.mem_map.1 this
    exact hg q hq
  have hx' : x - oG ∈ z :: zs := List.mem_map_of_mem (f := fun x => x - oG) hx
  have hy' : ∀ q ∈ n :: ns, q - oN ∈ v :: vs := fun q hq => List.mem_map_of_mem (f := fun x => x - oN) hq
  obtain ⟨m1, m2⟩ := npMin_spec z zs
  obtain ⟨M1, M2⟩ := npMax_spec z zs
  obtain ⟨N1, N2⟩ := npMax_spec v vs
  have hgmin := hgm _ m1
  have hgmax := hgm _ M1
  have hnmax : npMax v vs ≤ π / 2 := by
    have : npMax v vs ∈ (n :: ns).map fun x => x - oN := N1
    obtain ⟨q, hq, e⟩ := List.mem_map.1 this
    rw [← e]
    exact (le_abs_self _).trans (hn q hq).1
  obtain ⟨hya, y', hy1, hy2⟩ := hn y hy
  have hyM : |y - oN| ≤ npMax v vs := hy2.trans (N2 _ (hy' y' hy1))
  have hn0 : 0 ≤ npMax v vs := (abs_nonneg _).trans hyM
  -- cosines
  have c1 : cos (npMax v vs) ≤ cos (y - oN) := by
    rw [← cos_abs (y - oN)]
    exact cos_le_cos_of_nonneg_of_le_pi (abs_nonneg _) (by linarith) hyM
  have c2 : cos (npMax z zs) ≤ cos (x - oG) := cos_le_cos_of_nonneg_of_le_pi (hg x hx).1 (by linarith) (M2 _ hx')
  have c3 : cos (x - oG) ≤ cos (npMin z zs) := cos_le_cos_of_nonneg_of_le_pi hgmin.1 (by linarith [(hg x hx).2]) (m2 _ hx')
  have c4 : 0 ≤ cos (npMax v vs) := cos_nonneg_of_neg_pi_div_two_le_of_le (by linarith) hnmax
  have c5 : 0 ≤ cos (npMax z zs) := cos_nonneg_of_neg_pi_div_two_le_of_le (by linarith) hgmax.2
  have c6 : cos (y - oN) ≤ 1 := cos_le_one _
  have tmin : Powder.ttheta_by (npMin z zs) 0 ≤ Powder.ttheta_by (x - oG) (y - oN) := by
    rw [ttheta_by_eq, ttheta_by_eq, cos_zero, one_mul]
    refine arccos_le_arccos ?_
    have : 0 ≤ cos (x - oG) := c5.trans c2
    nlinarith
  have tmax : Powder.ttheta_by (x - oG) (y - oN) ≤ Powder.ttheta_by (npMax z zs) (npMax v vs) := by
    rw [ttheta_by_eq, ttheta_by_eq]
    refine arccos_le_arccos ?_
    exact mul_le_mul c1 c2 c5 (c4.trans c1)
  have tpi : Powder.ttheta_by (npMax z zs) (npMax v vs) ≤ π / 2 := by
    rw [ttheta_by_eq, arccos_le_pi_div_two]
    exact mul_nonneg c4 c5
  have t0 : 0 ≤ Powder.ttheta_by (npMin z zs) 0 := arccos_nonneg _
  have hτ := abs_le.1 hd
  have e := appears_eq hw ha
  have lo : sin (1 / 2 * Powder.ttheta_by (npMin z zs) 0 - π / 90) / w ≤ sthovl uc h := by
    rw [e]
    have : sin (1 / 2 * Powder.ttheta_by (npMin z zs) 0 - π / 90) ≤ sin (τ / 2) :=
      sin_mono (by linarith) (by linarith [ha.2.1]) (by linarith)
    gcongr
  have hi : sthovl uc h ≤ sin (1 / 2 * Powder.ttheta_by (npMax z zs) (npMax v vs) + π / 90) / w := by
    rw [e]
    have : sin (τ / 2) ≤ sin (1 / 2 * Powder.ttheta_by (npMax z zs) (npMax v vs) + π / 90) :=
      sin_mono (by linarith [ha.1]) (by linarith) (by linarith)
    gcongr
  unfold rangePd2d InRange
  simp only [← hz, ← hzs, ← hv, ← hvs]
  refine ⟨?_, hi⟩
  split_ifs
  · exact hs
  · exact lo

/-- … and is in the list. -/
theorem pd2d_listed {s : Sf.Sym} {uc : Fin 6 → ℝ} (G : Good s uc) (c : Choices uc) {g n : ℝ} {gs ns : List ℝ} {oG oN w : ℝ} (hw : 0 < w)
    (hg : ∀ x ∈ g :: gs, 0 ≤ x - oG ∧ x - oG ≤ π / 2) (hn : ∀ y ∈ n :: ns, |y - oN| ≤ π / 2 ∧ ∃ y' ∈ n :: ns, |y - oN| ≤ y' - oN)
    (hb : SmallBox uc (rangePd2d g gs n ns oG oN w).2) {h : Symm.V3} {τ : ℝ} (ha : AppearsAt uc w h τ) {x y : ℝ} (hx : x ∈ g :: gs)
    (hy : y ∈ n :: ns) (hd : |τ - Powder.ttheta_by (x - oG) (y - oN)| ≤ π / 45) (hs : 1 / 100000 ≤ sthovl uc h) (hc : Allowed s h) :
    ∃! p, p ∈ indexHkl uc c (rangePd2d g gs n ns oG oN w).1 (rangePd2d g gs n ns oG oN w).2 s.reduced s.trans s.centro ∧
      Equivalent s h p.1 :=
  list_complete G c _ _ hb h (pd2d_covers hw hg hn ha hx hy hd hs) hc

theorem sin_small : sin (π / 90) < 1 / 2 := by
  have h1 := sin_lt (x := π / 90) (by positivity)
  have h2 := pi_lt_four
  linarith

/-- C71, failure: a detector below the plane.  With `nu` from -60 to 0 degrees the reflection that appears in the lowest pixel is not in the
range. -/
theorem pd2d_below_lost {w : ℝ} (hw : 0 < w) {uc : Fin 6 → ℝ} {h : Symm.V3} (ha : AppearsAt uc w h (Powder.ttheta_by 0 (-(π / 3)))) :
    ¬ InRange uc (rangePd2d 0 [] (-(π / 3)) [0] 0 0 w).1 (rangePd2d 0 [] (-(π / 3)) [0] 0 0 w).2 h := by
  have e := appears_eq hw ha
  have h1 : Powder.ttheta_by 0 (-(π / 3)) = π / 3 := by
    rw [ttheta_by_eq, cos_zero, mul_one, cos_neg, arccos_cos] <;> linarith [pi_pos]
  have h2 : max (-(π / 3)) 0 = 0 := max_eq_right (by linarith [pi_pos])
  rw [h1, show π / 3 / 2 = π / 6 by ring, sin_pi_div_six] at e
  rintro ⟨-, h3⟩
  unfold rangePd2d at h3
  simp only [sub_zero, List.map_cons, List.map_nil, npMax, List.foldl_nil, List.foldl_cons, h2, ttheta_by_eq, cos_zero, mul_one, arccos_one,
    mul_zero, zero_add] at h3
  rw [e, div_le_div_iff_of_pos_right hw] at h3
  linarith [sin_small]

/-- C71, failure: a detector on the other side.  With `gamma` from -60 to 0 degrees the reflection that appears in the outermost pixel is not in
the range. -/
theorem pd2d_other_side_lost {w : ℝ} (hw : 0 < w) {uc : Fin 6 → ℝ} {h : Symm.V3} (ha : AppearsAt uc w h (Powder.ttheta_by (-(π / 3)) 0)) :
    ¬ InRange uc (rangePd2d (-(π / 3)) [0] 0 [] 0 0 w).1 (rangePd2d (-(π / 3)) [0] 0 [] 0 0 w).2 h := by
  have e := appears_eq hw ha
  have h1 : Powder.ttheta_by (-(π / 3)) 0 = π / 3 := by
    rw [ttheta_by_eq, cos_zero, one_mul, cos_neg, arccos_cos] <;> linarith [pi_pos]
  have h2 : max (-(π / 3)) 0 = 0 := max_eq_right (by linarith [pi_pos])
  rw [h1, show π / 3 / 2 = π / 6 by ring, sin_pi_div_six] at e
  rintro ⟨-, h3⟩
  unfold rangePd2d at h3
  simp only [sub_zero, List.map_cons, List.map_nil, npMax, List.foldl_nil, List.foldl_cons, h2, ttheta_by_eq, cos_zero, mul_one, arccos_one,
    mul_zero, zero_add] at h3
  rw [e, div_le_div_iff_of_pos_right hw] at h3
  linarith [sin_small]

/-- C71, failure: a detector beyond the right angle.  With `gamma` 120 degrees and `nu` from 0 to 60 degrees the reflection that appears in the
pixel in the plane is not in the range. -/
theorem pd2d_wide_lost {w : ℝ} (hw : 0 < w) {uc : Fin 6 → ℝ} {h : Symm.V3} (ha : AppearsAt uc w h (Powder.ttheta_by (2 * π / 3) 0)) :
    ¬ InRange uc (rangePd2d (2 * π / 3) [] 0 [π / 3] 0 0 w).1 (rangePd2d (2 * π / 3) [] 0 [π / 3] 0 0 w).2 h := by
  have hpi := pi_pos
  have e := appears_eq hw ha
  have hc : cos (2 * π / 3) = -1 / 2 := by
    rw [show 2 * π / 3 = π - π / 3 by ring, cos_pi_sub, cos_pi_div_three]; ring
  have h1 : Powder.ttheta_by (2 * π / 3) 0 = 2 * π / 3 := by
    rw [ttheta_by_eq, cos_zero, one_mul, arccos_cos] <;> linarith
  have h2 : max 0 (π / 3) = π / 3 := max_eq_right (by linarith)
  rw [h1, show 2 * π / 3 / 2 = π / 3 by ring] at e
  -- the largest angle the program uses
  have key : arccos (cos (π / 3) * cos (2 * π / 3)) < 2 * π / 3 - π / 45 := by
    have h3 : cos (2 * π / 3 - π / 45) < cos (π / 3) * cos (2 * π / 3) := by
      rw [cos_sub, hc, show 2 * π / 3 = π - π / 3 by ring, sin_pi_sub, sin_pi_div_three, cos_pi_div_three]
      have a1 := sin_lt (x := π / 45) (by positivity)
      have a2 := one_sub_sq_div_two_le_cos (x := π / 45)
      have a3 := pi_lt_d2
      have a4 : √3 < 2 := by
        rw [show (2 : ℝ) = √4 by rw [show (4 : ℝ) = 2 ^ 2 by norm_num, sqrt_sq (by norm_num)]]
        exact sqrt_lt_sqrt (by norm_num) (by norm_num)
      have a5 : 0 ≤ sin (π / 45) := sin_nonneg_of_nonneg_of_le_pi (by positivity) (by linarith)
      have a6 : π / 45 < 8 / 100 := by linarith
      have a7 : √3 / 2 * sin (π / 45) ≤ 1 * (8 / 100) := mul_le_mul (by linarith) (by linarith) a5 (by norm_num)
      have a8 : (π / 45) ^ 2 ≤ (8 / 100) ^ 2 := by
        apply pow_le_pow_left₀ (by positivity) a6.le
      nlinarith
    have := arccos_lt_arccos (x := cos (2 * π / 3 - π / 45)) (neg_one_le_cos _) h3 (by
      rw [hc, cos_pi_div_three]; norm_num)
    rwa [arccos_cos (by linarith) (by linarith)] at this
  rintro ⟨-, h3⟩
  unfold rangePd2d at h3
  simp only [sub_zero, List.map_cons, List.map_nil, npMax, List.foldl_nil, List.foldl_cons, h2, ttheta_by_eq] at h3
  rw [e, div_le_div_iff_of_pos_right hw] at h3
  have : sin (1 / 2 * arccos (cos (π / 3) * cos (2 * π / 3)) + π / 90) < sin (π / 3) :=
    sin_lt_sin_of_lt_of_le_pi_div_two (by linarith [arccos_nonneg (cos (π / 3) * cos (2 * π / 3))]) (by linarith) (by linarith)
  linarith

/-! ### Time of flight -/

/-- C71: a pattern over time of flight whose points are the times of positive `ds` on the increasing branch: a reflection whose d-spacing
`1/(2 sthovl)` lies between two measured ones is in the range. -/
theorem tof_covers {z a b d0 : ℝ} {ds : List ℝ} (hb : b ≠ 0) (hs : ∀ d ∈ d0 :: ds, 0 < a + 2 * b * d) (hp : ∀ d ∈ d0 :: ds, 0 < d)
    {uc : Fin 6 → ℝ} {h : Symm.V3} {d d' d'' : ℝ} (hd : d = 1 / (2 * sthovl uc h)) (h1 : d' ∈ d0 :: ds) (h2 : d'' ∈ d0 :: ds) (h3 : d' ≤ d)
    (h4 : d ≤ d'') : ∃ r, rangeTof (time_thermal d0 z a b) (ds.map fun d => time_thermal d z a b) z a b = some r ∧ InRange uc r.1 r.2 h := by
  obtain ⟨lo, hi, e, hlo, hhi, hr⟩ := d_range_spec (z := z) (a := a) d0 ds hb hs
  refine ⟨(1 / 2 / hi, 1 / 2 / lo), by unfold rangeTof; rw [e], ?_⟩
  have l1 := (hr d' h1).1.trans h3
  have l2 := h4.trans (hr d'' h2).2
  have p1 := hp lo hlo
  have p2 : 0 < d := p1.trans_le l1
  have es : sthovl uc h = 1 / 2 / d := by
    have : sthovl uc h ≠ 0 := by
      intro h0
      rw [h0] at hd
      simp at hd
      linarith
    rw [hd]
    field_simp
  unfold InRange
  rw [es]
  constructor
  · exact div_le_div_of_nonneg_left (by norm_num) p2 l2
  · exact div_le_div_of_nonneg_left (by norm_num) p1 l1

/-! ### The hypotheses can be met -/

/-- a pattern from 10 to 90 degrees -/
example : ∀ x ∈ (π / 18) :: [π / 2], 0 ≤ x - 0 ∧ x - 0 ≤ π - π / 45 := by
  have := pi_pos
  intro x hx
  simp only [List.mem_cons, List.not_mem_nil, or_false] at hx
  rcases hx with rfl | rfl <;> constructor <;> linarith

/-- a cubic cell with edge 1 -/
noncomputable def cube : Fin 6 → ℝ := ![1, 1, 1, π / 2, π / 2, π / 2]

theorem cube_sthovl : sthovl cube ![1, 0, 0] = 1 / 2 := by
  unfold sthovl Cell.calc_sthovl Cell.calc_inv_d
  simp [cube, Sf.hklR]

/-- with the wavelength 1 its reflection (1 0 0) appears at 60 degrees -/
example : AppearsAt cube 1 ![1, 0, 0] (π / 3) ∧ 1 / 10000 ≤ sthovl cube ![1, 0, 0] := by
  have := pi_pos
  refine ⟨⟨by linarith, by linarith, ?_⟩, ?_⟩
  · rw [cube_sthovl, show π / 3 / 2 = π / 6 by ring, sin_pi_div_six]
    norm_num
  · rw [cube_sthovl]
    norm_num

/-- … and in the lowest pixel of the detector of `pd2d_below_lost` -/
example : AppearsAt cube 1 ![1, 0, 0] (Powder.ttheta_by 0 (-(π / 3))) := by
  have := pi_pos
  have h1 : Powder.ttheta_by 0 (-(π / 3)) = π / 3 := by
    rw [ttheta_by_eq, cos_zero, mul_one, cos_neg, arccos_cos] <;> linarith [pi_pos]
  rw [h1]
  refine ⟨by linarith, by linarith, ?_⟩
  rw [cube_sthovl, show π / 3 / 2 = π / 6 by ring, sin_pi_div_six]
  norm_num

end Cryspy.Range
