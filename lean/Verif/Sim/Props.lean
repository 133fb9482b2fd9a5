import Verif.Sim.Model
import Verif.Sect.Props

/-!
# Simulated powder patterns: properties
-/

namespace Cryspy.Sim

open Cryspy.Sect

/-! ## Rounding -/

theorem round3_near (x : ℝ) : |round3 x - x| ≤ 1 / 2000 := by
  have h := rint_spec (x * 10 ^ 3)
  unfold round3
  rw [abs_le] at h ⊢
  constructor
  · rw [le_sub_iff_add_le, le_div_iff₀ (by norm_num)]; linarith [h.1]
  · rw [sub_le_iff_le_add, div_le_iff₀ (by norm_num)]; linarith [h.2]

theorem round5_near (x : ℝ) : |round5 x - x| ≤ 1 / 200000 := by
  have h := rint_spec (x * 10 ^ 5)
  unfold round5
  rw [abs_le] at h ⊢
  constructor
  · rw [le_sub_iff_add_le, le_div_iff₀ (by norm_num)]; linarith [h.1]
  · rw [sub_le_iff_le_add, div_le_iff₀ (by norm_num)]; linarith [h.2]

theorem round3_fixed (k : ℤ) : round3 ((k : ℝ) / 1000) = (k : ℝ) / 1000 := by
  unfold round3
  rw [show (k : ℝ) / 1000 * 10 ^ 3 = (k : ℝ) by ring, rint_int]
  norm_num

theorem round3_twice (x : ℝ) : round3 (round3 x) = round3 x := by
  have := round3_fixed (rint (x * 10 ^ 3))
  have e : round3 x = ((rint (x * 10 ^ 3) : ℤ) : ℝ) / 1000 := by unfold round3; norm_num
  rw [e, this]

theorem rint_le {x y : ℝ} (h : x ≤ y) : rint x ≤ rint y := by
  unfold rint
  have hf : ⌊x⌋ ≤ ⌊y⌋ := Int.floor_le_floor h
  rcases hf.eq_or_lt with he | hl
  · rw [← he]
    split_ifs <;> first | omega | (exfalso; linarith)
  · split_ifs <;> omega

theorem rint_lt {x y : ℝ} (h : x + 1 < y) : rint x < rint y := by
  have h1 := abs_le.1 (rint_spec x)
  have h2 := abs_le.1 (rint_spec y)
  have : (rint x : ℝ) < rint y := by linarith [h1.2, h2.1]
  exact_mod_cast this

theorem round3_le {x y : ℝ} (h : x ≤ y) : round3 x ≤ round3 y := by
  unfold round3
  have := rint_le (mul_le_mul_of_nonneg_right h (by norm_num : (0 : ℝ) ≤ 10 ^ 3))
  have : (rint (x * 10 ^ 3) : ℝ) ≤ rint (y * 10 ^ 3) := by exact_mod_cast this
  exact div_le_div_of_nonneg_right this (by norm_num)

theorem round3_lt {x y : ℝ} (h : x + 1 / 1000 < y) : round3 x < round3 y := by
  unfold round3
  have := rint_lt (show x * 10 ^ 3 + 1 < y * 10 ^ 3 by linarith)
  have : (rint (x * 10 ^ 3) : ℝ) < rint (y * 10 ^ 3) := by exact_mod_cast this
  exact div_lt_div_of_pos_right this (by norm_num)

/-! ## The grid -/

/-- the step that fits the range, which replaces the given one -/
noncomputable def step (s e : ℝ) (n : ℕ) : ℝ := (e - s) / ((n : ℝ) - 1)

/-- the number of points is within a half of the range over the step plus one, and the step that is used differs from the one given by no more than its
share: half of it over the number of intervals -/
theorem count_spec {s e h : ℝ} (hh : 0 < h) {n : ℕ} (hn : nStep s e h = n) :
    |(n : ℝ) - ((e - s) / h + 1)| ≤ 1 / 2 ∧ (1 < n → |step s e n - h| ≤ h / (2 * ((n : ℝ) - 1))) := by
  have h1 := rint_spec ((e - s) / h + 1)
  have h2 : ((rint ((e - s) / h + 1) : ℤ) : ℝ) = n := by
    have : rint ((e - s) / h + 1) = n := hn
    rw [this]; simp
  rw [h2] at h1
  refine ⟨h1, fun hn1 => ?_⟩
  have hp : (0 : ℝ) < (n : ℝ) - 1 := by
    have : (1 : ℝ) < n := by exact_mod_cast hn1
    linarith
  have : step s e n - h = -((n : ℝ) - ((e - s) / h + 1)) * h / ((n : ℝ) - 1) := by
    unfold step
    field_simp
    ring
  rw [this, abs_div, abs_mul, abs_neg, abs_of_pos hh, abs_of_pos hp, div_le_div_iff₀ hp (by positivity)]
  have := mul_le_mul_of_nonneg_right h1 hh.le
  nlinarith

theorem grid_length (s e : ℝ) (n : ℕ) : (grid s e n).length = n := by simp [grid]

theorem grid_get (s e : ℝ) {n i : ℕ} (hi : i < n) : (grid s e n)[i]? = some (round3 (s + i * step s e n)) := by
  unfold grid step
  rw [List.getElem?_map, List.getElem?_range hi]
  simp [mul_div_assoc]

/-- the points are the equally spaced ones to half of a thousandth of a degree; the first is the start and the last the end; they do not decrease, and
they increase if the step is over a thousandth -/
theorem grid_spec {s e : ℝ} {n : ℕ} (hn : 2 ≤ n) :
    (grid s e n).length = n ∧
    (∀ i, i < n → ∃ t, (grid s e n)[i]? = some t ∧ |t - (s + i * step s e n)| ≤ 1 / 2000) ∧
    (grid s e n)[0]? = some (round3 s) ∧ (grid s e n)[n - 1]? = some (round3 e) ∧
    (s ≤ e → (grid s e n).Pairwise (· ≤ ·)) ∧ (1 / 1000 < step s e n → (grid s e n).Pairwise (· < ·)) := by
  have hp : (0 : ℝ) < (n : ℝ) - 1 := by
    have : (2 : ℝ) ≤ n := by exact_mod_cast hn
    linarith
  refine ⟨grid_length s e n, fun i hi => ⟨_, grid_get s e hi, round3_near _⟩, ?_, ?_, fun h => ?_, fun h => ?_⟩
  · rw [grid_get s e (by omega)]; simp
  · rw [grid_get s e (by omega)]
    have : ((n - 1 : ℕ) : ℝ) = (n : ℝ) - 1 := by push_cast [show 1 ≤ n by omega]; ring
    rw [this]
    unfold step
    rw [mul_div_cancel₀ _ hp.ne']
    simp
  · unfold grid
    rw [List.pairwise_map]
    refine List.Pairwise.imp ?_ (List.pairwise_lt_range (n := n))
    intro a b hab
    apply round3_le
    have : (a : ℝ) ≤ b := by exact_mod_cast hab.le
    have h2 := mul_le_mul_of_nonneg_right this (div_nonneg (sub_nonneg.2 h) hp.le)
    rw [mul_div_assoc, mul_div_assoc]
    linarith
  · unfold grid
    rw [List.pairwise_map]
    refine List.Pairwise.imp ?_ (List.pairwise_lt_range (n := n))
    intro a b hab
    apply round3_lt
    have : (a : ℝ) + 1 ≤ b := by exact_mod_cast hab
    have h2 := mul_le_mul_of_nonneg_right this (le_trans (by norm_num) h.le : 0 ≤ step s e n)
    have e1 : (a : ℝ) * (e - s) / ((n : ℝ) - 1) = a * step s e n := by unfold step; ring
    have e2 : (b : ℝ) * (e - s) / ((n : ℝ) - 1) = b * step s e n := by unfold step; ring
    rw [e1, e2]
    linarith

/-- a step that divides the range is the one used: all points are there, in thousandths of a degree exactly -/
theorem step_kept {s h : ℝ} (hh : h ≠ 0) (m : ℕ) : nStep s (s + m * h) h = (m : ℤ) + 1 ∧
    ∀ i, i ≤ m → (grid s (s + m * h) (m + 1))[i]? = some (round3 (s + i * h)) := by
  constructor
  · unfold nStep
    rw [show (s + m * h - s) / h + 1 = (((m : ℤ) + 1 : ℤ) : ℝ) by push_cast; field_simp; ring, rint_int]
  · intro i hi
    rw [grid_get _ _ (by omega)]
    congr 3
    unfold step
    rcases Nat.eq_zero_or_pos m with rfl | hm
    · obtain rfl : i = 0 := by omega
      simp
    · have : (m : ℝ) ≠ 0 := by exact_mod_cast hm.ne'
      push_cast
      rw [show s + (m : ℝ) * h - s = m * h by ring, show (m : ℝ) + 1 - 1 = m by ring, mul_div_cancel_left₀ _ this]

/-! ## The written intensities -/

theorem assign_length (l : List Item) (v : List Vals) : (assign l v).length = l.length := by
  fun_induction assign l v <;> simp_all

theorem assign_get (l : List Item) (v : List Vals) (i : ℕ) : (assign l v)[i]? = l[i]?.map fun a => match v[i]? with
    | some w => { a with vals := w }
    | none => a := by
  fun_induction assign l v generalizing i with
  | case1 a as v vs ih =>
    cases i with
    | zero => simp
    | succ i => simpa using ih i
  | case2 as => cases as[i]? <;> simp
  | case3 => simp

/-- what ought to be written at an angle -/
noncomputable def want (c : Calc) (pol : Bool) (pts : List ℝ) (t : ℝ) : Vals :=
  if pol then .pol (round3 (round5 (c.plus pts t) + 1 / 2 * round5 (c.bkg pts t))) (round3 (round5 (c.minus pts t) + 1 / 2 * round5 (c.bkg pts t)))
  else .sum (round3 (round5 (c.plus pts t) + round5 (c.minus pts t) + round5 (c.bkg pts t)))

/-- what is written -/
noncomputable def written (c : Calc) (pol : Bool) (pts : List ℝ) (t : ℝ) : Vals :=
  if pol then .pol (round3 (round5 (c.plus pts t) + 1 / 2 * round5 (c.bkg pts t))) (round3 (round5 (c.plus pts t) + 1 / 2 * round5 (c.bkg pts t)))
  else .sum (round3 (round5 (c.plus pts t) + round5 (c.minus pts t) + round5 (c.bkg pts t)))

theorem newVals_eq (c : Calc) (pol : Bool) (pts : List ℝ) :
    (proc c pts).map (newVals pol) = pts.map (written c pol pts) := by
  unfold proc
  rw [List.map_map]
  apply List.map_congr_left
  intro t _
  unfold newVals written
  cases pol <;> simp [round3_twice]

/-- the intensities of zero the loop starts with -/
def zero (pol : Bool) : Vals := if pol then .pol 0 0 else .sum 0

theorem simulate_eq (c : Calc) {s e h : ℝ} (hh : h ≠ 0) (pol : Bool) {n : ℕ} (hn : nStep s e h = n) :
    ∃ r, simulate c s e h pol = some r ∧
      r.meas = assign ((grid s e n).map fun t => ⟨t, zero pol⟩) ((inRange s e (grid s e n)).map (written c pol (inRange s e (grid s e n)))) := by
  refine ⟨_, by unfold simulate; rw [if_neg hh, if_neg (by omega)], ?_⟩
  have : (nStep s e h).toNat = n := by omega
  dsimp only
  rw [this, newVals_eq]
  rfl

/-- the angles of the loop are the grid, always -/
theorem angles (c : Calc) {s e h : ℝ} (hh : h ≠ 0) (pol : Bool) {n : ℕ} (hn : nStep s e h = n) :
    ∃ r, simulate c s e h pol = some r ∧ r.meas.map Item.x = grid s e n := by
  obtain ⟨r, h1, h2⟩ := simulate_eq c hh pol hn
  refine ⟨r, h1, ?_⟩
  rw [h2]
  apply List.ext_getElem?
  intro i
  rw [List.getElem?_map, assign_get, List.getElem?_map, List.getElem?_map]
  cases hg : (grid s e n)[i]? with
  | none => rfl
  | some t => cases (inRange s e (grid s e n))[i]? <;> rfl

theorem assign_map (g : List ℝ) (z : Vals) (f : ℝ → Vals) : assign (g.map fun t => ⟨t, z⟩) (g.map f) = g.map fun t => ⟨t, f t⟩ := by
  induction g with
  | nil => simp [assign]
  | cons a g ih => simp [assign, ih]

theorem inRange_all {s e : ℝ} {g : List ℝ} (h : ∀ t ∈ g, Pts.clip 0 180 s ≤ t ∧ t ≤ Pts.clip 0 180 e) : inRange s e g = g := by
  unfold inRange
  rw [List.filter_eq_self]
  intro t ht
  simp [h t ht]

theorem clip_id {x : ℝ} (h0 : 0 ≤ x) (h1 : x ≤ 180) : Pts.clip 0 180 x = x := by
  unfold Pts.clip
  simp only
  rw [if_neg (not_lt.2 h0), if_neg (not_lt.2 h1)]

theorem grid_between {s e : ℝ} (hse : s ≤ e) {n : ℕ} {t : ℝ} (ht : t ∈ grid s e n) : (n = 1 ∧ t = round3 s) ∨ (round3 s ≤ t ∧ t ≤ round3 e) := by
  unfold grid at ht
  obtain ⟨i, hi, rfl⟩ := List.mem_map.1 ht
  rw [List.mem_range] at hi
  rcases Nat.lt_or_ge n 2 with h | h
  · left
    obtain rfl : n = 1 := by omega
    obtain rfl : i = 0 := by omega
    simp
  · right
    have hp : (0 : ℝ) < (n : ℝ) - 1 := by
      have : (2 : ℝ) ≤ n := by exact_mod_cast h
      linarith
    have hi' : (i : ℝ) ≤ (n : ℝ) - 1 := by
      have : (i : ℝ) + 1 ≤ n := by exact_mod_cast hi
      linarith
    have h1 : 0 ≤ (i : ℝ) * (e - s) / ((n : ℝ) - 1) := div_nonneg (mul_nonneg (Nat.cast_nonneg i) (sub_nonneg.2 hse)) hp.le
    have h2 : (i : ℝ) * (e - s) / ((n : ℝ) - 1) ≤ e - s := by
      rw [div_le_iff₀ hp]
      nlinarith [mul_le_mul_of_nonneg_right hi' (sub_nonneg.2 hse)]
    exact ⟨round3_le (by linarith), round3_le (by linarith)⟩

/-- a range between 0 and 180 degrees whose ends do not get out of it by the rounding: every point has the intensity calculated for its angle -/
theorem pattern_rounded (c : Calc) {s e h : ℝ} (hh : h ≠ 0) (pol : Bool) {n : ℕ} (hn : nStep s e h = n) (h0 : 0 ≤ s) (hse : s ≤ e) (h1 : e ≤ 180)
    (hs : s ≤ round3 s) (he : round3 e ≤ e) (hse' : n = 1 → round3 s ≤ e) :
    ∃ r, simulate c s e h pol = some r ∧ r.meas = (grid s e n).map fun t => ⟨t, written c pol (grid s e n) t⟩ := by
  obtain ⟨r, hr, hm⟩ := simulate_eq c hh pol hn
  have hi : inRange s e (grid s e n) = grid s e n := by
    apply inRange_all
    intro t ht
    rw [clip_id h0 (hse.trans h1), clip_id (h0.trans hse) h1]
    rcases grid_between hse ht with ⟨h, rfl⟩ | ⟨h, h'⟩
    · exact ⟨hs, hse' h⟩
    · exact ⟨hs.trans h, h'.trans he⟩
  refine ⟨r, hr, ?_⟩
  rw [hm, hi, assign_map]

/-- a range given in thousandths of a degree, unpolarized neutrons: the intensity of a point is the sum of the calculated ones up and down and of the
background at its angle, to five ten-thousandths and the three roundings to five digits -/
theorem pattern_unpolarized (c : Calc) {a b : ℤ} (ha : 0 ≤ a) (hab : a ≤ b) (hb : b ≤ 180000) {h : ℝ} (hh : h ≠ 0) {n : ℕ}
    (hn : nStep (a / 1000) (b / 1000) h = n) :
    ∃ r, simulate c (a / 1000) (b / 1000) h false = some r ∧ r.meas.map Item.x = grid (a / 1000) (b / 1000) n ∧
      ∀ it ∈ r.meas, ∃ v, it.vals = .sum v ∧
        |v - (c.plus (r.meas.map Item.x) it.x + c.minus (r.meas.map Item.x) it.x + c.bkg (r.meas.map Item.x) it.x)| ≤ 515 / 10 ^ 6 := by
  have h0 : (0 : ℝ) ≤ a := by exact_mod_cast ha
  have h1 : (a : ℝ) ≤ b := by exact_mod_cast hab
  have h2 : (b : ℝ) ≤ 180000 := by exact_mod_cast hb
  obtain ⟨r, hr, hm⟩ := pattern_rounded c hh false hn (by positivity) (by linarith) (by linarith) (round3_fixed a).ge (round3_fixed b).le
    (fun _ => by rw [round3_fixed]; linarith)
  have hx : r.meas.map Item.x = grid (a / 1000) (b / 1000) n := by rw [hm]; simp [Function.comp_def]
  refine ⟨r, hr, hx, ?_⟩
  intro it hit
  rw [hx]
  rw [hm] at hit
  obtain ⟨t, _, rfl⟩ := List.mem_map.1 hit
  refine ⟨_, rfl, ?_⟩
  have k0 := abs_le.1 (round3_near (round5 (c.plus (grid (a / 1000) (b / 1000) n) t) + round5 (c.minus (grid (a / 1000) (b / 1000) n) t) +
    round5 (c.bkg (grid (a / 1000) (b / 1000) n) t)))
  have k1 := abs_le.1 (round5_near (c.plus (grid (a / 1000) (b / 1000) n) t))
  have k2 := abs_le.1 (round5_near (c.minus (grid (a / 1000) (b / 1000) n) t))
  have k3 := abs_le.1 (round5_near (c.bkg (grid (a / 1000) (b / 1000) n) t))
  rw [abs_le]
  constructor <;> dsimp only <;> linarith [k0.1, k0.2, k1.1, k1.2, k2.1, k2.2, k3.1, k3.2]

/-- the same for polarized neutrons: the pattern up has the calculated intensity up and half of the background -/
theorem pattern_up (c : Calc) {a b : ℤ} (ha : 0 ≤ a) (hab : a ≤ b) (hb : b ≤ 180000) {h : ℝ} (hh : h ≠ 0) {n : ℕ}
    (hn : nStep (a / 1000) (b / 1000) h = n) :
    ∃ r, simulate c (a / 1000) (b / 1000) h true = some r ∧ r.meas.map Item.x = grid (a / 1000) (b / 1000) n ∧
      ∀ it ∈ r.meas, ∃ v w, it.vals = .pol v w ∧
        |v - (c.plus (r.meas.map Item.x) it.x + c.bkg (r.meas.map Item.x) it.x / 2)| ≤ 5075 / 10 ^ 7 := by
  have h0 : (0 : ℝ) ≤ a := by exact_mod_cast ha
  have h1 : (a : ℝ) ≤ b := by exact_mod_cast hab
  have h2 : (b : ℝ) ≤ 180000 := by exact_mod_cast hb
  obtain ⟨r, hr, hm⟩ := pattern_rounded c hh true hn (by positivity) (by linarith) (by linarith) (round3_fixed a).ge (round3_fixed b).le
    (fun _ => by rw [round3_fixed]; linarith)
  have hx : r.meas.map Item.x = grid (a / 1000) (b / 1000) n := by rw [hm]; simp [Function.comp_def]
  refine ⟨r, hr, hx, ?_⟩
  intro it hit
  rw [hx]
  rw [hm] at hit
  obtain ⟨t, _, rfl⟩ := List.mem_map.1 hit
  refine ⟨_, _, rfl, ?_⟩
  have k0 := abs_le.1 (round3_near (round5 (c.plus (grid (a / 1000) (b / 1000) n) t) + 1 / 2 * round5 (c.bkg (grid (a / 1000) (b / 1000) n) t)))
  have k1 := abs_le.1 (round5_near (c.plus (grid (a / 1000) (b / 1000) n) t))
  have k3 := abs_le.1 (round5_near (c.bkg (grid (a / 1000) (b / 1000) n) t))
  rw [abs_le]
  constructor <;> dsimp only <;> linarith [k0.1, k0.2, k1.1, k1.2, k3.1, k3.2]

/-- the call raises exactly for a step of zero and for a range that is, against the direction of the step, over one and a half steps long -/
theorem raises_iff (c : Calc) (s e h : ℝ) (pol : Bool) : simulate c s e h pol = none ↔ h = 0 ∨ (e - s) / h < -3 / 2 := by
  have key : nStep s e h < 0 ↔ (e - s) / h < -3 / 2 := by
    have h1 := abs_le.1 (rint_spec ((e - s) / h + 1))
    have hz : rint (-1 / 2) = 0 := by
      have hf : ⌊(-1 / 2 : ℝ)⌋ = -1 := by rw [Int.floor_eq_iff]; norm_num
      unfold rint
      rw [hf]
      norm_num
    unfold nStep
    constructor
    · intro hn
      by_contra hc
      have := rint_le (show (-1 / 2 : ℝ) ≤ (e - s) / h + 1 by linarith [not_lt.1 hc])
      omega
    · intro hn
      have : ((rint ((e - s) / h + 1) : ℤ) : ℝ) < 0 := by linarith [h1.2]
      exact_mod_cast this
  rw [← key]
  unfold simulate
  split_ifs with a b
  · simp [a]
  · simp [b]
  · simp [a, b]

/-! ## Known failures -/

/-- the pattern down is a copy of the pattern up, whatever was calculated for it -/
theorem down_is_up (c : Calc) {s e h : ℝ} {r : Result} (hr : simulate c s e h true = some r) :
    ∀ it ∈ r.meas, ∃ v, it.vals = .pol v v := by
  have hh : h ≠ 0 := by
    rintro rfl
    simp [simulate] at hr
  have hnn : ¬ nStep s e h < 0 := by
    intro h0
    simp [simulate, hh, h0] at hr
  obtain ⟨r', hr', hm⟩ := simulate_eq c hh true (Int.toNat_of_nonneg (not_lt.1 hnn)).symm
  obtain rfl : r' = r := Option.some.inj (hr'.symm.trans hr)
  rw [hm]
  intro it hit
  obtain ⟨i, hi⟩ := List.mem_iff_getElem?.1 hit
  rw [assign_get, List.getElem?_map, List.getElem?_map] at hi
  cases h1 : (grid s e (nStep s e h).toNat)[i]? with
  | none => rw [h1] at hi; simp at hi
  | some t =>
    rw [h1] at hi
    cases h2 : (inRange s e (grid s e (nStep s e h).toNat))[i]? with
    | none =>
      rw [h2] at hi
      simp only [Option.map_some, Option.map_none, Option.some.injEq] at hi
      exact ⟨0, by rw [← hi]; rfl⟩
    | some u =>
      rw [h2] at hi
      simp only [Option.map_some, Option.some.injEq] at hi
      exact ⟨_, by rw [← hi]; rfl⟩

/-- a start that the rounding puts out of the range: every intensity is written to the point before the one it is calculated for, and the last point
keeps zero -/
theorem start_rounded_down (c : Calc) {s e h : ℝ} (hh : h ≠ 0) (pol : Bool) {n : ℕ} (hn2 : 2 ≤ n) (hn : nStep s e h = n) (h0 : 0 ≤ s) (h1 : e ≤ 180)
    (hs : round3 s < s) (he : round3 e ≤ e) (hd : 1 / 2000 ≤ step s e n) :
    ∃ r, simulate c s e h pol = some r ∧ r.meas.map Item.x = grid s e n ∧
      (∀ i t, (grid s e n)[i + 1]? = some t → (r.meas[i]?).map Item.vals = some (written c pol (grid s e n).tail t)) ∧
      (r.meas[n - 1]?).map Item.vals = some (zero pol) := by
  have hp : (0 : ℝ) < (n : ℝ) - 1 := by
    have : (2 : ℝ) ≤ n := by exact_mod_cast hn2
    linarith
  have hse : s ≤ e := by
    have : step s e n * ((n : ℝ) - 1) = e - s := by unfold step; field_simp
    nlinarith
  obtain ⟨r, hr, hm⟩ := simulate_eq c hh pol hn
  obtain ⟨r', hr', hx⟩ := angles c hh pol hn
  obtain rfl : r = r' := Option.some.inj (hr.symm.trans hr')
  have hi : inRange s e (grid s e n) = (grid s e n).tail := by
    obtain ⟨m, rfl⟩ : ∃ m, n = m + 1 := ⟨n - 1, by omega⟩
    have hg : grid s e (m + 1) = round3 s :: (grid s e (m + 1)).tail := by
      have := grid_get s e (show 0 < m + 1 by omega)
      cases hl : grid s e (m + 1) with
      | nil => rw [hl] at this; simp at this
      | cons a l => rw [hl] at this; simp at this; rw [this]; rfl
    unfold inRange
    rw [clip_id h0 (hse.trans h1), clip_id (h0.trans hse) h1]
    conv_lhs => rw [hg]
    rw [List.filter_cons_of_neg (by simp only [Bool.and_eq_true, decide_eq_true_eq, not_and]; intro h; exact absurd h (not_le.2 hs))]
    rw [List.filter_eq_self]
    intro t ht
    have ht' : t ∈ grid s e (m + 1) := List.mem_of_mem_tail ht
    obtain ⟨i, hit⟩ := List.mem_iff_getElem?.1 ht
    rw [List.getElem?_tail] at hit
    have hlt : i + 1 < m + 1 := by
      have := (List.getElem?_eq_some_iff.1 hit).1
      rwa [grid_length] at this
    rw [grid_get s e hlt] at hit
    have h2 : t = round3 (s + ((i + 1 : ℕ) : ℝ) * step s e (m + 1)) := (Option.some.inj hit).symm
    have h3 := (abs_le.1 (round3_near (s + ((i + 1 : ℕ) : ℝ) * step s e (m + 1)))).1
    have h4 : step s e (m + 1) ≤ ((i + 1 : ℕ) : ℝ) * step s e (m + 1) := by
      push_cast
      have hd0 : (0 : ℝ) ≤ step s e (m + 1) := le_trans (by norm_num : (0 : ℝ) ≤ 1 / 2000) hd
      nlinarith [Nat.cast_nonneg (α := ℝ) i]
    have h5 : t ≤ e := by
      rcases grid_between hse ht' with ⟨h, _⟩ | ⟨_, h⟩
      · omega
      · exact h.trans he
    simp only [Bool.and_eq_true, decide_eq_true_eq]
    exact ⟨by rw [h2]; linarith, h5⟩
  refine ⟨r, hr, hx, ?_, ?_⟩
  · intro i t ht
    rw [hm, assign_get, hi, List.getElem?_map, List.getElem?_map, List.getElem?_tail, ht]
    have : i < n := by
      have := (List.getElem?_eq_some_iff.1 ht).1
      rw [grid_length] at this
      omega
    rw [grid_get s e this]
    rfl
  · have e1 : (grid s e n)[n - 1 + 1]? = none := List.getElem?_eq_none (by rw [grid_length]; omega)
    have e2 := grid_get s e (show n - 1 < n by omega)
    rw [hm, assign_get, hi, List.getElem?_map, List.getElem?_map, List.getElem?_tail, e1, e2]
    rfl

/-- an end that the rounding puts out of the range, or one over 180 degrees: the points beyond keep an intensity of zero, the others have their own -/
theorem end_left_out (c : Calc) {s e h : ℝ} (hh : h ≠ 0) (pol : Bool) {n k : ℕ} (hn : nStep s e h = n)
    (hin : ∀ i t, (grid s e n)[i]? = some t → ((Pts.clip 0 180 s ≤ t ∧ t ≤ Pts.clip 0 180 e) ↔ i < k)) :
    ∃ r, simulate c s e h pol = some r ∧
      ∀ i t, (grid s e n)[i]? = some t →
        r.meas[i]? = some (Item.mk t (if i < k then written c pol ((grid s e n).take k) t else zero pol)) := by
  obtain ⟨r, hr, hm⟩ := simulate_eq c hh pol hn
  have hi : inRange s e (grid s e n) = (grid s e n).take k := by
    unfold inRange
    generalize grid s e n = g at hin
    induction g generalizing k with
    | nil => simp
    | cons a g ih =>
      have ha := hin 0 a rfl
      cases k with
      | zero =>
        rw [List.take_zero, List.filter_eq_nil_iff]
        intro t ht
        obtain ⟨i, hi⟩ := List.mem_iff_getElem?.1 ht
        have := hin i t hi
        simp only [Bool.and_eq_true, decide_eq_true_eq]
        rw [this]; omega
      | succ k =>
        have := ha.2 (by omega)
        rw [List.filter_cons_of_pos (by simp [this]), List.take_succ_cons, ih]
        intro i t ht
        have := hin (i + 1) t (by simpa using ht)
        rw [this]; omega
  refine ⟨r, hr, ?_⟩
  intro i t ht
  rw [hm, assign_get, hi, List.getElem?_map, List.getElem?_map, ht, List.getElem?_take]
  split_ifs with h
  · simp [ht]
  · simp

/-! ## Examples -/

/-- an example: intensities of 10 times the angle up, 4 times down, and a background of one -/
noncomputable def exC : Calc := ⟨fun _ t => 10 * t, fun _ t => 4 * t, fun _ _ => 1⟩

theorem ex_n : nStep (4 / 1 : ℝ) 6 1 = 3 := by
  have := (step_kept (s := 4) (h := 1) one_ne_zero 2).1
  norm_num at this ⊢
  exact this

theorem round3_of (k : ℤ) {x : ℝ} (h : x = k / 1000) : round3 x = x := by rw [h]; exact round3_fixed k

theorem round5_of (k : ℤ) {x : ℝ} (h : x = k / 10 ^ 5) : round5 x = x := by
  rw [h]
  unfold round5
  rw [show (k : ℝ) / 10 ^ 5 * 10 ^ 5 = (k : ℝ) by ring, rint_int]

/-- from four to six degrees with a step of one: 57, 71 and 85 -/
theorem example_sum : ∃ r, simulate exC 4 6 1 false = some r ∧ r.meas = [⟨4, .sum 57⟩, ⟨5, .sum 71⟩, ⟨6, .sum 85⟩] := by
  have hn : nStep (4 : ℝ) 6 1 = (3 : ℕ) := by simpa using ex_n
  have hg : grid (4 : ℝ) 6 3 = [4, 5, 6] := by
    simp only [grid, List.range_succ, List.range_zero, List.nil_append, List.cons_append, List.map_cons, List.map_nil]
    rw [round3_of 4000 (by norm_num), round3_of 5000 (by norm_num), round3_of 6000 (by norm_num)]
    norm_num
  obtain ⟨r, hr, hm⟩ := pattern_rounded exC one_ne_zero false hn (by norm_num) (by norm_num) (by norm_num)
    (round3_of 4000 (by norm_num)).ge (round3_of 6000 (by norm_num)).le (fun h => by omega)
  refine ⟨r, hr, ?_⟩
  have key : ∀ (t : ℝ) (k : ℤ), t = k → written exC false [4, 5, 6] t = .sum (14 * t + 1) := by
    intro t k hk
    unfold written exC
    dsimp only
    have a1 : round5 (10 * t) = 10 * t := round5_of (10 * k * 10 ^ 5) (by rw [hk]; push_cast; ring)
    have a2 : round5 (4 * t) = 4 * t := round5_of (4 * k * 10 ^ 5) (by rw [hk]; push_cast; ring)
    have a3 : round5 1 = 1 := round5_of (1 * 10 ^ 5) (by norm_num)
    have a4 : round3 (10 * t + 4 * t + 1) = 10 * t + 4 * t + 1 := round3_of ((14 * k + 1) * 1000) (by rw [hk]; push_cast; ring)
    rw [a1, a2, a3, a4]
    simp only [Bool.false_eq_true, if_false, Vals.sum.injEq]
    ring
  rw [hm, hg]
  simp only [List.map_cons, List.map_nil]
  rw [key 4 4 (by norm_num), key 5 5 (by norm_num), key 6 6 (by norm_num)]
  norm_num

/-- a start of 4.0004 degrees meets the hypotheses of `start_rounded_down`: the point of 4 degrees gets the intensity calculated for 5 degrees -/
theorem example_shift : ∃ r, simulate exC (40004 / 10000) 6 1 false = some r ∧ (r.meas[0]?).map Item.x = some 4 ∧
    ∃ v, (r.meas[0]?).map Item.vals = some (.sum v) ∧ |v - (exC.plus [] 5 + exC.minus [] 5 + exC.bkg [] 5)| < 1 / 10 := by
  have rs : round3 (40004 / 10000) = 4 := by
    unfold round3
    have : rint ((40004 : ℝ) / 10000 * 10 ^ 3) = 4000 := by
      have hf : ⌊(40004 : ℝ) / 10000 * 10 ^ 3⌋ = 4000 := by rw [Int.floor_eq_iff]; norm_num
      unfold rint
      rw [hf]
      norm_num
    rw [this]
    norm_num
  have hn : nStep (40004 / 10000 : ℝ) 6 1 = (3 : ℕ) := by
    unfold nStep
    have hf : ⌊((6 : ℝ) - 40004 / 10000) / 1 + 1⌋ = 2 := by rw [Int.floor_eq_iff]; norm_num
    unfold rint
    rw [hf]
    norm_num
  have hst : step (40004 / 10000) 6 3 = 9998 / 10000 := by unfold step; norm_num
  obtain ⟨r, hr, hx, hv, _⟩ := start_rounded_down exC one_ne_zero false (by norm_num) hn (by norm_num) (by norm_num) (by rw [rs]; norm_num)
    (round3_of 6000 (by norm_num)).le (by rw [hst]; norm_num)
  refine ⟨r, hr, ?_, ?_⟩
  · rw [← List.getElem?_map, hx, grid_get _ _ (by norm_num)]
    simp [rs]
  · have h1 := hv 0 _ (grid_get (40004 / 10000) 6 (show 0 + 1 < 3 by norm_num))
    refine ⟨_, h1, ?_⟩
    set t := round3 (40004 / 10000 + ((0 + 1 : ℕ) : ℝ) * step (40004 / 10000) 6 3) with ht
    have k := abs_le.1 (round3_near (40004 / 10000 + ((0 + 1 : ℕ) : ℝ) * step (40004 / 10000) 6 3))
    rw [← ht, hst] at k
    have k0 := abs_le.1 (round3_near (round5 (10 * t) + round5 (4 * t) + round5 1))
    have k1 := abs_le.1 (round5_near (10 * t))
    have k2 := abs_le.1 (round5_near (4 * t))
    have k3 := abs_le.1 (round5_near 1)
    simp only [exC]
    norm_num at k
    rw [abs_lt]
    constructor <;> linarith [k.1, k.2, k0.1, k0.2, k1.1, k1.2, k2.1, k2.2, k3.1, k3.2]

/-- polarized neutrons with different intensities up and down: `want` and `written` are different -/
theorem example_down : want exC true [4] 4 ≠ written exC true [4] 4 := by
  unfold want written exC
  simp only [if_true, ne_eq, Vals.pol.injEq, true_and]
  have a1 : round5 (10 * 4) = 10 * 4 := round5_of (40 * 10 ^ 5) (by norm_num)
  have a2 : round5 (4 * 4) = 4 * 4 := round5_of (16 * 10 ^ 5) (by norm_num)
  have a3 : round5 1 = 1 := round5_of (1 * 10 ^ 5) (by norm_num)
  have a4 : round3 (4 * 4 + 1 / 2 * 1) = 4 * 4 + 1 / 2 * 1 := round3_of 16500 (by norm_num)
  have a5 : round3 (10 * 4 + 1 / 2 * 1) = 10 * 4 + 1 / 2 * 1 := round3_of 40500 (by norm_num)
  rw [a1, a2, a3, a4, a5]
  norm_num

end Cryspy.Sim
