import Verif.Roots.Lemmas
import Mathlib.Topology.Order.IntermediateValue
import Mathlib.Topology.Algebra.Ring.Real
import Mathlib.Algebra.Order.Archimedean.Real.Basic
import Mathlib.Tactic.NormNum.Ineq

/-!
# C43: root finding

Words of the statements: `node a b dx k` is the `k`-th point of the grid, `a + k dx` cut at `b`;
`steps a b dx` is the number of intervals of the grid.
-/

namespace Cryspy.Roots

variable {K : Type} [Field K] [LinearOrder K] [IsStrictOrderedRing K] [FloorRing K]

/-- The grid of the search: `a`, `a + dx`, `a + 2 dx`, ..., cut at `b`. -/
def node (a b dx : K) (k : ℕ) : K := min (a + k * dx) b

/-- The number of intervals between `a` and `b`. -/
def steps (a b dx : K) : ℕ := ⌈(b - a) / dx⌉₊

/-- The sign of `f` is not the same and non-zero at both ends. -/
def Changes (f : K → K) (u v : K) : Prop := f u * f v ≤ 0

/-- **C43** `rootsearch` on `[a, b]`, `a < b`, with a positive step ends; its answer is the first
interval of the grid at whose ends `f` does not have one strict sign, or none if there is no such
interval. -/
theorem rootsearch_first (f : K → K) (a b dx : K) (hab : a < b) (hdx : 0 < dx) (fuel : ℕ)
    (hf : steps a b dx < fuel) :
    (rootsearch f a b dx fuel = some none ∧ ∀ k < steps a b dx, ¬ Changes f (node a b dx k) (node a b dx (k + 1))) ∨
    ∃ k < steps a b dx, rootsearch f a b dx fuel = some (some (node a b dx k, node a b dx (k + 1))) ∧
      Changes f (node a b dx k) (node a b dx (k + 1)) ∧
      ∀ j < k, ¬ Changes f (node a b dx j) (node a b dx (j + 1)) := by
  have h0 : nodeL a b dx 0 = a := by simp [nodeL, hab.le]
  have hpos : 0 < steps a b dx := Nat.ceil_pos.2 (div_pos (sub_pos.2 hab) hdx)
  have hs := search_eq f (Or.inr hpos) hdx (nodeL a b dx 0) (left_node hdx _ 0 (by simp [steps])) fuel hf
  rw [cells_node hdx, h0] at hs
  rw [← List.range_eq_range'] at hs
  unfold rootsearch
  rw [hs]
  cases hfd : List.find? (fun c => !decide (0 < f c.1 * f c.2))
      (List.map (fun j => (nodeL a b dx j, nodeL a b dx (j + 1))) (List.range (steps a b dx))) with
  | none =>
    left
    refine ⟨rfl, fun k hk hc => ?_⟩
    rw [List.find?_eq_none] at hfd
    have := hfd (nodeL a b dx k, nodeL a b dx (k + 1)) (List.mem_map.2 ⟨k, List.mem_range.2 hk, rfl⟩)
    simp only [Bool.not_eq_true', decide_eq_false_iff_not, not_not] at this
    exact absurd this (not_lt.2 hc)
  | some c =>
    right
    rw [List.find?_eq_some_iff_getElem] at hfd
    obtain ⟨hc, i, hi, hic, hlt⟩ := hfd
    have hi' : i < steps a b dx := by simpa using hi
    simp only [List.getElem_map, List.getElem_range] at hic hlt
    subst hic
    refine ⟨i, hi', rfl, ?_, ?_⟩
    · simp only [Bool.not_eq_true', decide_eq_false_iff_not, not_lt] at hc
      exact hc
    · intro j hj hcj
      have := hlt j hj
      simp only [Bool.not_not, decide_eq_true_eq] at this
      exact absurd this (not_lt.2 hcj)

/-- The answers of the bisection that the search keeps, one interval of the grid after the other. -/
def rootsOnGrid (f : K → K) (a b dx : K) : List K :=
  (List.range (steps a b dx)).filterMap fun k =>
    if 0 < f (node a b dx k) * f (node a b dx (k + 1)) then none
    else bisect f (node a b dx k) (node a b dx (k + 1)) true (1 / 10 ^ 12)

/-- **C43** `calc_roots` looks at every interval of the grid, once, in order: if `f b ≠ 0`, it ends
and returns what the bisection returns on the intervals where `f` does not keep one strict sign. -/
theorem calc_roots_all_intervals (f : K → K) (a b eps : K) (hab : a ≤ b) (he : 0 < eps) (hb : f b ≠ 0)
    (fuel : ℕ) (hf : steps a b eps < fuel) : calcRoots f a b eps fuel = some (rootsOnGrid f a b eps) := by
  have h0 : nodeL a b eps 0 = a := by simp [nodeL, hab]
  have hl := left_node (a := a) (b := b) he (steps a b eps) 0 (by simp [steps])
  have hs := search_eq f (Or.inl hb) he _ hl fuel hf
  have hr := roots_eq f hb he fuel _ _ hl hf fuel hf []
  rw [h0] at hs hr
  simp only [calcRoots, if_neg he.ne', rootsearch, hs]
  rw [hr]
  have hc := cells_node (a := a) (b := b) he (steps a b eps) 0
  rw [h0] at hc
  rw [hc, ← List.range_eq_range', List.filterMap_map]
  rfl

/-- The default step: one hundredth of the interval, so one hundred intervals. -/
theorem calc_roots_default_step (f : K → K) (a b : K) (hab : a < b) (hb : f b ≠ 0) (fuel : ℕ) (hf : 100 < fuel) :
    calcRoots f a b 0 fuel = some (rootsOnGrid f a b ((b - a) / 100)) ∧ steps a b ((b - a) / 100) = 100 := by
  have hd : 0 < (b - a) / 100 := by have := sub_pos.2 hab; positivity
  have hs : steps a b ((b - a) / 100) = 100 := by
    have : b - a ≠ 0 := (sub_pos.2 hab).ne'
    unfold steps
    rw [show (b - a) / ((b - a) / 100) = ((100 : ℕ) : K) by field_simp; norm_num, Nat.ceil_natCast]
  refine ⟨?_, hs⟩
  rw [← calc_roots_all_intervals f a b _ hab.le hd hb fuel (by rw [hs]; exact hf)]
  simp only [calcRoots, if_true, if_neg hd.ne', abs_of_pos (sub_pos.2 hab), mul_one]

/-- **C43, failure** If the right end of the interval is a root, `calc_roots` never returns. -/
theorem calc_roots_never_returns (f : K → K) (a b eps : K) (hab : a ≤ b) (hb : f b = 0) (fuel : ℕ) :
    calcRoots f a b eps fuel = none := by
  simp only [calcRoots, rootsearch]
  generalize (if eps = 0 then |b - a| * 1 / 100 else eps) = dx
  rcases search_ne_none f (dx := dx) hb fuel a (nextPoint b dx a) hab (nextPoint_le b dx a) with h | ⟨u, v, h, hv⟩
  · rw [h]
  · rw [h]; exact roots_forever f hb fuel fuel u v [] hv

/-- **C43** What `bisect` returns is a root, or the middle of an interval inside the given one, not
longer than the tolerance, at whose ends `f` has opposite signs. -/
theorem bisect_bracket (f : K → K) (x1 x2 eps r : K) (sw : Bool) (hx : x1 < x2) (he : 0 < eps)
    (h : bisect f x1 x2 sw eps = some r) :
    (f r = 0 ∧ x1 ≤ r ∧ r ≤ x2) ∨
      ∃ u v, x1 ≤ u ∧ u < v ∧ v ≤ x2 ∧ v - u ≤ eps ∧ r = (u + v) / 2 ∧ f u * f v < 0 := by
  unfold bisect at h
  split at h
  · simp only [Option.some.injEq] at h; subst h; exact Or.inl ⟨by assumption, le_rfl, hx.le⟩
  split at h
  · simp only [Option.some.injEq] at h; subst h; exact Or.inl ⟨by assumption, hx.le, le_rfl⟩
  split at h
  · simp at h
  rename_i h1 h2 h3
  have hneg : f x1 * f x2 < 0 := lt_of_le_of_ne (not_lt.1 h3) (mul_ne_zero h1 h2)
  rcases bisectLoop_spec f sw _ _ _ _ hx hneg h with h | ⟨u, v, a, b, c, d, e, g⟩
  · exact Or.inl h
  · refine Or.inr ⟨u, v, a, b, c, ?_, e, g⟩
    have hh := halvings_spec (x1 := x1) (x2 := x2) he
    rw [abs_of_pos (sub_pos.2 hx), ← d] at hh
    exact le_of_mul_le_mul_left hh (by positivity)

omit [IsStrictOrderedRing K] in
/-- **C43** Without the switch, `bisect` gives up only on an interval at whose ends `f` has the same
strict sign. -/
theorem bisect_none_iff (f : K → K) (x1 x2 eps : K) : bisect f x1 x2 false eps = none ↔ 0 < f x1 * f x2 := by
  unfold bisect
  constructor
  · intro h
    split at h
    · simp at h
    split at h
    · simp at h
    split at h
    · assumption
    · obtain ⟨r, hr⟩ := bisectLoop_noswitch f (halvings x1 x2 eps) x1 x2
      rw [hr] at h; simp at h
  · intro h
    rw [if_neg, if_neg, if_pos h] <;> · intro h0; simp [h0] at h

/-- **C43** The same with the switch, for a function that is monotone on the interval. -/
theorem bisect_monotone (f : K → K) (x1 x2 eps : K) (sw : Bool) (hx : x1 ≤ x2)
    (hm : MonotoneOn f (Set.Icc x1 x2) ∨ AntitoneOn f (Set.Icc x1 x2)) :
    bisect f x1 x2 sw eps = none ↔ 0 < f x1 * f x2 := by
  have hm' : (∀ u v, x1 ≤ u → u ≤ v → v ≤ x2 → f u ≤ f v) ∨ (∀ u v, x1 ≤ u → u ≤ v → v ≤ x2 → f v ≤ f u) := by
    refine hm.imp ?_ ?_ <;> exact fun h u v a b c => h ⟨a, b.trans c⟩ ⟨a.trans b, c⟩ b
  unfold bisect
  constructor
  · intro h
    split at h
    · simp at h
    split at h
    · simp at h
    split at h
    · assumption
    · obtain ⟨r, hr⟩ := bisectLoop_mono f sw (halvings x1 x2 eps) x1 x2 hx hm'
      rw [hr] at h; simp at h
  · intro h
    rw [if_neg, if_neg, if_pos h] <;> · intro h0; simp [h0] at h

/-- **C43** A continuous function has a root within half the tolerance of every number that `bisect`
returns. -/
theorem bisect_near_root (f : ℝ → ℝ) (x1 x2 eps r : ℝ) (sw : Bool) (hx : x1 < x2) (he : 0 < eps)
    (hc : ContinuousOn f (Set.Icc x1 x2)) (h : bisect f x1 x2 sw eps = some r) :
    ∃ z, x1 ≤ z ∧ z ≤ x2 ∧ f z = 0 ∧ |r - z| ≤ eps / 2 := by
  rcases bisect_bracket f x1 x2 eps r sw hx he h with ⟨h0, h1, h2⟩ | ⟨u, v, h1, h2, h3, h4, h5, h6⟩
  · exact ⟨r, h1, h2, h0, by simp; linarith⟩
  · have hc' : ContinuousOn f (Set.Icc u v) := hc.mono (Set.Icc_subset_Icc h1 h3)
    have : (0 : ℝ) ∈ f '' Set.Icc u v := by
      rcases mul_neg_iff.1 h6 with ⟨a, b⟩ | ⟨a, b⟩
      · exact intermediate_value_Icc' h2.le hc' ⟨b.le, a.le⟩
      · exact intermediate_value_Icc h2.le hc' ⟨a.le, b.le⟩
    obtain ⟨z, ⟨hz1, hz2⟩, hz⟩ := this
    refine ⟨z, by linarith, by linarith, hz, ?_⟩
    rw [h5, abs_le]
    constructor <;> linarith

/-- **C43** Every number in the result of `calc_roots` is within 5e-13 of a root, if `f` is continuous. -/
theorem calc_roots_near_roots (f : ℝ → ℝ) (a b eps : ℝ) (hab : a ≤ b) (he : 0 < eps) (hc : ContinuousOn f (Set.Icc a b))
    (fuel : ℕ) (res : List ℝ) (h : calcRoots f a b eps fuel = some res) (hf : steps a b eps < fuel) :
    ∀ r ∈ res, ∃ z, a ≤ z ∧ z ≤ b ∧ f z = 0 ∧ |r - z| ≤ 5 / 10 ^ 13 := by
  have hb : f b ≠ 0 := by
    intro hb
    rw [calc_roots_never_returns f a b eps hab hb] at h; simp at h
  rw [calc_roots_all_intervals f a b eps hab he hb fuel hf, Option.some.injEq] at h
  subst h
  intro r hr
  simp only [rootsOnGrid, List.mem_filterMap, List.mem_range] at hr
  obtain ⟨k, hk, hr⟩ := hr
  split at hr
  · simp at hr
  obtain ⟨h1, h2⟩ := node_lt (a := a) (b := b) he hk
  have h1' : node a b eps k = a + k * eps := h1
  have hka : a ≤ node a b eps k := by rw [h1']; have := mul_nonneg (Nat.cast_nonneg (α := ℝ) k) he.le; linarith
  have hkb : node a b eps (k + 1) ≤ b := min_le_right _ _
  have hlt : node a b eps k < node a b eps (k + 1) := by
    rw [h1']; unfold node; push_cast
    exact lt_min (by linarith) h2
  obtain ⟨z, hz1, hz2, hz3, hz4⟩ := bisect_near_root f _ _ _ r true hlt (by norm_num)
    (hc.mono (Set.Icc_subset_Icc hka hkb)) hr
  exact ⟨z, by linarith, by linarith, hz3, by norm_num at hz4 ⊢; linarith⟩

/-- **C43** A root of a monotone continuous function strictly between two points of the grid is
found: the result has a number within 5e-13 of it. -/
theorem calc_roots_finds (f : ℝ → ℝ) (a b eps : ℝ) (hab : a ≤ b) (he : 0 < eps) (hb : f b ≠ 0)
    (hc : ContinuousOn f (Set.Icc a b)) (k : ℕ) (hk : k < steps a b eps)
    (hm : StrictMonoOn f (Set.Icc (node a b eps k) (node a b eps (k + 1))) ∨
      StrictAntiOn f (Set.Icc (node a b eps k) (node a b eps (k + 1))))
    (z : ℝ) (hz : f z = 0) (hz1 : node a b eps k < z) (hz2 : z < node a b eps (k + 1)) (fuel : ℕ) (hf : steps a b eps < fuel) :
    ∃ res, calcRoots f a b eps fuel = some res ∧ ∃ r ∈ res, |r - z| ≤ 5 / 10 ^ 13 := by
  refine ⟨_, calc_roots_all_intervals f a b eps hab he hb fuel hf, ?_⟩
  have hlt := hz1.trans hz2
  have hka : a ≤ node a b eps k := by
    have := mul_nonneg (Nat.cast_nonneg (α := ℝ) k) he.le
    exact le_min (by linarith) hab
  have hkb : node a b eps (k + 1) ≤ b := min_le_right _ _
  have hneg : f (node a b eps k) * f (node a b eps (k + 1)) < 0 := by
    rcases hm with hm | hm
    · have h1 := hm ⟨le_rfl, hlt.le⟩ ⟨hz1.le, hz2.le⟩ hz1
      have h2 := hm ⟨hz1.le, hz2.le⟩ ⟨hlt.le, le_rfl⟩ hz2
      rw [hz] at h1 h2
      exact mul_neg_of_neg_of_pos h1 h2
    · have h1 := hm ⟨le_rfl, hlt.le⟩ ⟨hz1.le, hz2.le⟩ hz1
      have h2 := hm ⟨hz1.le, hz2.le⟩ ⟨hlt.le, le_rfl⟩ hz2
      rw [hz] at h1 h2
      exact mul_neg_of_pos_of_neg h1 h2
  have hnn : bisect f (node a b eps k) (node a b eps (k + 1)) true (1 / 10 ^ 12) ≠ none := by
    rw [Ne, bisect_monotone f _ _ _ true hlt.le (hm.imp (·.monotoneOn) (·.antitoneOn))]
    exact not_lt.2 hneg.le
  obtain ⟨r, hr⟩ := Option.ne_none_iff_exists'.1 hnn
  refine ⟨r, ?_, ?_⟩
  · simp only [rootsOnGrid, List.mem_filterMap, List.mem_range]
    exact ⟨k, hk, by rw [if_neg (not_lt.2 hneg.le), hr]⟩
  · obtain ⟨z', h1, h2, h3, h4⟩ := bisect_near_root f _ _ _ r true hlt (by norm_num)
      (hc.mono (Set.Icc_subset_Icc hka hkb)) hr
    have : z' = z := by
      rcases hm with hm | hm
      · exact hm.injOn ⟨h1, h2⟩ ⟨hz1.le, hz2.le⟩ (h3.trans hz.symm)
      · exact hm.injOn ⟨h1, h2⟩ ⟨hz1.le, hz2.le⟩ (h3.trans hz.symm)
    rw [← this]
    norm_num at h4 ⊢; linarith

/-- **C43, failure** A root that is a point of the grid (not an end) is reported twice. -/
theorem calc_roots_twice (f : K → K) (a b eps : K) (hab : a ≤ b) (he : 0 < eps) (hb : f b ≠ 0) (k : ℕ)
    (hk : k + 1 < steps a b eps) (h0 : f (node a b eps (k + 1)) = 0) (hk0 : f (node a b eps k) ≠ 0)
    (fuel : ℕ) (hf : steps a b eps < fuel) :
    ∃ res, calcRoots f a b eps fuel = some res ∧ 2 ≤ res.count (node a b eps (k + 1)) := by
  refine ⟨_, calc_roots_all_intervals f a b eps hab he hb fuel hf, ?_⟩
  have hsub : List.Sublist [k, k + 1] (List.range (steps a b eps)) := by
    have : List.range (steps a b eps) = List.range k ++ ([k, k + 1] ++ List.range' (k + 2) (steps a b eps - (k + 2))) := by
      have e1 : [k, k + 1] = List.range' k 2 := by simp [List.range'_succ]
      rw [e1, List.range_eq_range', List.range_eq_range']
      rw [List.range'_append_1, show 2 + (steps a b eps - (k + 2)) = steps a b eps - k by omega]
      have := List.range'_append_1 (s := 0) (m := k) (n := steps a b eps - k)
      rw [Nat.zero_add] at this
      rw [this, show k + (steps a b eps - k) = steps a b eps by omega]
    rw [this]
    exact ((List.sublist_append_left _ _).trans (List.sublist_append_right _ _))
  have h2 := (hsub.filterMap fun k =>
    if 0 < f (node a b eps k) * f (node a b eps (k + 1)) then none
    else bisect f (node a b eps k) (node a b eps (k + 1)) true (1 / 10 ^ 12)).count_le (node a b eps (k + 1))
  refine le_trans (le_of_eq ?_) h2
  simp [bisect, h0, hk0]

/-- Values of the example: a parabola that is -1 at 0, -5 at 1/2 and 1 at 1. -/
def hump (x : ℚ) : ℚ := 20 * x ^ 2 - 18 * x - 1

theorem hump_none : bisect hump 0 1 true (1 / 10 ^ 12) = none := by
  have hh := halvings_spec (x1 := (0 : ℚ)) (x2 := 1) (eps := 1 / 10 ^ 12) (by norm_num)
  cases hn : halvings (0 : ℚ) 1 (1 / 10 ^ 12) with
  | zero => rw [hn] at hh; norm_num at hh
  | succ n =>
    unfold bisect
    rw [hn, if_neg (by norm_num [hump]), if_neg (by norm_num [hump]), if_neg (by norm_num [hump]), bisectLoop, if_pos]
    refine ⟨rfl, ?_, ?_⟩ <;> norm_num [hump]

/-- **C43, failure** A change of sign on one interval of the grid does not ensure that a root is
reported: the switch drops the interval if the middle value exceeds both ends in size. -/
theorem calc_roots_drops : Changes hump 0 1 ∧ (∀ fuel, 1 < fuel → calcRoots hump 0 1 1 fuel = some []) := by
  refine ⟨by norm_num [Changes, hump], fun fuel hf => ?_⟩
  have hs : steps (0 : ℚ) 1 1 = 1 := by unfold steps; norm_num
  rw [calc_roots_all_intervals hump 0 1 1 (by norm_num) (by norm_num) (by norm_num [hump]) fuel (by rw [hs]; exact hf)]
  have h0 : node (0 : ℚ) 1 1 0 = 0 := by unfold node; norm_num
  have h1 : node (0 : ℚ) 1 1 (0 + 1) = 1 := by unfold node; norm_num
  simp only [rootsOnGrid, hs, List.range_one, List.filterMap_cons, List.filterMap_nil, h0, h1, hump_none]
  simp

/-! ## Examples -/

/-- The hypotheses of the theorems are met by `x ↦ x - 1/3` on `[0, 1]` with the default step. -/
example : (0 : ℚ) < 1 ∧ (fun x : ℚ => x - 1/3) 1 ≠ 0 := by norm_num

/-- The hypotheses of `calc_roots_finds`: the root 1/3 lies between the points 0.3 and 0.4. -/
example : ∃ res, calcRoots (fun x : ℝ => x - 1/3) 0 1 (1/10) 11 = some res ∧ ∃ r ∈ res, |r - 1/3| ≤ 5 / 10 ^ 13 := by
  have hs : steps (0 : ℝ) 1 (1/10) = 10 := by
    unfold steps
    rw [show ((1 : ℝ) - 0) / (1 / 10) = ((10 : ℕ) : ℝ) by norm_num, Nat.ceil_natCast]
  have h3 : node (0 : ℝ) 1 (1/10) 3 = 3/10 := by unfold node; norm_num
  have h4 : node (0 : ℝ) 1 (1/10) 4 = 4/10 := by unfold node; norm_num
  refine calc_roots_finds _ 0 1 (1/10) (by norm_num) (by norm_num) (by norm_num) (by fun_prop) 3 (by rw [hs]; norm_num)
    (Or.inl ?_) (1/3) (by norm_num) (by rw [h3]; norm_num) (by rw [h4]; norm_num) 11 (by rw [hs]; norm_num)
  intro x _ y _ h
  simpa using h

/-- A root at the point 1/2 of the grid is reported twice. -/
example : ∃ res, calcRoots (fun x : ℚ => x - 1/2) 0 1 (1/4) 5 = some res ∧ 2 ≤ res.count (node (0 : ℚ) 1 (1/4) 2) := by
  have hs : steps (0 : ℚ) 1 (1/4) = 4 := by unfold steps; norm_num
  exact calc_roots_twice _ 0 1 (1/4) (by norm_num) (by norm_num) (by norm_num) 1 (by rw [hs]; norm_num)
    (by unfold node; norm_num) (by unfold node; norm_num) 5 (by rw [hs]; norm_num)

end Cryspy.Roots
