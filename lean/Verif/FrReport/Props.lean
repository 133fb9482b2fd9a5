import Verif.FrReport.Model
import Mathlib.Tactic.Linarith
import Mathlib.Tactic.FieldSimp
import Mathlib.Tactic.NormNum
import Mathlib.Tactic.Ring
import Mathlib.Tactic.Positivity
import Mathlib.Algebra.Order.BigOperators.Group.List

/-!
# The reports on measured flipping ratios

The specification is written with counts and sums over the list of reflections.
-/

namespace Cryspy.FrReport

open Classical

/-! ## Specification -/

/-- The number of reflections with a property. -/
noncomputable def number (P : Row → Prop) (rows : List Row) : ℕ := (rows.filter fun r => P r).length

/-- The sum of a quantity over the reflections with a property. -/
noncomputable def total (P : Row → Prop) (f : Row → ℝ) (rows : List Row) : ℝ :=
  ((rows.filter fun r => P r).map f).sum

/-- The reflection takes part in the refinement. -/
def Used (r : Row) : Prop := r.excluded = false

/-- Squared deviation from the model in units of the error. -/
noncomputable def sq (r : Row) : ℝ := ((r.fr - r.model) / r.sigma) ^ 2

/-- The indices of the two reflections are opposite. -/
def Opposite (r s : Row) : Prop := s.h = -r.h ∧ s.k = -r.k ∧ s.l = -r.l

theorem sq_nonneg' (r : Row) : 0 ≤ sq r := sq_nonneg _

theorem dev_sq (r : Row) : dev r ^ 2 = sq r := by simp [dev, sq]

theorem number_cons (P : Row → Prop) (r : Row) (rows : List Row) :
    number P (r :: rows) = (if P r then 1 else 0) + number P rows := by
  unfold number
  by_cases h : P r
  · simp [h]; omega
  · simp [h]

theorem total_cons (P : Row → Prop) (f : Row → ℝ) (r : Row) (rows : List Row) :
    total P f (r :: rows) = (if P r then f r else 0) + total P f rows := by
  unfold total
  by_cases h : P r <;> simp [h]

/-! ## The sum over the reflections of a refinement -/

/-- The sum and the number are over the reflections that are not excluded. -/
theorem chi_points_spec (rows : List Row) :
    chiPoints rows = (total Used sq rows, number Used rows) := by
  have h0 : (rows.filter fun r => !r.excluded) = rows.filter fun r => decide (Used r) := by
    apply List.filter_congr
    intro r _
    unfold Used
    cases r.excluded <;> simp
  unfold chiPoints
  split_ifs with h
  · have : (rows.filter fun r => decide (Used r)) = [] := by
      rw [List.filter_eq_nil_iff]
      intro r hr
      have := List.all_eq_true.1 h r hr
      simp [Used, this]
    simp [total, number, this]
  · dsimp only
    rw [h0]
    rfl

/-- What stands in the excluded reflections has no effect. -/
theorem chi_points_excluded_irrelevant {rows rows' : List Row}
    (h : List.Forall₂ (fun r s => r.excluded = s.excluded ∧ (r.excluded = false → r = s))
      rows rows') : chiPoints rows = chiPoints rows' := by
  rw [chi_points_spec, chi_points_spec]
  induction h with
  | nil => rfl
  | cons h _ ih =>
    rename_i r s l l' _
    rw [Prod.mk.injEq] at ih
    rw [total_cons, total_cons, number_cons, number_cons, ih.1, ih.2]
    obtain ⟨h1, h2⟩ := h
    cases hr : r.excluded
    · rw [h2 hr]
    · have u1 : ¬ Used r := by simp [Used, hr]
      have u2 : ¬ Used s := by simp [Used, ← h1, hr]
      simp [u1, u2]

/-- Nor has the order of the list. -/
theorem chi_points_perm {rows rows' : List Row} (h : rows.Perm rows') :
    chiPoints rows = chiPoints rows' := by
  rw [chi_points_spec, chi_points_spec]
  unfold total number
  rw [((h.filter _).map _).sum_eq, (h.filter _).length_eq]

/-- The sum vanishes exactly when the model gives every used flipping ratio. -/
theorem chi_zero_iff {rows : List Row} (hs : ∀ r ∈ rows, r.sigma ≠ 0) :
    (chiPoints rows).1 = 0 ↔ ∀ r ∈ rows, Used r → r.model = r.fr := by
  rw [chi_points_spec]
  simp only
  induction rows with
  | nil => simp [total]
  | cons r rows ih =>
    have ih := ih fun s h => hs s (List.mem_cons_of_mem _ h)
    have hr := hs r List.mem_cons_self
    have hp : 0 ≤ total Used sq rows := by
      unfold total
      apply List.sum_nonneg
      intro x hx
      obtain ⟨s, _, rfl⟩ := List.mem_map.1 hx
      exact sq_nonneg' s
    rw [total_cons, List.forall_mem_cons, ← ih]
    by_cases hu : Used r
    · simp only [hu, if_true, true_implies]
      have h0 : sq r = 0 ↔ r.model = r.fr := by
        unfold sq
        rw [sq_eq_zero_iff, div_eq_zero_iff, sub_eq_zero]
        exact ⟨fun h => (h.resolve_right hr).symm, fun h => Or.inl h.symm⟩
      rw [← h0]
      constructor
      · intro h
        have := sq_nonneg' r
        constructor <;> linarith
      · rintro ⟨h1, h2⟩
        rw [h1, h2, add_zero]
    · simp [hu]

/-! ## Exclusion -/

/-- A flipping ratio inside the limits of `exclude_by_fr_max`. -/
def Inside (m fr : ℝ) : Prop := min m (1 / m) ≤ fr ∧ fr ≤ max m (1 / m)

theorem limits {m : ℝ} (hm : 0 < m) :
    (if 1 ≤ m then 1 / m else m) = min m (1 / m) ∧ (if 1 ≤ m then m else 1 / m) = max m (1 / m) := by
  split_ifs with h
  · have : 1 / m ≤ m := by
      rw [div_le_iff₀ hm]
      nlinarith
    exact ⟨(min_eq_right this).symm, (max_eq_left this).symm⟩
  · have : m ≤ 1 / m := by
      rw [le_div_iff₀ hm]
      nlinarith
    exact ⟨(min_eq_left this).symm, (max_eq_right this).symm⟩

/-- Exactly the reflections outside the limits are marked; a mark set before stays, and
nothing else changes. -/
theorem exclude_spec {m : ℝ} (hm : 0 < m) (rows : List Row) :
    List.Forall₂ (fun r s => (s.excluded = true ↔ r.excluded = true ∨ ¬ Inside m r.fr) ∧
      s = { r with excluded := s.excluded }) rows (excludeByMax m rows) := by
  unfold excludeByMax
  dsimp only
  rw [(limits hm).1, (limits hm).2]
  rw [List.forall₂_map_right_iff]
  apply List.forall₂_same.2
  intro r _
  by_cases h : r.fr < min m (1 / m) ∨ max m (1 / m) < r.fr
  · rw [if_pos h]
    have : ¬ Inside m r.fr := by
      rintro ⟨h1, h2⟩
      rcases h with h | h <;> linarith
    simp [this]
  · rw [if_neg h]
    push Not at h
    have : Inside m r.fr := h
    simp [this]

/-- A limit and its reciprocal are the same limit. -/
theorem exclude_reciprocal {m : ℝ} (hm : 0 < m) (rows : List Row) :
    excludeByMax (1 / m) rows = excludeByMax m rows := by
  unfold excludeByMax
  dsimp only
  have hm' : 0 < 1 / m := by positivity
  rw [(limits hm).1, (limits hm).2, (limits hm').1, (limits hm').2, one_div_one_div,
    min_comm, max_comm]

/-- The limits treat a flipping ratio and its reciprocal alike. -/
theorem inside_reciprocal {m fr : ℝ} (hm : 0 < m) (hf : 0 < fr) :
    Inside m (1 / fr) ↔ Inside m fr := by
  have key : ∀ {x : ℝ}, 0 < x → Inside m x → Inside m (1 / x) := by
    rintro x hx ⟨h1, h2⟩
    have hm' : 0 < 1 / m := by positivity
    constructor
    · rcases le_total m (1 / m) with h | h
      · rw [min_eq_left h]
        rw [max_eq_right h] at h2
        rw [le_div_iff₀ hx]
        calc m * x ≤ m * (1 / m) := by apply mul_le_mul_of_nonneg_left h2 hm.le
          _ = 1 := by field_simp
      · rw [min_eq_right h]
        rw [max_eq_left h] at h2
        exact one_div_le_one_div_of_le hx h2
    · rcases le_total m (1 / m) with h | h
      · rw [max_eq_right h]
        rw [min_eq_left h] at h1
        exact one_div_le_one_div_of_le hm h1
      · rw [max_eq_left h]
        rw [min_eq_right h] at h1
        rw [div_le_iff₀ hx]
        calc (1 : ℝ) = m * (1 / m) := by field_simp
          _ ≤ m * x := by apply mul_le_mul_of_nonneg_left h1 hm.le
  constructor
  · intro h
    have := key (by positivity) h
    rwa [one_div_one_div] at this
  · exact key hf

/-- After inclusion of all points every reflection is used, and nothing else changed;
what was excluded before leaves no trace. -/
theorem include_spec (rows : List Row) :
    List.Forall₂ (fun r s => Used s ∧ s = { r with excluded := false }) rows (includeAll rows) := by
  unfold includeAll
  rw [List.forall₂_map_right_iff]
  apply List.forall₂_same.2
  intro r _
  exact ⟨rfl, rfl⟩

theorem include_exclude (m : ℝ) (rows : List Row) :
    includeAll (excludeByMax m rows) = includeAll rows := by
  unfold includeAll excludeByMax
  rw [List.map_map]
  apply List.map_congr_left
  intro r _
  simp only [Function.comp]
  split_ifs <;> rfl

/-- Two exclusions: the order does not matter. -/
theorem exclude_comm (m m' : ℝ) (rows : List Row) :
    excludeByMax m (excludeByMax m' rows) = excludeByMax m' (excludeByMax m rows) := by
  unfold excludeByMax
  simp only [List.map_map]
  apply List.map_congr_left
  intro r _
  simp only [Function.comp]
  generalize (if 1 ≤ m then 1 / m else m) = a
  generalize (if 1 ≤ m then m else 1 / m) = b
  generalize (if 1 ≤ m' then 1 / m' else m') = a'
  generalize (if 1 ≤ m' then m' else 1 / m') = b'
  by_cases h : r.fr < a ∨ b < r.fr <;> by_cases h' : r.fr < a' ∨ b' < r.fr <;>
    simp [h, h']

/-- An exclusion never raises the sum or the number of points. -/
theorem exclude_le (m : ℝ) (rows : List Row) :
    (chiPoints (excludeByMax m rows)).1 ≤ (chiPoints rows).1 ∧
      (chiPoints (excludeByMax m rows)).2 ≤ (chiPoints rows).2 := by
  rw [chi_points_spec, chi_points_spec]
  dsimp only
  unfold excludeByMax
  dsimp only
  generalize (if 1 ≤ m then 1 / m else m) = a
  generalize (if 1 ≤ m then m else 1 / m) = b
  induction rows with
  | nil => simp [total, number]
  | cons r rows ih =>
    rw [List.map_cons, total_cons, total_cons, number_cons, number_cons]
    have h0 := sq_nonneg' r
    by_cases h : r.fr < a ∨ b < r.fr
    · rw [if_pos h]
      have hu : ¬ Used { r with excluded := true } := by simp [Used]
      rw [if_neg hu, if_neg hu]
      constructor
      · have := ih.1
        split_ifs <;> linarith
      · have := ih.2
        split_ifs <;> omega
    · rw [if_neg h]
      constructor
      · linarith [ih.1]
      · have := ih.2
        omega

/-! ## Report on the agreement with the model -/

/-- The reflection's flipping ratio is not one within the tolerance of `math.isclose`. -/
def NotOne (r : Row) : Prop := ¬ isClose r.fr 1

theorem isClose_zero (x : ℝ) : isClose x 0 ↔ x = 0 := by
  unfold isClose
  rw [sub_zero, abs_zero, max_eq_left (abs_nonneg x)]
  constructor
  · intro h
    have h0 := abs_nonneg x
    have : |x| ≤ 0 := by nlinarith
    exact abs_nonpos_iff.1 this
  · rintro rfl
    simp

/-- The relative deviation from the measured value (from the error when that is zero). -/
noncomputable def relF (r : Row) : ℝ :=
  if r.fr = 0 then |r.model| / |r.sigma| else |r.fr - r.model| / |r.fr|

/-- The relative deviation of the asymmetry. -/
noncomputable def relR (r : Row) : ℝ := |r.fr - r.model| / |r.fr - 1|

theorem collect_from (a : Acc) (rows : List Row) :
    rows.foldl step a =
      { n1 := a.n1 + number (fun r => dev r ≤ 1) rows
        n2 := a.n2 + number (fun r => 1 < dev r ∧ dev r ≤ 2) rows
        n3 := a.n3 + number (fun r => 2 < dev r ∧ dev r ≤ 3) rows
        worst := a.worst ++ rows.filter (fun r => 3 < dev r)
        chi := a.chi ++ rows.map sq
        afF := a.afF ++ rows.map relF
        afR := a.afR ++ (rows.filter fun r => NotOne r).map relR } := by
  induction rows generalizing a with
  | nil => simp [number]
  | cons r rows ih =>
    rw [List.foldl_cons, ih]
    simp only [number_cons, List.map_cons]
    have hF : (if isClose r.fr 0 then |(r.fr - r.model) / r.sigma|
        else |(r.fr - r.model) / r.fr|) = relF r := by
      unfold relF
      simp only [isClose_zero]
      split_ifs with h
      · rw [h, zero_sub, abs_div, abs_neg]
      · rw [abs_div]
    have hR : (a.afR ++ ((r :: rows).filter fun r => NotOne r).map relR) =
        (if isClose r.fr 1 then a.afR else a.afR ++ [|(r.fr - r.model) / (r.fr - 1)|]) ++
          (rows.filter fun r => NotOne r).map relR := by
      by_cases h : isClose r.fr 1
      · simp [NotOne, h]
      · simp [NotOne, h, relR, abs_div]
    unfold step
    dsimp only
    rw [hF, hR, dev_sq]
    rcases le_or_gt (dev r) 1 with h1 | h1
    · have h2 : ¬ 3 < dev r := by linarith
      have h3 : ¬ 1 < dev r := by linarith
      have h4 : ¬ 2 < dev r := by linarith
      simp [h1, h2, h3, h4]
      omega
    · have h1' : ¬ dev r ≤ 1 := by linarith
      rcases le_or_gt (dev r) 2 with h2 | h2
      · have h3 : ¬ 3 < dev r := by linarith
        have h4 : ¬ 2 < dev r := by linarith
        simp [h1, h1', h2, h3, h4]
        omega
      · have h2' : ¬ dev r ≤ 2 := by linarith
        rcases le_or_gt (dev r) 3 with h3 | h3
        · have h4 : ¬ 3 < dev r := by linarith
          simp [h1', h2, h2', h3, h4]
          omega
        · have h3' : ¬ dev r ≤ 3 := by linarith
          simp [h1', h2', h3, h3']

/-- A report is made exactly for a list that is not empty and has no zero error. -/
theorem report_exists_iff (rows : List Row) :
    (chiReport rows).isSome ↔ rows ≠ [] ∧ ∀ r ∈ rows, r.sigma ≠ 0 := by
  unfold chiReport
  split_ifs with h
  · simp only [Option.isSome_none, Bool.false_eq_true, false_iff]
    rintro ⟨h1, h2⟩
    rcases h with h | ⟨r, hr, h⟩
    · exact h1 h
    · exact h2 r hr h
  · push Not at h
    simp only [Option.isSome_some, true_iff]
    exact h

/-- The numbers of the report. -/
theorem report_spec {rows : List Row} {p : ChiReport} (h : chiReport rows = some p) :
    p.n = rows.length ∧
    p.chiPer = (rows.map sq).sum / rows.length ∧
    p.afFPer = (rows.map relF).sum / rows.length ∧
    p.afRPer = total NotOne relR rows / rows.length ∧
    p.n1 = number (fun r => dev r ≤ 1) rows ∧
    p.n2 = number (fun r => 1 < dev r ∧ dev r ≤ 2) rows ∧
    p.n3 = number (fun r => 2 < dev r ∧ dev r ≤ 3) rows ∧
    p.nMore = number (fun r => 3 < dev r) rows := by
  unfold chiReport collect at h
  rw [collect_from] at h
  split_ifs at h
  rw [Option.some.injEq] at h
  subst h
  refine ⟨rfl, ?_, ?_, ?_, ?_, ?_, ?_, ?_⟩ <;> simp [total, number]

theorem number_split (rows : List Row) :
    number (fun r => dev r ≤ 1) rows + number (fun r => 1 < dev r ∧ dev r ≤ 2) rows +
      number (fun r => 2 < dev r ∧ dev r ≤ 3) rows + number (fun r => 3 < dev r) rows =
      rows.length := by
  induction rows with
  | nil => rfl
  | cons r rows ih =>
    simp only [number_cons, List.length_cons]
    rcases le_or_gt (dev r) 1 with h1 | h1
    · have h2 : ¬ 3 < dev r := by linarith
      have h3 : ¬ 1 < dev r := by linarith
      have h4 : ¬ 2 < dev r := by linarith
      simp [h1, h2, h3, h4]
      omega
    · have h1' : ¬ dev r ≤ 1 := by linarith
      rcases le_or_gt (dev r) 2 with h2 | h2
      · have h3 : ¬ 3 < dev r := by linarith
        have h4 : ¬ 2 < dev r := by linarith
        simp [h1, h1', h2, h3, h4]
        omega
      · have h2' : ¬ dev r ≤ 2 := by linarith
        rcases le_or_gt (dev r) 3 with h3 | h3
        · have h4 : ¬ 3 < dev r := by linarith
          simp [h1', h2, h2', h3, h4]
          omega
        · have h3' : ¬ dev r ≤ 3 := by linarith
          simp [h1', h2', h3, h3']
          omega

/-- Every reflection is in exactly one of the four classes. -/
theorem report_classes {rows : List Row} {p : ChiReport} (h : chiReport rows = some p) :
    p.n1 + p.n2 + p.n3 + p.nMore = p.n := by
  obtain ⟨h0, _, _, _, h1, h2, h3, h4⟩ := report_spec h
  rw [h0, h1, h2, h3, h4, number_split]

/-- The report does not look at the exclusion (a known failure: the number printed
is not the one that is refined). -/
theorem report_ignores_exclusion (rows : List Row) :
    (∀ p, chiReport rows = some p → ∃ q, chiReport (includeAll rows) = some q ∧
      p.n = q.n ∧ p.chiPer = q.chiPer ∧ p.nMore = q.nMore) := by
  intro p h
  have he := (report_exists_iff rows).1 (by rw [h]; rfl)
  have hs : (chiReport (includeAll rows)).isSome := by
    rw [report_exists_iff]
    refine ⟨by simp [includeAll, he.1], ?_⟩
    intro r hr
    obtain ⟨s, hs, rfl⟩ := List.mem_map.1 hr
    exact he.2 s hs
  obtain ⟨q, hq⟩ := Option.isSome_iff_exists.1 hs
  refine ⟨q, hq, ?_⟩
  obtain ⟨a0, a1, _, _, _, _, _, a2⟩ := report_spec h
  obtain ⟨b0, b1, _, _, _, _, _, b2⟩ := report_spec hq
  refine ⟨?_, ?_, ?_⟩
  · rw [a0, b0, includeAll, List.length_map]
  · rw [a1, b1, includeAll, List.length_map, List.map_map]
    rfl
  · rw [a2, b2]
    unfold number includeAll
    rw [List.filter_map, List.length_map]
    rfl

/-- The printed mean and number are those of the refinement exactly up to the part of
the excluded reflections: `n * mean` is the refined sum plus the sum over the excluded. -/
theorem report_vs_refinement {rows : List Row} {p : ChiReport} (h : chiReport rows = some p) :
    p.chiPer * p.n = (chiPoints rows).1 + total (fun r => ¬ Used r) sq rows ∧
    p.n = (chiPoints rows).2 + number (fun r => ¬ Used r) rows := by
  obtain ⟨h0, h1, h2⟩ := report_spec h
  have hne := ((report_exists_iff rows).1 (by rw [h]; rfl)).1
  have hl : (rows.length : ℝ) ≠ 0 := by
    have : rows.length ≠ 0 := by simpa using hne
    exact_mod_cast this
  rw [h0, h1, chi_points_spec, div_mul_cancel₀ _ hl]
  dsimp only
  clear h h0 h1 h2 hne hl
  induction rows with
  | nil => simp [total, number]
  | cons r rows ih =>
    rw [total_cons, total_cons, number_cons, number_cons, List.map_cons, List.sum_cons,
      List.length_cons, ih.1]
    have := ih.2
    by_cases hu : Used r
    · simp only [hu, if_true, not_true, if_false]
      exact ⟨by ring, by omega⟩
    · simp only [hu, if_true, not_false_iff, if_false]
      exact ⟨by ring, by omega⟩

/-- The two agree when nothing is excluded. -/
theorem report_vs_refinement_all {rows : List Row} {p : ChiReport} (h : chiReport rows = some p)
    (hu : ∀ r ∈ rows, Used r) :
    p.chiPer * p.n = (chiPoints rows).1 ∧ p.n = (chiPoints rows).2 := by
  obtain ⟨h1, h2⟩ := report_vs_refinement h
  have key : ∀ P : Row → Prop, (∀ r ∈ rows, ¬ P r) → total P sq rows = 0 ∧ number P rows = 0 := by
    intro P hP
    have : (rows.filter fun r => decide (P r)) = [] := by
      rw [List.filter_eq_nil_iff]
      intro r hr
      simp [hP r hr]
    simp [total, number, this]
  obtain ⟨k1, k2⟩ := key (fun r => ¬ Used r) fun r hr => not_not.2 (hu r hr)
  rw [k1, add_zero] at h1
  rw [k2, add_zero] at h2
  exact ⟨h1, h2⟩

/-- The list of the worst reflections: none are listed when fewer than two deviate by
more than three errors; otherwise up to ten are listed in descending order, and no
reflection left out deviates more than a listed one. -/
theorem worst_spec {rows : List Row} {p : ChiReport} (h : chiReport rows = some p) :
    p.listed.length = (if p.nMore ≤ 1 then 0 else min 10 p.nMore) ∧
    p.listed.Pairwise (fun r s => dev s ≤ dev r) ∧
    (p.listed ≠ [] → ∃ rest, (p.listed ++ rest).Perm (rows.filter fun r => 3 < dev r) ∧
      ∀ r ∈ p.listed, ∀ s ∈ rest, dev s ≤ dev r) := by
  have hsp := report_spec h
  unfold chiReport collect at h
  rw [collect_from] at h
  split_ifs at h
  rw [Option.some.injEq] at h
  have hm : p.nMore = (rows.filter fun r => decide (3 < dev r)).length := hsp.2.2.2.2.2.2.2
  set W := rows.filter fun r => decide (3 < dev r) with hW
  set S := W.mergeSort fun r s => decide (dev s ≤ dev r) with hS
  have hl : p.listed = if 1 < W.length then S.take (min 10 W.length) else [] := by
    rw [← h]
    simp only [List.nil_append]
    rfl
  have hpw : S.Pairwise fun r s => dev s ≤ dev r := by
    have := List.pairwise_mergeSort (le := fun r s : Row => decide (dev s ≤ dev r))
      (by intro a b c h1 h2; simp only [decide_eq_true_eq] at *; linarith)
      (by
        intro a b
        rcases le_total (dev b) (dev a) with h | h <;> simp [h]) W
    exact this.imp fun h => of_decide_eq_true h
  have hperm : S.Perm W := List.mergeSort_perm _ _
  have hlen : S.length = W.length := hperm.length_eq
  rw [hl, hm]
  by_cases h1 : 1 < W.length
  · rw [if_pos h1, if_neg (by omega)]
    refine ⟨by rw [List.length_take, hlen]; omega, hpw.sublist (List.take_sublist _ _), ?_⟩
    intro _
    refine ⟨S.drop (min 10 W.length), ?_, ?_⟩
    · rw [List.take_append_drop]
      exact hperm
    · have := hpw
      rw [← List.take_append_drop (min 10 W.length) S, List.pairwise_append] at this
      exact this.2.2
  · rw [if_neg h1, if_pos (by omega)]
    exact ⟨rfl, List.Pairwise.nil, fun h => absurd rfl h⟩

/-- Known failure: a single reflection beyond three errors is counted but not listed. -/
theorem single_worst_not_listed {rows : List Row} {p : ChiReport} (h : chiReport rows = some p)
    (h1 : number (fun r => 3 < dev r) rows = 1) : p.nMore = 1 ∧ p.listed = [] := by
  obtain ⟨_, _, _, _, _, _, _, h2⟩ := report_spec h
  have := (worst_spec h).1
  rw [h2, h1] at this
  exact ⟨by rw [h2, h1], List.length_eq_zero_iff.1 (by simpa using this)⟩

end Cryspy.FrReport
