import Verif.FrReport.Props
import Mathlib.Algebra.BigOperators.Group.Finset.Basic
import Mathlib.Data.ZMod.Basic

/-!
# Reports on flipping ratios: the table over sin(theta)/lambda and Friedel pairs
-/

namespace Cryspy.FrReport

open Classical

/-! ## Table over sin(theta)/lambda -/

theorem edge_mono {lo hi : ℝ} (h : lo ≤ hi) : Monotone (edge lo hi) := by
  intro i j hij
  have hc : (i : ℝ) ≤ j := by exact_mod_cast hij
  unfold edge
  split_ifs
  · linarith
  · have : (i : ℝ) * ((hi - lo) / 10) ≤ j * ((hi - lo) / 10) :=
      mul_le_mul_of_nonneg_right hc (by linarith)
    linarith

theorem edge_ends {lo hi : ℝ} (h : lo ≤ hi) : edge lo hi 0 ≤ lo ∧ hi ≤ edge lo hi 10 := by
  unfold edge
  split_ifs with he
  · subst he
    constructor
    · norm_num
    · norm_num
      linarith
  · constructor
    · simp
    · apply le_of_eq
      push_cast
      ring

theorem one_bin (e : ℕ → ℝ) (hm : Monotone e) {x : ℝ} (h0 : e 0 ≤ x) (n : ℕ) :
    ∑ i ∈ Finset.range n, (if e i ≤ x ∧ x < e (i + 1) then 1 else 0) =
      if x < e n then 1 else 0 := by
  induction n with
  | zero => simp [h0]
  | succ n ih =>
    rw [Finset.sum_range_succ, ih]
    have := hm (Nat.le_succ n)
    rcases lt_or_ge x (e n) with h | h
    · have h1 : ¬ e n ≤ x := by linarith
      have h2 : x < e (n + 1) := lt_of_lt_of_le h this
      simp [h, h1, h2]
    · have h1 : ¬ x < e n := by linarith
      simp [h, h1]

/-- The numbers of points of the ten bins are the number of reflections. -/
theorem table_counts {lo hi : ℝ} (xs : List ℝ) (h : lo ≤ hi) (hx : ∀ x ∈ xs, lo ≤ x ∧ x ≤ hi) :
    ∑ i ∈ Finset.range 10, histCount lo hi xs i = xs.length := by
  induction xs with
  | nil => simp [histCount]
  | cons x xs ih =>
    have ih := ih fun y hy => hx y (List.mem_cons_of_mem _ hy)
    obtain ⟨x1, x2⟩ := hx x List.mem_cons_self
    have hc : ∀ i, histCount lo hi (x :: xs) i = (if edge lo hi i ≤ x ∧
        (x < edge lo hi (i + 1) ∨ (i = 9 ∧ x = edge lo hi (i + 1))) then 1 else 0) +
        histCount lo hi xs i := by
      intro i
      unfold histCount
      by_cases hp : edge lo hi i ≤ x ∧
        (x < edge lo hi (i + 1) ∨ (i = 9 ∧ x = edge lo hi (i + 1)))
      · rw [List.filter_cons_of_pos (by simpa using hp), if_pos hp, List.length_cons, add_comm]
      · rw [List.filter_cons_of_neg (by simpa using hp), if_neg hp, zero_add]
    simp only [hc]
    rw [Finset.sum_add_distrib, ih, List.length_cons, add_comm]
    congr 1
    obtain ⟨e0, e10⟩ := edge_ends h
    rw [Finset.sum_range_succ]
    have h9 : ∑ i ∈ Finset.range 9, (if edge lo hi i ≤ x ∧
        (x < edge lo hi (i + 1) ∨ (i = 9 ∧ x = edge lo hi (i + 1))) then 1 else 0) =
        ∑ i ∈ Finset.range 9, (if edge lo hi i ≤ x ∧ x < edge lo hi (i + 1) then 1 else 0) := by
      apply Finset.sum_congr rfl
      intro i hi'
      have : i ≠ 9 := by
        have := Finset.mem_range.1 hi'
        omega
      simp [this]
    rw [h9, one_bin (edge lo hi) (edge_mono h) (le_trans e0 x1) 9]
    have hl : x < edge lo hi 10 ∨ x = edge lo hi 10 := lt_or_eq_of_le (le_trans x2 e10)
    rcases lt_or_ge x (edge lo hi 9) with h' | h'
    · have : ¬ edge lo hi 9 ≤ x := by linarith
      simp [h', this]
    · have : ¬ x < edge lo hi 9 := by linarith
      simp [h', this, hl]

/-- In the lines before the last the number of points is that of the mean, and the line
is empty exactly when no reflection lies in `[left, right)`. -/
theorem bin_line {lo hi : ℝ} (xs : List (ℝ × ℝ)) {i : ℕ} (hi9 : i < 9) :
    let inside := xs.filter fun p => edge lo hi i ≤ p.1 ∧ p.1 < edge lo hi (i + 1)
    (binLine lo hi xs i).shown =
      if inside = [] then none
      else some ((inside.map (·.2)).sum / inside.length, inside.length) := by
  intro inside
  have hc : histCount lo hi (xs.map (·.1)) i = inside.length := by
    unfold histCount
    rw [List.filter_map, List.length_map]
    congr 1
    apply List.filter_congr
    intro p _
    have : i ≠ 9 := by omega
    simp [this]
  show (if (inside.map (·.2)) = [] then none else _) = _
  rw [hc]
  by_cases h : inside = []
  · simp [h]
  · rw [if_neg (by simpa using h), if_neg h, List.length_map]

/-- Known failure: no mean contains the reflections with the largest sin(theta)/lambda;
whatever their deviations are, the table is the same. -/
theorem largest_not_in_mean {lo hi : ℝ} (h : lo < hi) {xs ys : List (ℝ × ℝ)}
    (hxy : List.Forall₂ (fun p q => p.1 = q.1 ∧ (p.1 < hi → p.2 = q.2)) xs ys) {i : ℕ}
    (hi10 : i < 10) : binLine lo hi xs i = binLine lo hi ys i := by
  have hle : edge lo hi (i + 1) ≤ hi := by
    have h1 := edge_mono h.le (show i + 1 ≤ 10 by omega)
    have h2 : edge lo hi 10 = hi := by
      unfold edge
      rw [if_neg h.ne]
      push_cast
      ring
    rwa [h2] at h1
  have h1 : xs.map (·.1) = ys.map (·.1) := by
    clear hi10 hle
    induction hxy with
    | nil => rfl
    | cons a _ ih => rw [List.map_cons, List.map_cons, ih, a.1]
  have h2 : (xs.filter fun p => edge lo hi i ≤ p.1 ∧ p.1 < edge lo hi (i + 1)).map (·.2) =
      (ys.filter fun p => edge lo hi i ≤ p.1 ∧ p.1 < edge lo hi (i + 1)).map (·.2) := by
    clear h1
    induction hxy with
    | nil => rfl
    | cons a _ ih =>
      rename_i p q _ _ _
      obtain ⟨a1, a2⟩ := a
      by_cases hp : edge lo hi i ≤ p.1 ∧ p.1 < edge lo hi (i + 1)
      · have hq : edge lo hi i ≤ q.1 ∧ q.1 < edge lo hi (i + 1) := a1 ▸ hp
        rw [List.filter_cons_of_pos (by simpa using hp), List.filter_cons_of_pos (by simpa using hq),
          List.map_cons, List.map_cons, ih, a2 (lt_of_lt_of_le hp.2 hle)]
      · have hq : ¬ (edge lo hi i ≤ q.1 ∧ q.1 < edge lo hi (i + 1)) := a1 ▸ hp
        rw [List.filter_cons_of_neg (by simpa using hp), List.filter_cons_of_neg (by simpa using hq), ih]
  unfold binLine
  dsimp only
  rw [h1, h2]

/-- ... and a last bin that holds only them is shown as empty although it is not. -/
theorem last_bin_shown_empty {lo hi : ℝ} (h : lo < hi) {xs : List (ℝ × ℝ)}
    (hx : ∀ p ∈ xs, p.1 < edge lo hi 9 ∨ p.1 = hi) (hmem : ∃ p ∈ xs, p.1 = hi) :
    (binLine lo hi xs 9).shown = none ∧ 0 < histCount lo hi (xs.map (·.1)) 9 := by
  have h10 : edge lo hi (9 + 1) = hi := by
    unfold edge
    rw [if_neg h.ne]
    push_cast
    ring
  constructor
  · unfold binLine
    dsimp only
    rw [if_pos]
    rw [List.map_eq_nil_iff, List.filter_eq_nil_iff]
    intro p hp
    rw [decide_eq_true_eq, h10]
    rintro ⟨h1, h2⟩
    rcases hx p hp with h3 | h3 <;> linarith
  · obtain ⟨p, hp, rfl⟩ := hmem
    unfold histCount
    apply List.length_pos_of_mem (a := p.1)
    rw [List.mem_filter, decide_eq_true_eq]
    refine ⟨List.mem_map.2 ⟨p, hp, rfl⟩, ?_, Or.inr ⟨rfl, h10.symm⟩⟩
    have := edge_mono h.le (show 9 ≤ 10 by omega)
    linarith [h10]

/-- The table of a list of reflections: ten lines, those above. -/
theorem table_spec (sthovl : ℤ → ℤ → ℤ → ℝ) (lo hi : ℝ) (rows : List Row) :
    (chiTable sthovl lo hi rows).length = 10 ∧
    ∀ i, i < 10 → ∀ b, (chiTable sthovl lo hi rows)[i]? = some b →
      b = binLine lo hi (rows.map fun r => (sthovl r.h r.k r.l, dev r)) i := by
  refine ⟨by simp [chiTable], ?_⟩
  intro i hi' b hb
  unfold chiTable at hb
  rw [List.getElem?_map, List.getElem?_range hi'] at hb
  simpa using hb.symm

/-! ## Friedel pairs -/

/-- The partner of a reflection is a reflection of the list with opposite indices, and
there is one exactly when the list has such a reflection. -/
theorem mate_spec (rows : List Row) (r : Row) :
    (∀ s, mate rows r = some s → s ∈ rows ∧ Opposite r s) ∧
    ((mate rows r).isSome ↔ ∃ s ∈ rows, Opposite r s) := by
  constructor
  · intro s hs
    unfold mate at hs
    refine ⟨List.mem_of_find?_eq_some hs, ?_⟩
    have := List.find?_some hs
    simpa [Opposite] using this
  · unfold mate
    rw [List.find?_isSome]
    simp [Opposite]

theorem sum_inv_pos {a b : ℝ} (ha : a ≠ 0) (hb : b ≠ 0) : 0 < 1 / a ^ 2 + 1 / b ^ 2 := by
  positivity

/-- The average of a pair: the weights are the inverse squares of the errors. -/
theorem average_spec (r s : Row) (hr : r.sigma ≠ 0) (hs : s.sigma ≠ 0) :
    average r s = (r.fr / r.sigma ^ 2 + s.fr / s.sigma ^ 2) /
      (1 / r.sigma ^ 2 + 1 / s.sigma ^ 2) := by
  unfold average
  dsimp only
  rw [div_pow, Real.sq_sqrt (sum_inv_pos hr hs).le, one_pow, mul_one_div, mul_one_div,
    mul_one_div]

theorem average_alt (r s : Row) (hr : r.sigma ≠ 0) (hs : s.sigma ≠ 0) :
    r.fr - average r s = (r.fr - s.fr) * r.sigma ^ 2 / (r.sigma ^ 2 + s.sigma ^ 2) := by
  rw [average_spec r s hr hs]
  have h1 : 0 < r.sigma ^ 2 + s.sigma ^ 2 := by positivity
  have h2 := sum_inv_pos hr hs
  have h3 : 1 / r.sigma ^ 2 + 1 / s.sigma ^ 2 =
      (r.sigma ^ 2 + s.sigma ^ 2) / (r.sigma ^ 2 * s.sigma ^ 2) := by
    field_simp
    ring
  rw [h3]
  field_simp
  ring

/-- It lies between the two. -/
theorem average_between (r s : Row) (hr : r.sigma ≠ 0) (hs : s.sigma ≠ 0) :
    min r.fr s.fr ≤ average r s ∧ average r s ≤ max r.fr s.fr := by
  have h1 := average_alt r s hr hs
  set t := r.sigma ^ 2 / (r.sigma ^ 2 + s.sigma ^ 2) with ht
  have h2 : 0 ≤ t := by positivity
  have h3 : t ≤ 1 := by
    rw [ht, div_le_one (by positivity)]
    have := sq_nonneg s.sigma
    linarith
  have h4 : average r s = r.fr - (r.fr - s.fr) * t := by
    rw [ht, mul_div_assoc', ← h1]
    ring
  rw [h4]
  rcases le_total r.fr s.fr with h | h
  · rw [min_eq_left h, max_eq_right h]
    constructor <;> nlinarith
  · rw [min_eq_right h, max_eq_left h]
    constructor <;> nlinarith

/-- The two members of a pair have the same average, and together add the square of their
difference in units of the error of the difference. -/
theorem pair_chi_sum (r s : Row) (hr : r.sigma ≠ 0) (hs : s.sigma ≠ 0) :
    average s r = average r s ∧
    pairChi r s + pairChi s r = (r.fr - s.fr) ^ 2 / (r.sigma ^ 2 + s.sigma ^ 2) := by
  constructor
  · rw [average_spec r s hr hs, average_spec s r hs hr, add_comm, add_comm (1 / s.sigma ^ 2)]
  · unfold pairChi
    rw [div_pow, div_pow, sq_abs, sq_abs, average_alt r s hr hs, average_alt s r hs hr]
    have h1 : r.sigma ^ 2 + s.sigma ^ 2 ≠ 0 := by positivity
    rw [add_comm (s.sigma ^ 2)]
    field_simp
    ring

theorem agCollect_from (all : List Row) (a : Ag) (rows : List Row) :
    rows.foldl (agStep all) a =
      { n0 := a.n0 + number (fun r => asym r < 1) rows
        n1 := a.n1 + number (fun r => 1 ≤ asym r ∧ asym r < 2) rows
        n2 := a.n2 + number (fun r => 2 ≤ asym r ∧ asym r < 3) rows
        n3 := a.n3 + number (fun r => 3 ≤ asym r) rows
        diff := a.diff ++ rows.map diffOf
        chi := a.chi ++ rows.filterMap (fun r => (mate all r).map (pairChi r))
        ag := a.ag ++ rows.filterMap (fun r => (mate all r).map (pairAg r)) } := by
  induction rows generalizing a with
  | nil => simp [number]
  | cons r rows ih =>
    rw [List.foldl_cons, ih]
    simp only [number_cons, List.map_cons]
    unfold agStep
    dsimp only
    rcases le_or_gt 3 (asym r) with h3 | h3
    · have h1 : ¬ asym r < 1 := by linarith
      have h2 : ¬ asym r < 2 := by linarith
      have h3' : ¬ asym r < 3 := by linarith
      cases hm : mate all r <;> simp [h1, h2, h3, h3', hm] <;> omega
    · have h3' : ¬ 3 ≤ asym r := by linarith
      rcases le_or_gt 2 (asym r) with h2 | h2
      · have h1 : ¬ asym r < 1 := by linarith
        have h2' : ¬ asym r < 2 := by linarith
        cases hm : mate all r <;> simp [h1, h2, h3, h3', h2', hm] <;> omega
      · have h2' : ¬ 2 ≤ asym r := by linarith
        rcases le_or_gt 1 (asym r) with h1 | h1
        · have h1' : ¬ asym r < 1 := by linarith
          cases hm : mate all r <;> simp [h1, h2, h3', h2', h1', hm] <;> omega
        · have h1' : ¬ 1 ≤ asym r := by linarith
          cases hm : mate all r <;> simp [h1, h3', h2', h1', hm] <;> omega

/-- The classes of the report on the measurement, and the number of Friedel reflections:
every reflection whose opposite is in the list counts. -/
theorem ag_report_asym {rows : List Row} {p : AgReport} (h : agReport rows = some p) :
    p.n0 = number (fun r => asym r < 1) rows ∧
    p.n1 = number (fun r => 1 ≤ asym r ∧ asym r < 2) rows ∧
    p.n2 = number (fun r => 2 ≤ asym r ∧ asym r < 3) rows ∧
    p.n3 = number (fun r => 3 ≤ asym r) rows ∧
    p.nFriedel = number (fun r => ∃ s ∈ rows, Opposite r s) rows ∧
    p.perPair = (if p.nFriedel = 0 then none
      else some ((rows.filterMap fun r => (mate rows r).map (pairChi r)).sum / p.nFriedel,
        (rows.filterMap fun r => (mate rows r).map (pairAg r)).sum / p.nFriedel)) := by
  unfold agReport agCollect at h
  rw [agCollect_from] at h
  split_ifs at h
  rw [Option.some.injEq] at h
  subst h
  refine ⟨by simp, by simp, by simp, by simp, ?_, by simp⟩
  show ([] ++ rows.filterMap fun r => (mate rows r).map (pairChi r)).length = _
  rw [List.nil_append]
  have key : ∀ l : List Row, (l.filterMap fun r => (mate rows r).map (pairChi r)).length =
      number (fun r => ∃ s ∈ rows, Opposite r s) l := by
    intro l
    induction l with
    | nil => rfl
    | cons r l ih =>
      rw [number_cons, ← ih, List.filterMap_cons]
      have := (mate_spec rows r).2
      cases hm : mate rows r with
      | none =>
        rw [hm] at this
        have hn : ¬ ∃ s ∈ rows, Opposite r s := fun h => by simpa using this.2 h
        simp [hn]
      | some s =>
        rw [hm] at this
        have hn : ∃ s ∈ rows, Opposite r s := this.1 rfl
        rw [if_pos hn]
        simp [add_comm]
  exact key rows

/-- The classes are those of the deviation of the flipping ratio from one in units of its error. -/
theorem ag_report_spec {rows : List Row} {p : AgReport} (h : agReport rows = some p) :
    p.n0 = number (fun r => |r.fr - 1| / r.sigma < 1) rows ∧
    p.n1 = number (fun r => 1 ≤ |r.fr - 1| / r.sigma ∧ |r.fr - 1| / r.sigma < 2) rows ∧
    p.n2 = number (fun r => 2 ≤ |r.fr - 1| / r.sigma ∧ |r.fr - 1| / r.sigma < 3) rows ∧
    p.n3 = number (fun r => 3 ≤ |r.fr - 1| / r.sigma) rows ∧
    p.nFriedel = number (fun r => ∃ s ∈ rows, Opposite r s) rows ∧
    p.perPair = (if p.nFriedel = 0 then none
      else some ((rows.filterMap fun r => (mate rows r).map (pairChi r)).sum / p.nFriedel,
        (rows.filterMap fun r => (mate rows r).map (pairAg r)).sum / p.nFriedel)) := ag_report_asym h

/-- Every measured reflection is in exactly one class. -/
theorem ag_classes {rows : List Row} {p : AgReport} (h : agReport rows = some p) :
    p.n0 + p.n1 + p.n2 + p.n3 = p.n ∧ p.n = rows.length := by
  have hs := ag_report_asym h
  have hn : p.n = p.n0 + p.n1 + p.n2 + p.n3 := by
    unfold agReport at h
    split_ifs at h
    rw [Option.some.injEq] at h
    subst h
    rfl
  refine ⟨hn.symm, ?_⟩
  rw [hn, hs.1, hs.2.1, hs.2.2.1, hs.2.2.2.1]
  clear h hn hs
  induction rows with
  | nil => rfl
  | cons r rows ih =>
    simp only [number_cons, List.length_cons]
    rcases le_or_gt 3 (asym r) with h3 | h3
    · have h1 : ¬ asym r < 1 := by linarith
      have h2 : ¬ asym r < 2 := by linarith
      have h3' : ¬ asym r < 3 := by linarith
      simp [h1, h2, h3, h3']
      omega
    · have h3' : ¬ 3 ≤ asym r := by linarith
      rcases le_or_gt 2 (asym r) with h2 | h2
      · have h1 : ¬ asym r < 1 := by linarith
        have h2' : ¬ asym r < 2 := by linarith
        simp [h1, h2, h3, h3', h2']
        omega
      · have h2' : ¬ 2 ≤ asym r := by linarith
        rcases le_or_gt 1 (asym r) with h1 | h1
        · have h1' : ¬ asym r < 1 := by linarith
          simp [h1, h2, h3', h2', h1']
          omega
        · have h1' : ¬ 1 ≤ asym r := by linarith
          simp [h1, h3', h2', h1']
          omega

/-- A flipping ratio and its reciprocal count alike in `max(FR - 1)`, which is not
negative for positive flipping ratios. -/
theorem diff_reciprocal (r : Row) (hf : 0 < r.fr) :
    diffOf { r with fr := 1 / r.fr } = diffOf r ∧ 0 ≤ diffOf r := by
  have hz : ∀ x : ℝ, 0 < x → ¬ isClose x 0 := fun x hx h => hx.ne' ((isClose_zero x).1 h)
  have h1 : 0 < 1 / r.fr := by positivity
  unfold diffOf
  dsimp only
  rw [if_neg (hz _ h1), if_neg (hz _ hf), one_div_one_div]
  rcases lt_trichotomy r.fr 1 with h | h | h
  · have : 1 < 1 / r.fr := by rwa [lt_div_iff₀ hf, one_mul]
    rw [if_pos h.le, if_neg (not_le.2 this)]
    exact ⟨rfl, by linarith⟩
  · rw [h]
    norm_num
  · have : 1 / r.fr < 1 := by rwa [div_lt_iff₀ hf, one_mul]
    rw [if_neg (not_le.2 h), if_pos this.le]
    exact ⟨rfl, by linarith⟩

theorem foldl_max_spec (xs : List ℝ) (x : ℝ) :
    (x ≤ xs.foldl max x ∧ ∀ y ∈ xs, y ≤ xs.foldl max x) ∧
      (xs.foldl max x = x ∨ xs.foldl max x ∈ xs) := by
  induction xs generalizing x with
  | nil => simp
  | cons a xs ih =>
    rw [List.foldl_cons]
    obtain ⟨⟨h1, h2⟩, h3⟩ := ih (max x a)
    refine ⟨⟨le_trans (le_max_left _ _) h1, ?_⟩, ?_⟩
    · intro y hy
      rcases List.mem_cons.1 hy with rfl | hy
      · exact le_trans (le_max_right _ _) h1
      · exact h2 y hy
    · rcases h3 with h3 | h3
      · rw [h3]
        rcases max_choice x a with h | h <;> rw [h] <;> simp
      · exact Or.inr (List.mem_cons_of_mem _ h3)

/-- The printed maximum is the largest of the values. -/
theorem max_diff_spec {rows : List Row} {p : AgReport} (h : agReport rows = some p) :
    ∃ m, p.maxDiff = some m ∧ (∀ r ∈ rows, diffOf r ≤ m) ∧ ∃ r ∈ rows, diffOf r = m := by
  unfold agReport agCollect at h
  rw [agCollect_from] at h
  split_ifs at h with hc
  rw [Option.some.injEq] at h
  subst h
  push Not at hc
  cases rows with
  | nil => exact absurd rfl hc.1
  | cons r rows =>
    refine ⟨_, rfl, ?_, ?_⟩
    all_goals
      obtain ⟨⟨h1, h2⟩, h3⟩ := foldl_max_spec (rows.map diffOf) (diffOf r)
    · intro s hs
      rcases List.mem_cons.1 hs with rfl | hs
      · exact h1
      · exact h2 _ (List.mem_map.2 ⟨s, hs, rfl⟩)
    · rcases h3 with h3 | h3
      · exact ⟨r, List.mem_cons_self, h3.symm⟩
      · obtain ⟨s, hs, h4⟩ := List.mem_map.1 h3
        exact ⟨s, List.mem_cons_of_mem _ hs, h4⟩

/-- When no indices are repeated and the list has no `0 0 0`, being Friedel partners is
mutual, so that the number of Friedel reflections is even: twice the number of pairs. -/
theorem friedel_even {rows : List Row} {p : AgReport} (h : agReport rows = some p)
    (hn : (rows.map fun r => (r.h, r.k, r.l)).Nodup)
    (h0 : ∀ r ∈ rows, ¬ (r.h = 0 ∧ r.k = 0 ∧ r.l = 0)) : Even p.nFriedel := by
  have hspec := (ag_report_asym h).2.2.2.2.1
  set ks := rows.map fun r => (r.h, r.k, r.l) with hks
  let S : Finset (ℤ × ℤ × ℤ) := ks.toFinset.filter fun q => (-q.1, -q.2.1, -q.2.2) ∈ ks
  have hcard : p.nFriedel = S.card := by
    rw [hspec]
    unfold number
    have hf : ∀ r : Row, (∃ s ∈ rows, Opposite r s) ↔ (-r.h, -r.k, -r.l) ∈ ks := by
      intro r
      rw [hks, List.mem_map]
      unfold Opposite
      constructor
      · rintro ⟨s, hs, a, b, c⟩
        exact ⟨s, hs, by rw [a, b, c]⟩
      · rintro ⟨s, hs, he⟩
        simp only [Prod.mk.injEq] at he
        exact ⟨s, hs, he⟩
    have e1 : S = (ks.filter fun q => decide ((-q.1, -q.2.1, -q.2.2) ∈ ks)).toFinset := by
      ext q
      simp [S]
    rw [e1, List.toFinset_card_of_nodup (hn.filter _)]
    rw [hks, List.filter_map, List.length_map]
    congr 1
    apply List.filter_congr
    intro r _
    simp only [Function.comp]
    exact decide_eq_decide.2 (hf r)
  have hsum : ∑ _q ∈ S, (1 : ZMod 2) = 0 := by
    apply Finset.sum_involution (fun q _ => (-q.1, -q.2.1, -q.2.2))
    · intro _ _
      decide
    · intro q hq _ he
      obtain ⟨hq1, _⟩ := Finset.mem_filter.1 hq
      obtain ⟨r, hr, rfl⟩ := List.mem_map.1 (List.mem_toFinset.1 hq1)
      simp only [Prod.mk.injEq] at he
      apply h0 r hr
      refine ⟨?_, ?_, ?_⟩ <;> omega
    · intro q _
      simp
    · intro q hq
      have hq' := Finset.mem_filter.1 hq
      have hq1 : q ∈ ks := List.mem_toFinset.1 hq'.1
      show (-q.1, -q.2.1, -q.2.2) ∈ ks.toFinset.filter fun q => (-q.1, -q.2.1, -q.2.2) ∈ ks
      rw [Finset.mem_filter]
      refine ⟨List.mem_toFinset.2 hq'.2, ?_⟩
      show (- -q.1, - -q.2.1, - -q.2.2) ∈ ks
      rw [neg_neg, neg_neg, neg_neg]
      exact hq1
  rw [Finset.sum_const, nsmul_eq_mul, mul_one, ← hcard] at hsum
  exact even_iff_two_dvd.2 ((ZMod.natCast_eq_zero_iff _ _).1 hsum)

/-! ## Cases -/

/-- Three reflections, one of them excluded; the first two are a Friedel pair. -/
noncomputable def rowsEx : List Row :=
  [⟨1, 0, 0, 2, 1 / 10, 19 / 10, false⟩, ⟨-1, 0, 0, 21 / 10, 1 / 10, 19 / 10, false⟩,
   ⟨1, 1, 0, 4, 1 / 10, 2, true⟩]

example : rowsEx ≠ [] ∧ ∀ r ∈ rowsEx, r.sigma ≠ 0 := by
  constructor
  · simp [rowsEx]
  · intro r hr
    simp only [rowsEx, List.mem_cons, List.not_mem_nil, or_false] at hr
    rcases hr with rfl | rfl | rfl <;> norm_num

/-- The report of the example says 3 reflections with a mean of 135, the refinement
uses two with a sum of 5. -/
theorem example_numbers :
    (chiPoints rowsEx) = (5, 2) ∧
    ∃ p, chiReport rowsEx = some p ∧ p.n = 3 ∧ p.chiPer = 135 ∧ p.nMore = 1 ∧ p.listed = [] := by
  have d1 : dev ⟨1, 0, 0, 2, 1 / 10, 19 / 10, false⟩ = 1 := by unfold dev; norm_num
  have d2 : dev ⟨-1, 0, 0, 21 / 10, 1 / 10, 19 / 10, false⟩ = 2 := by unfold dev; norm_num
  have d3 : dev ⟨1, 1, 0, 4, 1 / 10, 2, true⟩ = 20 := by unfold dev; norm_num
  constructor
  · simp only [chiPoints, rowsEx]
    norm_num
  · have hs : (chiReport rowsEx).isSome := by
      rw [report_exists_iff]
      constructor
      · simp [rowsEx]
      · intro r hr
        simp only [rowsEx, List.mem_cons, List.not_mem_nil, or_false] at hr
        rcases hr with rfl | rfl | rfl <;> norm_num
    obtain ⟨p, hp⟩ := Option.isSome_iff_exists.1 hs
    have hm : number (fun r => 3 < dev r) rowsEx = 1 := by
      unfold rowsEx
      rw [number_cons, number_cons, number_cons, d1, d2, d3]
      norm_num [number]
    obtain ⟨h1, h2⟩ := single_worst_not_listed hp hm
    obtain ⟨g0, g1, _⟩ := report_spec hp
    refine ⟨p, hp, by rw [g0]; rfl, ?_, h1, h2⟩
    rw [g1]
    simp only [rowsEx, List.map_cons, List.map_nil, sq, List.sum_cons, List.sum_nil,
      List.length_cons, List.length_nil]
    norm_num

/-- The pair of the example adds one half. -/
theorem example_pair :
    ∃ r s, r ∈ rowsEx ∧ mate rowsEx r = some s ∧ pairChi r s + pairChi s r = 1 / 2 := by
  refine ⟨⟨1, 0, 0, 2, 1 / 10, 19 / 10, false⟩, ⟨-1, 0, 0, 21 / 10, 1 / 10, 19 / 10, false⟩,
    by simp [rowsEx], by simp [mate, rowsEx, List.find?], ?_⟩
  rw [(pair_chi_sum _ _ (by norm_num) (by norm_num)).2]
  norm_num

example : Inside 3 2 ∧ ¬ Inside 3 4 ∧ ¬ Inside 3 (1 / 4) := by
  unfold Inside
  rw [min_eq_right (by norm_num), max_eq_left (by norm_num)]
  norm_num

example : (binLine 0 1 [(0, 5), (1, 7)] 9).shown = none :=
  (last_bin_shown_empty (by norm_num) (by
    intro p hp
    simp only [List.mem_cons, List.not_mem_nil, or_false] at hp
    rcases hp with rfl | rfl
    · left
      unfold edge
      norm_num
    · right
      rfl) ⟨(1, 7), by simp, rfl⟩).1

end Cryspy.FrReport
