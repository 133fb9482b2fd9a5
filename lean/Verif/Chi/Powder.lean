import Verif.Chi.Model
import Mathlib.Algebra.Order.BigOperators.Group.List
import Mathlib.Algebra.BigOperators.Ring.List
import Mathlib.Tactic.Ring
import Mathlib.Tactic.Linarith
import Mathlib.Tactic.Positivity
import Mathlib.Tactic.NormNum

/-!
# C65: chi squared of a powder pattern
-/

namespace Cryspy.Chi

/-! ### specification -/

/-- specification: the weighted square of the misfit of the sum of the two patterns, `((I⁺+I⁻)ₒ - (I⁺+I⁻+B)_c)² / (σ₊²+σ₋²)` -/
noncomputable def Point.misfitSum (p : Point) : ℝ := (p.expPlus + p.expMinus - p.calcPlus - p.calcMinus - p.bkg) ^ 2 / (p.sPlus ^ 2 + p.sMinus ^ 2)

/-- specification: the same for the difference of the two patterns -/
noncomputable def Point.misfitDiff (p : Point) : ℝ := (p.expPlus - p.expMinus - p.calcPlus + p.calcMinus) ^ 2 / (p.sPlus ^ 2 + p.sMinus ^ 2)

/-- specification: the point has an error -/
def Point.Good (p : Point) : Prop := p.sPlus ≠ 0 ∨ p.sMinus ≠ 0

theorem var_pos {p : Point} (h : p.Good) : 0 < p.sPlus ^ 2 + p.sMinus ^ 2 := by
  rcases h with h | h
  · have := pow_pos (lt_of_le_of_ne (abs_nonneg _) (Ne.symm (abs_ne_zero.2 h))) 2
    rw [sq_abs] at this
    nlinarith [sq_nonneg p.sMinus]
  · have := pow_pos (lt_of_le_of_ne (abs_nonneg _) (Ne.symm (abs_ne_zero.2 h))) 2
    rw [sq_abs] at this
    nlinarith [sq_nonneg p.sPlus]

theorem var_zero {p : Point} (h : ¬ p.Good) : p.sPlus ^ 2 + p.sMinus ^ 2 = 0 := by
  unfold Point.Good at h
  rw [not_or, not_not, not_not] at h
  rw [h.1, h.2]; norm_num

/-! ### lemmas -/

theorem sqDiv_good {p : Point} (h : p.Good) (x : ℝ) : Fl.sqDiv x (√(p.sPlus ^ 2 + p.sMinus ^ 2)) = .fin (x ^ 2 / (p.sPlus ^ 2 + p.sMinus ^ 2)) := by
  have := var_pos h
  unfold Fl.sqDiv
  rw [if_neg (Real.sqrt_pos.2 this).ne', div_pow, Real.sq_sqrt this.le]

theorem sqDiv_bad {p : Point} (h : ¬ p.Good) (x : ℝ) : Fl.sqDiv x (√(p.sPlus ^ 2 + p.sMinus ^ 2)) = if x = 0 then .nan else .inf := by
  unfold Fl.sqDiv
  rw [var_zero h, Real.sqrt_zero, if_pos rfl]

theorem fold_fin {α : Type} (g : α → Fl) (f : α → ℝ) (l : List α) (h : ∀ a ∈ l, g a = .fin (f a)) (c : ℝ) :
    (l.map g).foldl Fl.add (.fin c) = .fin (c + (l.map f).sum) := by
  induction l generalizing c with
  | nil => simp
  | cons a l ih =>
    rw [List.map_cons, List.foldl_cons, h a (by simp)]
    show (l.map g).foldl Fl.add (.fin (c + f a)) = _
    rw [ih fun b hb => h b (by simp [hb])]
    simp [add_assoc]

theorem fold_nan (l : List Fl) (c : Fl) (h : c = .nan ∨ .nan ∈ l) : l.foldl Fl.add c = .nan := by
  induction l generalizing c with
  | nil =>
    rcases h with rfl | h
    · rfl
    · cases h
  | cons a l ih =>
    rw [List.foldl_cons]
    apply ih
    rcases h with rfl | h
    · left; rfl
    · rcases List.mem_cons.1 h with rfl | h
      · left; cases c <;> rfl
      · right; exact h

theorem sum_included (l : List Point) (f : Point → ℝ) :
    (l.map fun p => if p.excluded then 0 else f p).sum = ((l.filter fun p => !p.excluded).map f).sum := by
  induction l with
  | nil => rfl
  | cons p l ih =>
    rw [List.map_cons, List.sum_cons, ih]
    by_cases h : p.excluded = true
    · rw [if_pos h, zero_add, List.filter_cons_of_neg (by simp [h])]
    · rw [if_neg h, List.filter_cons_of_pos (by simp [h]), List.map_cons, List.sum_cons]

theorem chiSum_good {l : List Point} (h : ∀ p ∈ l, p.Good) :
    chiSum l = .fin ((l.filter fun p => !p.excluded).map (·.misfitSum)).sum := by
  unfold chiSum
  rw [fold_fin _ (fun p : Point => if p.excluded then 0 else p.misfitSum), zero_add, sum_included]
  intro p hp
  rw [sqDiv_good (h p hp)]
  unfold Point.misfitSum
  rw [show p.expPlus + p.expMinus - (p.calcPlus + p.calcMinus + p.bkg) = p.expPlus + p.expMinus - p.calcPlus - p.calcMinus - p.bkg by ring]
  cases p.excluded <;> simp [Fl.mask]

theorem chiDiff_good {l : List Point} (h : ∀ p ∈ l, p.Good) : chiDiff l = .fin (l.map (·.misfitDiff)).sum := by
  unfold chiDiff
  rw [fold_fin _ (fun p : Point => p.misfitDiff), zero_add]
  intro p hp
  rw [sqDiv_good (h p hp)]
  unfold Point.misfitDiff
  rw [show p.expPlus - p.expMinus - (p.calcPlus - p.calcMinus) = p.expPlus - p.expMinus - p.calcPlus + p.calcMinus by ring]

/-! ### theorems -/

/-- **C65.** When every point has an error, chi squared is the sum of the weighted squares: of the sum of the patterns over the points that are not
excluded, of their difference over all points (the excluded ones too), as far as asked for; the number of points is counted in the same way -/
theorem chiPowder_spec {l : List Point} (h : ∀ p ∈ l, p.Good) (fSum fDiff : Bool) :
    chiPowder fSum fDiff l =
      (.fin ((if fSum then ((l.filter fun p => !p.excluded).map (·.misfitSum)).sum else 0) + if fDiff then (l.map (·.misfitDiff)).sum else 0),
       (if fSum then (l.filter fun p => !p.excluded).length else 0) + if fDiff then l.length else 0) := by
  unfold chiPowder
  rw [chiSum_good h, chiDiff_good h]
  cases fSum <;> cases fDiff <;> simp [Fl.add]

/-- it is never negative -/
theorem chiPowder_nonneg {l : List Point} (h : ∀ p ∈ l, p.Good) (fSum fDiff : Bool) :
    ∃ x : ℝ, (chiPowder fSum fDiff l).1 = .fin x ∧ 0 ≤ x := by
  refine ⟨_, congrArg Prod.fst (chiPowder_spec h fSum fDiff), ?_⟩
  have h1 : ∀ L : List Point, 0 ≤ (L.map (·.misfitSum)).sum := by
    intro L
    apply List.sum_nonneg
    intro x hx
    obtain ⟨p, -, rfl⟩ := List.mem_map.1 hx
    exact div_nonneg (sq_nonneg _) (by positivity)
  have h2 : ∀ L : List Point, 0 ≤ (L.map (·.misfitDiff)).sum := by
    intro L
    apply List.sum_nonneg
    intro x hx
    obtain ⟨p, -, rfl⟩ := List.mem_map.1 hx
    exact div_nonneg (sq_nonneg _) (by positivity)
  have a1 := h1 (l.filter fun p => !p.excluded)
  have a2 := h2 l
  cases fSum <;> cases fDiff <;> simp <;> linarith

/-- for the sum of the patterns it vanishes exactly when the calculation meets every point that is not excluded -/
theorem chiPowder_zero_iff {l : List Point} (h : ∀ p ∈ l, p.Good) :
    (chiPowder true false l).1 = .fin 0 ↔ ∀ p ∈ l, p.excluded = false → p.expPlus + p.expMinus = p.calcPlus + p.calcMinus + p.bkg := by
  have e := congrArg Prod.fst (chiPowder_spec h true false)
  rw [e]
  simp only [if_true, Bool.false_eq_true, if_false, add_zero, Fl.fin.injEq]
  have key : ∀ L : List Point, (∀ p ∈ L, p.Good) → ((L.map (·.misfitSum)).sum = 0 ↔ ∀ p ∈ L, p.expPlus + p.expMinus = p.calcPlus + p.calcMinus + p.bkg) := by
    intro L hL
    induction L with
    | nil => simp
    | cons p L ih =>
      have hp := var_pos (hL p (by simp))
      have i := ih fun q hq => hL q (by simp [hq])
      have n1 : 0 ≤ p.misfitSum := div_nonneg (sq_nonneg _) hp.le
      have n2 : 0 ≤ (L.map (·.misfitSum)).sum := by
        apply List.sum_nonneg
        intro x hx
        obtain ⟨p, -, rfl⟩ := List.mem_map.1 hx
        exact div_nonneg (sq_nonneg _) (by positivity)
      have z : p.misfitSum = 0 ↔ p.expPlus + p.expMinus = p.calcPlus + p.calcMinus + p.bkg := by
        unfold Point.misfitSum
        rw [div_eq_zero_iff, or_iff_left hp.ne', sq_eq_zero_iff]
        constructor <;> intro h <;> linarith
      rw [List.map_cons, List.sum_cons, List.forall_mem_cons, ← z, ← i]
      constructor
      · intro h; constructor <;> linarith
      · rintro ⟨h1, h2⟩; rw [h1, h2, add_zero]
  rw [key _ fun p hp => h p (List.mem_of_mem_filter hp)]
  constructor
  · intro H p hp he
    exact H p (List.mem_filter.2 ⟨hp, by simp [he]⟩)
  · intro H p hp
    have := List.mem_filter.1 hp
    exact H p this.1 (by simpa using this.2)

/-- excluded points do not matter as long as only the sum of the patterns is fitted and their errors are not zero -/
theorem chiPowder_excluded_irrelevant {l l' : List Point} (h : ∀ p ∈ l, p.Good) (h' : ∀ p ∈ l', p.Good)
    (he : (l.filter fun p => !p.excluded) = l'.filter fun p => !p.excluded) : chiPowder true false l = chiPowder true false l' := by
  rw [chiPowder_spec h, chiPowder_spec h', he]
  simp

/-- defect: in the difference of the patterns the excluded points count -/
theorem excluded_in_difference {l : List Point} (h : ∀ p ∈ l, p.Good) {p : Point} (hp : p.Good) (hx : p.excluded = true)
    (hne : p.expPlus - p.expMinus ≠ p.calcPlus - p.calcMinus) (fSum : Bool) :
    ∃ x y : ℝ, (chiPowder fSum true l).1 = .fin x ∧ (chiPowder fSum true (p :: l)).1 = .fin y ∧ x < y ∧
      (chiPowder fSum true (p :: l)).2 = (chiPowder fSum true l).2 + 1 := by
  have hl : ∀ q ∈ p :: l, q.Good := by
    intro q hq
    rcases List.mem_cons.1 hq with rfl | hq
    · exact hp
    · exact h q hq
  have e1 := chiPowder_spec h fSum true
  have e2 := chiPowder_spec hl fSum true
  refine ⟨_, _, congrArg Prod.fst e1, congrArg Prod.fst e2, ?_, ?_⟩
  · have hv := var_pos hp
    have : 0 < p.misfitDiff := by
      unfold Point.misfitDiff
      apply div_pos _ hv
      apply lt_of_le_of_ne (sq_nonneg _)
      intro e
      have := sq_eq_zero_iff.1 e.symm
      exact hne (by linarith)
    rw [List.filter_cons_of_neg (by simp [hx])]
    simp only [if_true, List.map_cons, List.sum_cons]
    linarith
  · rw [e1, e2, List.filter_cons_of_neg (by simp [hx])]
    simp only [if_true, List.length_cons]
    omega

/-- defect: an excluded point with the error zero makes chi squared `1e30`, whatever the other points are -/
theorem excluded_zero_error {l : List Point} {p : Point} (hp : p ∈ l) (hx : p.excluded = true) (hz : ¬ p.Good) (fDiff : Bool) :
    (chiPowder true fDiff l).1 = .fin (10 ^ 30) := by
  have h1 : chiSum l = .nan := by
    unfold chiSum
    apply fold_nan
    right
    refine List.mem_map.2 ⟨p, hp, ?_⟩
    rw [sqDiv_bad hz, hx]
    split <;> rfl
  unfold chiPowder
  rw [h1]
  rfl

/-- a measured point with the error zero makes it `1e30` when it is met exactly -/
theorem included_zero_error {l : List Point} {p : Point} (hp : p ∈ l) (hz : ¬ p.Good)
    (he : p.expPlus + p.expMinus = p.calcPlus + p.calcMinus + p.bkg) (fDiff : Bool) :
    (chiPowder true fDiff l).1 = .fin (10 ^ 30) := by
  have h1 : chiSum l = .nan := by
    unfold chiSum
    apply fold_nan
    right
    refine List.mem_map.2 ⟨p, hp, ?_⟩
    rw [sqDiv_bad hz, if_pos (by linarith)]
    rfl
  unfold chiPowder
  rw [h1]
  rfl

/-- non-vacuity -/
example : (⟨3, 1, 2, 1, true, 1, 1, 1⟩ : Point).Good ∧ (⟨3, 1, 2, 1, true, 1, 1, 1⟩ : Point).misfitSum = 2 ∧ (⟨3, 1, 2, 1, true, 1, 1, 1⟩ : Point).misfitDiff = 1 / 2 := by
  refine ⟨Or.inl one_ne_zero, ?_, ?_⟩ <;> norm_num [Point.misfitSum, Point.misfitDiff]

end Cryspy.Chi
