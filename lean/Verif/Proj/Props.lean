import Verif.Proj.Model
import Verif.Sect.Props
import Mathlib.Algebra.BigOperators.Group.List.Lemmas
import Mathlib.Algebra.Order.BigOperators.Group.List

/-!
# What a projection shows
-/

namespace Cryspy.Proj

open Cryspy.Powder Cryspy.Sect

/-! ## Specification -/

/-- mean of a list -/
noncomputable def mean (l : List ℝ) : ℝ := l.sum / l.length

/-- measured and not excluded -/
def Px.Counts (p : Px) : Prop := p.excluded = false ∧ ∃ x, p.expSum = some x
/-- both intensities are measured -/
def Px.Both (p : Px) : Prop := ∃ a b s t, p.exp = .pol (some a) (some b) s t

noncomputable instance (p : Px) : Decidable p.Counts := Classical.dec _
noncomputable instance (p : Px) : Decidable p.Both := Classical.dec _

/-- the pixels of bin `k` fulfilling a condition -/
noncomputable def inBin (g0 g1 gmin : ℝ) (l : List Px) (P : Px → Prop) [DecidablePred P] (k : ℕ) : List Px :=
  l.filter fun p => decide (index g0 g1 gmin p = k ∧ P p)

/-! ## Sums -/

theorem foldl_addO (l : List ℝ) (a : ℝ) : (l.map some).foldl addO (some a) = some (a + l.sum) := by
  induction l generalizing a with
  | nil => simp
  | cons b l ih =>
    rw [List.map_cons, List.foldl_cons, show addO (some a) (some b) = some (a + b) from rfl, ih, List.sum_cons, add_assoc]

theorem sumO_some (l : List ℝ) : sumO (l.map some) = some l.sum := by
  unfold sumO
  rw [foldl_addO, zero_add]

theorem included_iff (p : Px) : p.included = true ↔ p.Counts := by
  unfold Px.included Px.Counts
  rcases p.expSum with _ | x <;> cases p.excluded <;> simp

theorem nonan_iff (p : Px) : p.nonan = true ↔ p.Both := by
  unfold Px.nonan Px.Both Px.expDiff
  rcases p.exp with ⟨_ | a, _ | b, s, t⟩ | ⟨a, s⟩ <;> simp [subO]

/-- a bin with pixels shows the means and the error of the mean -/
theorem bin_spec (idx : Px → ℤ) (flag : Px → Bool) (c : Px → ℝ) (e : Px → Option ℝ) (l : List Px) (i : ℤ) (he : ∀ p, flag p = true → ∃ x, e p = some x)
    (f : List Px) (hf : l.filter (fun p => decide (idx p = i) && flag p) = f) :
    bin idx flag c e l i = if f = [] then (none, none, none) else
      (some (mean (f.map c)), some (mean (f.map fun p => (e p).getD 0)), some (√((f.map Px.var).sum) / f.length)) := by
  unfold bin
  simp only [hf]
  by_cases h : f = []
  · rw [if_pos h, if_neg (by simp [h])]
  · rw [if_neg h, if_pos (fun h' => h (List.length_eq_zero_iff.1 h'))]
    have e1 : (f.map fun p => some (c p)) = (f.map c).map some := by rw [List.map_map]; rfl
    have e2 : f.map e = (f.map fun p => (e p).getD 0).map some := by
      rw [List.map_map]
      apply List.map_congr_left
      intro p hp
      rw [← hf] at hp
      have := (List.mem_filter.1 hp).2
      rw [Bool.and_eq_true] at this
      obtain ⟨x, hx⟩ := he p this.2
      simp [hx]
    rw [e1, e2, sumO_some, sumO_some]
    simp [addO, divO, mean]

/-! ## C90 -/

theorem filter_eq {P : Px → Prop} [DecidablePred P] {flag : Px → Bool} (hP : ∀ p, flag p = true ↔ P p) (g0 g1 gmin : ℝ) (l : List Px) (k : ℕ) :
    l.filter (fun p => decide (index g0 g1 gmin p = (k : ℤ)) && flag p) = inBin g0 g1 gmin l P k := by
  unfold inBin
  apply List.filter_congr
  intro p _
  rw [Bool.eq_iff_iff, Bool.and_eq_true, decide_eq_true_eq, decide_eq_true_eq, hP]

theorem maxIndex_spec {l : List ℤ} (h : l ≠ []) : maxIndex l ∈ l ∧ ∀ a ∈ l, a ≤ maxIndex l := by
  cases l with
  | nil => exact absurd rfl h
  | cons a l =>
    clear h
    unfold maxIndex
    simp only
    induction l generalizing a with
    | nil => simp
    | cons b l ih =>
      rw [List.foldl_cons]
      obtain ⟨h1, h2⟩ := ih (max a b)
      constructor
      · rcases List.mem_cons.1 h1 with h | h
        · rw [h]
          rcases max_choice a b with h' | h' <;> rw [h'] <;> simp
        · exact List.mem_cons_of_mem _ (List.mem_cons_of_mem _ h)
      · intro x hx
        rcases List.mem_cons.1 hx with rfl | hx
        · exact (le_max_left _ _).trans (h2 _ List.mem_cons_self)
        · rcases List.mem_cons.1 hx with rfl | hx
          · exact (le_max_right _ _).trans (h2 _ List.mem_cons_self)
          · exact h2 x (List.mem_cons_of_mem _ hx)

/-- **C90.** The projections are given at the angles `γ_min + k·step`, `k` from zero, below the largest angle of a pixel.  For every such angle the sum
shows the means of the calculated and of the measured intensities over the measured pixels of the bin that are not excluded, with the error of this
mean, and nothing (`nan`) if there are none; the difference shows the same for the differences over the pixels with both intensities -/
theorem project_spec (polarized : Bool) (g0 g1 gmin : ℝ) (l : List Px) (hpos : 0 ≤ maxIndex (l.map (index g0 g1 gmin))) :
    ∃ o, project polarized g0 g1 gmin l = some o ∧
      let n := (maxIndex (l.map (index g0 g1 gmin))).toNat
      o.ttheta = (List.range n).map (fun k : ℕ => gmin + k * round5 (g1 - g0)) ∧
      o.sum = (List.range n).map (fun k : ℕ =>
        let f := inBin g0 g1 gmin l Px.Counts k
        if f = [] then (none, none, none) else
          (some (mean (f.map Px.calcSum)), some (mean (f.map fun p => p.expSum.getD 0)), some (√((f.map Px.var).sum) / f.length))) ∧
      (polarized = true → o.diff = (List.range n).map fun k : ℕ =>
        let f := inBin g0 g1 gmin l Px.Both k
        if f = [] then (none, none, none) else
          (some (mean (f.map Px.calcDiff)), some (mean (f.map fun p => p.expDiff.getD 0)), some (√((f.map Px.var).sum) / f.length))) := by
  unfold project
  simp only [if_neg (not_lt.2 hpos)]
  refine ⟨_, rfl, ?_, ?_, ?_⟩
  · apply List.map_congr_left
    intro k hk
    have hn : 0 < (maxIndex (l.map (index g0 g1 gmin))).toNat := lt_of_le_of_lt (Nat.zero_le _) (List.mem_range.1 hk)
    have hc : ((maxIndex (l.map (index g0 g1 gmin)) : ℤ) : ℝ) = ((maxIndex (l.map (index g0 g1 gmin))).toNat : ℝ) := by
      conv_lhs => rw [← Int.toNat_of_nonneg hpos]
      push_cast
      rfl
    have hn' : ((maxIndex (l.map (index g0 g1 gmin))).toNat : ℝ) ≠ 0 := by exact_mod_cast hn.ne'
    rw [hc]
    field_simp
    ring
  · apply List.map_congr_left
    intro k _
    exact bin_spec _ _ _ _ _ _ (fun p hp => ((included_iff p).1 hp).2) _ (filter_eq included_iff g0 g1 gmin l k)
  · intro hpol
    apply List.map_congr_left
    intro k _
    rw [if_pos hpol]
    refine bin_spec _ _ _ _ _ _ (fun p hp => ?_) _ (filter_eq nonan_iff g0 g1 gmin l k)
    obtain ⟨a, b, s, t, h⟩ := (nonan_iff p).1 hp
    exact ⟨a - b, by simp [Px.expDiff, h, subO]⟩

/-- the angle of a pixel in a bin is the angle of the bin up to half a step -/
theorem bin_near {g0 g1 gmin : ℝ} (hs : 0 < round5 (g1 - g0)) {p : Px} {k : ℕ} (h : index g0 g1 gmin p = k) :
    |p.ttheta - (gmin + k * round5 (g1 - g0))| ≤ round5 (g1 - g0) / 2 := by
  have hr := rint_spec ((p.ttheta - gmin) / round5 (g1 - g0))
  unfold index at h
  rw [h] at hr
  generalize round5 (g1 - g0) = s at *
  have e : p.ttheta - (gmin + k * s) = -((((k : ℤ) : ℝ) - (p.ttheta - gmin) / s) * s) := by
    push_cast
    field_simp
    ring
  rw [e, abs_neg, abs_mul, abs_of_pos hs]
  nlinarith [hr, abs_nonneg (((k : ℤ) : ℝ) - (p.ttheta - gmin) / s)]

/-- and a pixel nearer than half a step belongs to the bin -/
theorem near_bin {g0 g1 gmin : ℝ} (hs : 0 < round5 (g1 - g0)) {p : Px} {k : ℕ}
    (h : |p.ttheta - (gmin + k * round5 (g1 - g0))| < round5 (g1 - g0) / 2) : index g0 g1 gmin p = k := by
  have hr := rint_spec ((p.ttheta - gmin) / round5 (g1 - g0))
  unfold index
  generalize round5 (g1 - g0) = s at *
  have e : p.ttheta - (gmin + k * s) = ((p.ttheta - gmin) / s - k) * s := by field_simp; ring
  rw [e, abs_mul, abs_of_pos hs] at h
  have h2 : |(p.ttheta - gmin) / s - k| < 1 / 2 := by
    by_contra hc
    push Not at hc
    nlinarith
  generalize (p.ttheta - gmin) / s = x at *
  have h3 : |((rint x : ℤ) : ℝ) - (k : ℤ)| < 1 := by
    have : ((rint x : ℤ) : ℝ) - (k : ℤ) = ((rint x : ℝ) - x) + (x - k) := by push_cast; ring
    rw [this]
    exact lt_of_le_of_lt (abs_add_le _ _) (by linarith)
  have h4 : |rint x - (k : ℤ)| < 1 := by exact_mod_cast h3
  rw [Int.abs_lt_one_iff] at h4
  omega

theorem sum_split (l : List Px) (c : Px → ℝ) (A B C : Px → Prop) [DecidablePred A] [DecidablePred B] [DecidablePred C] (h : ∀ p, C p ↔ A p ∨ B p)
    (hd : ∀ p, A p → ¬ B p) :
    ((l.filter fun p => decide (C p)).map c).sum = ((l.filter fun p => decide (A p)).map c).sum + ((l.filter fun p => decide (B p)).map c).sum := by
  induction l with
  | nil => simp
  | cons p l ih =>
    simp only [List.filter_cons]
    by_cases hA : A p
    · have hB := hd p hA
      have hC := (h p).2 (Or.inl hA)
      simp only [hA, hB, hC, decide_true, decide_false, if_true, Bool.false_eq_true, if_false, List.map_cons, List.sum_cons, ih]
      ring
    · by_cases hB : B p
      · have hC := (h p).2 (Or.inr hB)
        simp only [hA, hB, hC, decide_true, decide_false, if_true, Bool.false_eq_true, if_false, List.map_cons, List.sum_cons, ih]
        ring
      · have hC : ¬ C p := fun hc => ((h p).1 hc).elim hA hB
        simp only [hA, hB, hC, decide_false, Bool.false_eq_true, if_false, ih]

/-- nothing is counted twice: the sums over the bins add up to the sum over all the counted pixels that have a bin -/
theorem total_conserved (g0 g1 gmin : ℝ) (l : List Px) (P : Px → Prop) [DecidablePred P] (c : Px → ℝ) (n : ℕ) :
    ((List.range n).map fun k : ℕ => ((inBin g0 g1 gmin l P k).map c).sum).sum =
      ((l.filter fun p => decide (P p ∧ 0 ≤ index g0 g1 gmin p ∧ index g0 g1 gmin p < n)).map c).sum := by
  induction n with
  | zero =>
    have : (l.filter fun p => decide (P p ∧ 0 ≤ index g0 g1 gmin p ∧ index g0 g1 gmin p < ((0 : ℕ) : ℤ))) = [] := by
      rw [List.filter_eq_nil_iff]
      intro p _ h
      have := of_decide_eq_true h
      have h2 := this.2.2
      push_cast at h2
      omega
    rw [this]
    simp
  | succ n ih =>
    rw [List.range_succ, List.map_append, List.sum_append, ih]
    simp only [List.map_cons, List.map_nil, List.sum_cons, List.sum_nil, add_zero]
    symm
    apply sum_split
    · intro p
      push_cast
      constructor
      · rintro ⟨h1, h2, h3⟩
        by_cases h : index g0 g1 gmin p = n
        · exact Or.inr ⟨h, h1⟩
        · exact Or.inl ⟨h1, h2, by omega⟩
      · rintro (⟨h1, h2, h3⟩ | ⟨h1, h2⟩)
        · exact ⟨h1, h2, by omega⟩
        · exact ⟨h2, by omega, by omega⟩
    · rintro p ⟨_, _, h3⟩ ⟨h, _⟩
      omega

/-- the order of the pixels does not matter -/
theorem order_irrelevant {l l' : List Px} (h : l.Perm l') (g0 g1 gmin : ℝ) (P : Px → Prop) [DecidablePred P] (k : ℕ) (c : Px → ℝ) :
    mean ((inBin g0 g1 gmin l P k).map c) = mean ((inBin g0 g1 gmin l' P k).map c) := by
  have hp : ((inBin g0 g1 gmin l P k).map c).Perm ((inBin g0 g1 gmin l' P k).map c) := (h.filter _).map c
  unfold mean
  rw [hp.sum_eq, hp.length_eq]

/-- where the calculation meets all counted pixels of a bin, the projections agree -/
theorem agreement {f : List Px} (h : ∀ p ∈ f, p.expSum = some p.calcSum) : mean (f.map Px.calcSum) = mean (f.map fun p => p.expSum.getD 0) := by
  congr 1
  apply List.map_congr_left
  intro p hp
  rw [h p hp]
  rfl

/-- where both calculated states of the flipper (with half the background in each) are the measured ones, the projected differences agree -/
theorem agreement_diff {f : List Px} (h : ∀ p ∈ f, ∃ s t, p.exp = .pol (some (p.plus + p.bkg / 2)) (some (p.minus + p.bkg / 2)) s t) :
    mean (f.map Px.calcDiff) = mean (f.map fun p => p.expDiff.getD 0) ∧ mean (f.map Px.calcSum) = mean (f.map fun p => p.expSum.getD 0) := by
  constructor
  all_goals
    congr 1
    apply List.map_congr_left
    intro p hp
    obtain ⟨s, t, e⟩ := h p hp
    simp only [Px.expDiff, Px.expSum, e, subO, addO, Option.getD_some, Px.calcDiff, Px.calcSum]
    ring

/-- the two states of the flipper can be told from the projected sum, difference and background -/
theorem states_recovered (f : List Px) :
    mean (f.map Px.plus) = (mean (f.map Px.calcSum) - mean (f.map Px.bkg) + mean (f.map Px.calcDiff)) / 2 ∧
    mean (f.map Px.minus) = (mean (f.map Px.calcSum) - mean (f.map Px.bkg) - mean (f.map Px.calcDiff)) / 2 := by
  have key : ∀ l : List Px, (l.map Px.calcSum).sum = (l.map Px.plus).sum + (l.map Px.minus).sum + (l.map Px.bkg).sum ∧
      (l.map Px.calcDiff).sum = (l.map Px.plus).sum - (l.map Px.minus).sum := by
    intro l
    induction l with
    | nil => simp
    | cons p l ih =>
      simp only [List.map_cons, List.sum_cons, ih.1, ih.2, Px.calcSum, Px.calcDiff]
      constructor <;> ring
  obtain ⟨h1, h2⟩ := key f
  unfold mean
  rw [h1, h2]
  simp only [List.length_map]
  constructor <;> ring

/-- a mean lies between bounds of its terms -/
theorem mean_between {l : List ℝ} (hl : l ≠ []) {a b : ℝ} (h : ∀ x ∈ l, a ≤ x ∧ x ≤ b) : a ≤ mean l ∧ mean l ≤ b := by
  have hn : (0 : ℝ) < l.length := by exact_mod_cast List.length_pos_iff.2 hl
  unfold mean
  rw [le_div_iff₀ hn, div_le_iff₀ hn]
  clear hn hl
  induction l with
  | nil => simp
  | cons x l ih =>
    obtain ⟨h1, h2⟩ := ih fun y hy => h y (List.mem_cons_of_mem _ hy)
    obtain ⟨h3, h4⟩ := h x List.mem_cons_self
    rw [List.sum_cons, List.length_cons]
    push_cast
    constructor <;> linarith

/-! ## What goes wrong -/

/-- defect: the pixels of the largest angle are in no bin; if there are pixels at all, at least one is lost -/
theorem last_bin_lost (g0 g1 gmin : ℝ) (l : List Px) (hl : l ≠ []) :
    ∃ p ∈ l, ∀ k < (maxIndex (l.map (index g0 g1 gmin))).toNat, index g0 g1 gmin p ≠ k := by
  obtain ⟨h1, _⟩ := maxIndex_spec (l := l.map (index g0 g1 gmin)) (by simpa using hl)
  obtain ⟨p, hp, he⟩ := List.mem_map.1 h1
  refine ⟨p, hp, fun k hk h => ?_⟩
  rw [← he] at hk
  omega

/-- defect: so are the pixels with an angle more than half a step below the least `γ` -/
theorem low_angle_lost {g0 g1 gmin : ℝ} (hs : 0 < round5 (g1 - g0)) {p : Px} (h : p.ttheta < gmin - round5 (g1 - g0) / 2) (k : ℕ) :
    index g0 g1 gmin p ≠ k := by
  intro hk
  have := bin_near hs hk
  rw [abs_le] at this
  have hk0 : 0 ≤ (k : ℝ) * round5 (g1 - g0) := by positivity
  linarith [this.1]

/-- if all pixels belong to the first bin, nothing is shown -/
theorem one_bin_empty (polarized : Bool) {g0 g1 gmin : ℝ} {l : List Px} (h : ∀ p ∈ l, index g0 g1 gmin p = 0) :
    project polarized g0 g1 gmin l = some ⟨[], [], []⟩ := by
  have : maxIndex (l.map (index g0 g1 gmin)) = 0 := by
    by_cases hl : l = []
    · subst hl; rfl
    · obtain ⟨h1, _⟩ := maxIndex_spec (l := l.map (index g0 g1 gmin)) (by simpa using hl)
      obtain ⟨p, hp, he⟩ := List.mem_map.1 h1
      rw [← he, h p hp]
  unfold project
  simp [this]

/-- defect: an excluded pixel enters the difference: it counts there exactly when both of its intensities are measured, excluded or not -/
theorem excluded_in_difference (g0 g1 gmin : ℝ) (l : List Px) (p : Px) (hp : p ∈ l) (hb : p.Both) (hx : p.excluded = true) (k : ℕ)
    (hk : index g0 g1 gmin p = k) : p ∈ inBin g0 g1 gmin l Px.Both k ∧ p ∉ inBin g0 g1 gmin l Px.Counts k := by
  constructor
  · exact List.mem_filter.2 ⟨hp, decide_eq_true ⟨hk, hb⟩⟩
  · intro h
    have := (of_decide_eq_true (List.mem_filter.1 h).2).2.1
    rw [hx] at this
    cases this

/-! ## An instance -/

/-- a pixel in the plane of the instrument has its `γ` as scattering angle -/
theorem ttheta_in_plane {p : Px} (hn : p.nu = 0) (h0 : 0 ≤ p.gamma) (h1 : p.gamma ≤ 180) : p.ttheta = p.gamma := by
  have hpi := Real.pi_pos
  unfold Px.ttheta ttheta_by
  simp only [hn, zero_mul, zero_div, Real.cos_zero, one_mul]
  rw [Real.arccos_cos (by positivity) (by rw [div_le_iff₀ (by norm_num)]; nlinarith)]
  field_simp

/-- pixels at 4, 5 and 6 degrees, the second excluded -/
def ex : List Px := [⟨4, 0, 1, 2, 3, .pol (some 5) (some 6) 3 4, false⟩, ⟨5, 0, 1, 1, 1, .pol (some 7) (some 7) 1 1, true⟩,
  ⟨6, 0, 1, 1, 1, .pol (some 7) (some 7) 1 1, false⟩]

theorem example_index : ex.map (index 4 5 4) = [0, 1, 2] := by
  have hr : round5 (5 - 4 : ℝ) = 1 := by
    unfold round5
    have : ((5 : ℝ) - 4) * 10 ^ 5 = ((10 ^ 5 : ℤ) : ℝ) := by norm_num
    rw [this, rint_int]
    norm_num
  have key (p : Px) (hn : p.nu = 0) (h0 : 0 ≤ p.gamma) (h1 : p.gamma ≤ 180) (n : ℤ) (hg : p.gamma - 4 = n) : index 4 5 4 p = n := by
    unfold index
    rw [hr, div_one, ttheta_in_plane hn h0 h1, hg, rint_int]
  simp only [ex, List.map_cons, List.map_nil]
  rw [key _ rfl (by norm_num) (by norm_num) 0 (by norm_num), key _ rfl (by norm_num) (by norm_num) 1 (by norm_num),
    key _ rfl (by norm_num) (by norm_num) 2 (by norm_num)]

/-- the projection has two bins: the first shows the first pixel, the second (its only pixel excluded) nothing in the sum; the third pixel is lost -/
theorem example_project : ∃ o, project true 4 5 4 ex = some o ∧ o.ttheta.length = 2 ∧
    o.sum = [(some 6, some 11, some 5), (none, none, none)] := by
  have hm : maxIndex (ex.map (index 4 5 4)) = 2 := by rw [example_index]; rfl
  obtain ⟨o, ho, h1, h2, _⟩ := project_spec true 4 5 4 ex (by rw [hm]; norm_num)
  refine ⟨o, ho, ?_, ?_⟩
  · rw [h1, hm]; rfl
  · rw [h2, hm]
    have hi := example_index
    simp only [ex, List.map_cons, List.map_nil, List.cons.injEq, and_true] at hi
    obtain ⟨i0, i1, i2⟩ := hi
    have b0 : inBin 4 5 4 ex Px.Counts 0 = [⟨4, 0, 1, 2, 3, .pol (some 5) (some 6) 3 4, false⟩] := by
      simp only [inBin, ex, List.filter_cons, i0, i1, i2, List.filter_nil]
      simp [Px.Counts, Px.expSum, addO]
    have b1 : inBin 4 5 4 ex Px.Counts 1 = [] := by
      simp only [inBin, ex, List.filter_cons, i0, i1, i2, List.filter_nil]
      simp [Px.Counts]
    show (List.range 2).map _ = _
    simp only [List.range_succ, List.range_zero, List.nil_append, List.cons_append, List.map_cons, List.map_nil, b0, b1]
    have h25 : √(3 ^ 2 + 4 ^ 2 : ℝ) = 5 := by
      rw [show (3 ^ 2 + 4 ^ 2 : ℝ) = 5 ^ 2 by norm_num, Real.sqrt_sq (by norm_num)]
    simp [mean, Px.calcSum, Px.expSum, addO, Px.var, h25]
    norm_num

end Cryspy.Proj
