import Verif.Wyck.Lemmas
import Verif.Gen.WyckParts
import Mathlib.Tactic.NormNum
import Mathlib.Tactic.NormNum.OfScientific
import Mathlib.Algebra.Order.Round

/-!
# C42: recognising special positions

`OnPosition p x` is the meaning of "the point `x` is on the position `p`": the coordinates are, up
to lattice translations, those of the position for some values of its parameters.
-/

namespace Cryspy.Wyck

/-- Specification: `x` is on the position, modulo the lattice, for some parameters `u`. -/
def OnPosition (p : Pos) (x : V) : Prop :=
  ∃ u : V, ∀ k, ∃ n : ℤ, x k = p.r k 0 * u 0 + p.r k 1 * u 1 + p.r k 2 * u 2 + p.b k + n

theorem onPosition_iff (p : Pos) (x : V) :
    OnPosition p x ↔ ∃ u, ∀ k, Cong (dot (p.r k) u) (mod1 (x k - p.b k)) := by
  constructor
  · rintro ⟨u, h⟩
    refine ⟨u, fun k => Cong.trans ?_ (mod1_cong _).symm⟩
    obtain ⟨n, hn⟩ := h k
    exact ⟨-n, by rw [hn]; unfold dot; push_cast; ring⟩
  · rintro ⟨u, h⟩
    refine ⟨u, fun k => ?_⟩
    obtain ⟨n, hn⟩ := (h k).trans (mod1_cong _)
    exact ⟨-n, by unfold dot at hn; push_cast; linarith⟩

/-- **C42** If `is_solution_a_b` answers yes, the system has a solution modulo 1: for every matrix and
every right side. -/
theorem solution_exists (a : Fin 3 → V) (b : V) (h : isSolution a b = true) :
    ∃ x : V, ∀ k, ∃ n : ℤ, a k 0 * x 0 + a k 1 * x 1 + a k 2 * x 2 = b k + n := by
  unfold isSolution at h
  by_cases hb : b 0 = 0 ∧ b 1 = 0 ∧ b 2 = 0
  · exact ⟨0, fun k => ⟨0, by fin_cases k <;> simp [hb]⟩⟩
  · rw [if_neg hb] at h
    obtain ⟨x, h0, h1, h2⟩ := step1_sound _ _ _ _ _ _ h
    refine ⟨x, fun k => ?_⟩
    have h0' : Cong (dot (a 0) x) (b 0) := by rw [h0]; exact mod1_cong _
    fin_cases k
    · exact h0'
    · exact h1.trans (mod1_cong _)
    · exact h2.trans (mod1_cong _)

/-- **C42** A point that `is_good_for_mask` accepts is on the position. -/
theorem recognised_is_on (p : Pos) (x : V) (h : isGoodForMask p x = true) : OnPosition p x :=
  (onPosition_iff p x).2 (solution_exists _ _ h)

/-- **C42** A point that `is_valid_for_fract` accepts is on one of the coordinates of the position. -/
theorem valid_is_on (w : Item) (x : V) (h : w.isValid x = true) : ∃ p ∈ w.positions, OnPosition p x := by
  obtain ⟨p, hp, h⟩ := List.any_eq_true.1 h
  exact ⟨p, hp, recognised_is_on p x h⟩

/-- The matrix with the given nine coefficients. -/
def matrixOf (l : List ℤ) : Fin 3 → V := fun k j => ((l.getD (3 * k.val + j.val) 0 : ℤ) : ℚ)

/-- The six linear parts of the table that begin with `±(2x, x)`. -/
def doubled : List (List ℤ) :=
  [[2, 0, 0, 1, 0, 0, 0, 0, 0], [2, 0, 0, 1, 0, 0, 0, 0, 1], [2, 0, 0, 1, 0, 0, 0, 0, -1],
   [-2, 0, 0, -1, 0, 0, 0, 0, 0], [-2, 0, 0, -1, 0, 0, 0, 0, 1], [-2, 0, 0, -1, 0, 0, 0, 0, -1]]

set_option maxRecDepth 100000 in
theorem parts_ok : linearParts.all (fun l => doubled.contains l || ok1 (matrixOf l)) = true := by decide +kernel

set_option maxRecDepth 100000 in
theorem doubled_used : doubled.all (fun l => linearParts.contains l) = true := by decide +kernel

/-- **C42** For all coordinates of all positions of the Wyckoff table, except those of the form
`±(2x, x, ..)`: `is_good_for_mask` accepts exactly the points on the position.
For the six exceptional forms see `half_missed`. -/
theorem recognised_iff_on (l : List ℤ) (hl : l ∈ linearParts) (hd : l ∉ doubled) (b x : V) :
    isGoodForMask ⟨matrixOf l, b⟩ x = true ↔ OnPosition ⟨matrixOf l, b⟩ x := by
  refine ⟨recognised_is_on _ _, fun h => ?_⟩
  obtain ⟨u, hu⟩ := (onPosition_iff _ x).1 h
  unfold isGoodForMask isSolution
  split_ifs with h0
  · rfl
  · have := List.all_eq_true.1 parts_ok l hl
    have hok : ok1 (matrixOf l) = true := by
      rcases Bool.or_eq_true_iff.1 this with h | h
      · exact absurd (by simpa using h) hd
      · exact h
    exact step1_complete _ _ hok u hu

theorem fract_eq (x : ℚ) : mod1 x = Int.fract x := rfl

/-- **C42, failure** For the coordinates `(2x, x, ..)` and `(-2x, -x, ..)` half of the points of the
position are not recognised: exactly those whose second coordinate, less the offset, has a
fractional part of one half or more. -/
theorem half_missed (s c : ℚ) (hs : s = 1 ∨ s = -1) (b x : V)
    (h : OnPosition ⟨![![2 * s, 0, 0], ![s, 0, 0], ![0, 0, c]], b⟩ x) :
    isGoodForMask ⟨![![2 * s, 0, 0], ![s, 0, 0], ![0, 0, c]], b⟩ x = true ↔ Int.fract (x 1 - b 1) < 1 / 2 := by
  have hs0 : s ≠ 0 := by rcases hs with h | h <;> rw [h] <;> norm_num
  obtain ⟨u, hu⟩ := h
  obtain ⟨n0, h0⟩ := hu 0
  obtain ⟨n1, h1⟩ := hu 1
  obtain ⟨n2, h2⟩ := hu 2
  simp only [Matrix.cons_val_zero, Matrix.cons_val_one, Matrix.cons_val, zero_mul, add_zero, zero_add] at h0 h1 h2
  -- the second coordinate
  set w := x 1 - b 1 with hw
  have hw1 : s * u 0 = w - n1 := by rw [hw, h1]; ring
  have e0 : mod1 (x 0 - b 0) = Int.fract (2 * w) := by
    rw [fract_eq, show x 0 - b 0 = 2 * w + ((n0 - 2 * n1 : ℤ) : ℚ) by push_cast; rw [h0]; linear_combination 2 * hw1]
    exact Int.fract_add_intCast _ _
  have e1 : mod1 w = Int.fract w := rfl
  -- the elimination
  have hp0 : pivot ![2 * s, 0, 0] [] = some 0 := by
    unfold pivot
    rw [show List.finRange 3 = [0, 1, 2] from rfl]
    simp [hs0]
  have hmain : step1 ![2 * s, 0, 0] (mod1 (mod1 (x 0 - b 0))) ![s, 0, 0] (mod1 (mod1 w)) ![0, 0, c]
      (mod1 (mod1 (x 2 - b 2))) = true ↔ Int.fract (Int.fract w - Int.fract (2 * w) / 2) = 0 := by
    rw [mod1_idem, mod1_idem, mod1_idem, e0, e1]
    unfold step1 oneLine
    simp only [hp0]
    have hz : (eliminate ![s, 0, 0] (Int.fract w) 0 (fun j => ![2 * s, 0, 0] j / ![2 * s, 0, 0] 0)
        (Int.fract (2 * w) / ![2 * s, 0, 0] 0)) = (0, Int.fract (Int.fract w - Int.fract (2 * w) / 2)) := by
      unfold eliminate
      refine Prod.ext ?_ ?_
      · funext j
        fin_cases j
        · simp; field_simp; ring
        · simp
        · simp
      · simp only [Matrix.cons_val_zero]
        rw [fract_eq]
        congr 2
        field_simp
    have hz3 : (eliminate ![0, 0, c] (mod1 (x 2 - b 2)) 0 (fun j => ![2 * s, 0, 0] j / ![2 * s, 0, 0] 0)
        (Int.fract (2 * w) / ![2 * s, 0, 0] 0)) = (![0, 0, c], mod1 (x 2 - b 2)) := by
      unfold eliminate
      refine Prod.ext ?_ ?_
      · funext j
        fin_cases j <;> simp
      · simp [mod1_idem]
    rw [hz, hz3]
    unfold step2 oneLine
    have hpz : pivot (0 : V) [0] = none := by
      unfold pivot
      rw [show List.finRange 3 = [0, 1, 2] from rfl]
      simp
    simp only [hpz]
    constructor
    · intro h
      by_contra hne
      simp [hne] at h
    · intro h
      rw [if_pos h]
      refine step3_complete _ _ _ (fun i hi => ?_) u ?_ (mod1_idem _)
      · rw [List.mem_singleton.1 hi]; rfl
      · refine Cong.trans ?_ (mod1_cong _).symm
        exact ⟨-n2, by simp [dot]; rw [h2]; ring⟩
  have hfw := Int.fract_nonneg w
  have hfw1 := Int.fract_lt_one w
  have key : Int.fract (Int.fract w - Int.fract (2 * w) / 2) = 0 ↔ Int.fract w < 1 / 2 := by
    have h2w : (2 * w : ℚ) = 2 * Int.fract w + ((2 * ⌊w⌋ : ℤ) : ℚ) := by
      have := Int.fract_add_floor w
      push_cast
      linarith
    rw [h2w, Int.fract_add_intCast]
    by_cases hlt : Int.fract w < 1 / 2
    · have : Int.fract (2 * Int.fract w) = 2 * Int.fract w := Int.fract_eq_self.2 ⟨by linarith, by linarith⟩
      rw [this]
      rw [show Int.fract w - 2 * Int.fract w / 2 = 0 by ring]
      simp only [Int.fract_zero, hlt]
    · have : Int.fract (2 * Int.fract w) = 2 * Int.fract w - 1 := by
        rw [Int.fract_eq_iff]
        exact ⟨by linarith, by linarith, ⟨1, by push_cast; ring⟩⟩
      rw [this, show Int.fract w - (2 * Int.fract w - 1) / 2 = 1 / 2 by ring]
      simp only [hlt, iff_false]
      rw [Int.fract_eq_self.2 ⟨by norm_num, by norm_num⟩]
      norm_num
  rw [← key, ← hmain]
  unfold isGoodForMask isSolution
  simp only [Matrix.cons_val_zero, Matrix.cons_val_one, Matrix.cons_val]
  split_ifs with hall
  · simp only [true_iff]
    rw [hmain, key]
    rw [← hw, e1] at hall
    rw [hall.2.1]; norm_num
  · rfl

/-- **C42** The position found by `get_wyckoff_for_fract` is one of the table, accepts the point, and no
other one that accepts it has a smaller multiplicity. -/
theorem getFor_spec (l : List Item) (x : V) (w : Item) (h : getFor l x = some w) :
    w ∈ l ∧ w.isValid x = true ∧ ∀ v ∈ l, v.isValid x = true → w.multiplicity ≤ v.multiplicity := by
  have aux : ∀ (m : List Item) (o : Option Item) (w : Item),
      m.foldl better o = some w →
      ((w ∈ m ∨ o = some w) ∧ (∀ v ∈ m, w.multiplicity ≤ v.multiplicity) ∧
        ∀ v, o = some v → w.multiplicity ≤ v.multiplicity) := by
    intro m
    induction m with
    | nil =>
      intro o w h
      simp only [List.foldl_nil] at h
      subst h
      exact ⟨Or.inr rfl, by simp, fun v hv => by rw [Option.some.injEq] at hv; rw [hv]⟩
    | cons a t ih =>
      intro o w h
      rw [List.foldl_cons] at h
      unfold better at h
      change t.foldl better _ = _ at h
      obtain ⟨h1, h2, h3⟩ := ih _ w h
      cases o with
      | none =>
        simp only at h1 h3
        refine ⟨Or.inl ?_, ?_, by simp⟩
        · rcases h1 with h1 | h1
          · exact List.mem_cons_of_mem _ h1
          · rw [Option.some.injEq] at h1; rw [h1]; exact List.mem_cons_self
        · intro v hv
          rcases List.mem_cons.1 hv with rfl | hv
          · exact h3 _ rfl
          · exact h2 v hv
      | some o =>
        by_cases hlt : a.multiplicity < o.multiplicity
        · simp only [if_pos hlt] at h1 h3
          have ha := h3 a rfl
          refine ⟨Or.inl ?_, ?_, ?_⟩
          · rcases h1 with h1 | h1
            · exact List.mem_cons_of_mem _ h1
            · rw [Option.some.injEq] at h1; rw [h1]; exact List.mem_cons_self
          · intro v hv
            rcases List.mem_cons.1 hv with rfl | hv
            · exact ha
            · exact h2 v hv
          · intro v hv
            rw [Option.some.injEq] at hv
            subst hv
            omega
        · simp only [if_neg hlt] at h1 h3
          have ho := h3 o rfl
          refine ⟨?_, ?_, ?_⟩
          · rcases h1 with h1 | h1
            · exact Or.inl (List.mem_cons_of_mem _ h1)
            · exact Or.inr h1
          · intro v hv
            rcases List.mem_cons.1 hv with rfl | hv
            · omega
            · exact h2 v hv
          · intro v hv
            rw [Option.some.injEq] at hv
            subst hv
            exact ho
  obtain ⟨h1, h2, -⟩ := aux _ _ _ h
  rcases h1 with h1 | h1
  · obtain ⟨hm, hv⟩ := List.mem_filter.1 h1
    exact ⟨hm, hv, fun v hv1 hv2 => h2 v (List.mem_filter.2 ⟨hv1, hv2⟩)⟩
  · simp at h1

/-- **C42** Nothing is found only if no position accepts the point. -/
theorem getFor_none (l : List Item) (x : V) : getFor l x = none ↔ ∀ w ∈ l, w.isValid x = false := by
  have aux : ∀ (m : List Item) (o : Option Item),
      m.foldl better o = none ↔ m = [] ∧ o = none := by
    intro m
    induction m with
    | nil => simp
    | cons a t ih =>
      intro o
      rw [List.foldl_cons, ih]
      cases o with
      | none => simp [better]
      | some o =>
        unfold better
        by_cases hlt : a.multiplicity < o.multiplicity <;> simp [hlt]
  unfold getFor
  rw [aux]
  simp [List.filter_eq_nil_iff]

/-- The general position accepts every point, so a table that contains it always has an answer. -/
theorem general_accepts (b x : V) : isGoodForMask ⟨matrixOf [1, 0, 0, 0, 1, 0, 0, 0, 1], b⟩ x = true := by
  rw [recognised_iff_on _ (by decide +kernel) (by decide +kernel)]
  refine ⟨fun k => x k - b k, fun k => ⟨0, ?_⟩⟩
  fin_cases k <;> simp [matrixOf]

/-- **C42** The points of `calc_xyz_mult` are as many as the position has coordinates; the atom is among them exactly when it has the
coordinates one of these gives for its own `x`, `y`, `z` (for atoms elsewhere on a special position see `xyzMult_wrong`). -/
theorem xyzMult_contains (l : List Item) (x : V) (w : Item) (h : getFor l x = some w) :
    ∃ pts, xyzMult l x = some (pts, w.multiplicity) ∧ pts.length = w.positions.length ∧
      ((∃ y ∈ pts, ∀ k, ∃ n : ℤ, y k = x k + n) ↔
        ∃ p ∈ w.positions, ∀ k, ∃ n : ℤ, x k = p.r k 0 * x 0 + p.r k 1 * x 1 + p.r k 2 * x 2 + p.b k + n) := by
  refine ⟨_, by unfold xyzMult; rw [h]; rfl, by simp, ?_, ?_⟩
  · rintro ⟨y, hy, hk⟩
    obtain ⟨p, hp, rfl⟩ := List.mem_map.1 hy
    refine ⟨p, hp, fun k => ?_⟩
    obtain ⟨n, hn⟩ := hk k
    obtain ⟨m, hm⟩ := mod1_cong (p.r k 0 * x 0 + p.r k 1 * x 1 + p.r k 2 * x 2 + p.b k)
    refine ⟨m - n, ?_⟩
    beta_reduce at hn
    rw [hm] at hn
    push_cast
    linarith
  · rintro ⟨p, hp, hx⟩
    refine ⟨_, List.mem_map.2 ⟨p, hp, rfl⟩, fun k => ?_⟩
    obtain ⟨n, hn⟩ := hx k
    obtain ⟨m, hm⟩ := mod1_cong (p.r k 0 * x 0 + p.r k 1 * x 1 + p.r k 2 * x 2 + p.b k)
    refine ⟨m - n, ?_⟩
    rw [hm]
    push_cast
    linarith

/-- Position `3d` of the space group `P 3 m 1` (156) and its general position `6e`, wyckoff.dat. -/
def table156 : List Item :=
  [⟨1, 6, [⟨![![1, 0, 0], ![0, 1, 0], ![0, 0, 1]], 0⟩, ⟨![![0, -1, 0], ![1, -1, 0], ![0, 0, 1]], 0⟩,
      ⟨![![-1, 1, 0], ![-1, 0, 0], ![0, 0, 1]], 0⟩, ⟨![![0, -1, 0], ![-1, 0, 0], ![0, 0, 1]], 0⟩,
      ⟨![![-1, 1, 0], ![0, 1, 0], ![0, 0, 1]], 0⟩, ⟨![![1, 0, 0], ![1, -1, 0], ![0, 0, 1]], 0⟩]⟩,
   ⟨2, 3, [⟨![![1, 0, 0], ![-1, 0, 0], ![0, 0, 1]], 0⟩, ⟨![![1, 0, 0], ![2, 0, 0], ![0, 0, 1]], 0⟩,
      ⟨![![-2, 0, 0], ![-1, 0, 0], ![0, 0, 1]], 0⟩]⟩]

/-- **C42, failure** An atom at `(2/5, 7/10, 0)` of `P 3 m 1` is on the mirror plane
(`(-2x, -x, z)` with `x = 3/10`), but is given the general position, with twice its multiplicity. -/
theorem special_taken_for_general :
    (∃ p ∈ ((table156.getD 1 ⟨0, 0, []⟩)).positions, OnPosition p ![2 / 5, 7 / 10, 0]) ∧
    (getFor table156 ![2 / 5, 7 / 10, 0]).map (·.multiplicity) = some 6 := by
  constructor
  · refine ⟨⟨![![-2, 0, 0], ![-1, 0, 0], ![0, 0, 1]], 0⟩, by simp [table156], ![3 / 10, 0, 0], fun k => ?_⟩
    fin_cases k
    · exact ⟨1, by decide +kernel⟩
    · exact ⟨1, by decide +kernel⟩
    · exact ⟨0, by decide +kernel⟩
  · decide +kernel

/-- **C42, failure** The points given by `calc_xyz_mult` for the atom `(2/5, 1/5, 0)` of `P 3 m 1` do
not contain the atom: its coordinates are put for the parameters of the position. -/
theorem xyzMult_wrong :
    ∃ pts m, xyzMult table156 ![2 / 5, 1 / 5, 0] = some (pts, m) ∧ m = 3 ∧
      ∀ y ∈ pts, ¬ ∀ k, ∃ n : ℤ, y k = ![2 / 5, 1 / 5, 0] k + n := by
  have hpts : (xyzMult table156 ![2 / 5, 1 / 5, 0]).map (fun r => (r.1.map fun y => (y 0, y 1), r.2)) =
      some ([(2 / 5, 3 / 5), (2 / 5, 4 / 5), (1 / 5, 3 / 5)], 3) := by decide +kernel
  cases hx : xyzMult table156 ![2 / 5, 1 / 5, 0] with
  | none => rw [hx] at hpts; simp at hpts
  | some r =>
    rw [hx] at hpts
    simp only [Option.map_some, Option.some.injEq, Prod.mk.injEq] at hpts
    refine ⟨r.1, r.2, rfl, hpts.2, fun y hy hall => ?_⟩
    have hm : (y 0, y 1) ∈ r.1.map fun y : V => (y 0, y 1) := List.mem_map.2 ⟨y, hy, rfl⟩
    rw [hpts.1] at hm
    obtain ⟨n, hn⟩ := hall 1
    obtain ⟨n0, hn0⟩ := hall 0
    simp only [Matrix.cons_val_zero, Matrix.cons_val_one] at hn hn0
    have hint : ∀ q : ℚ, ∀ n : ℤ, q = n → q.den = 1 := fun q n h => by rw [h]; simp
    simp only [List.mem_cons, Prod.mk.injEq, List.not_mem_nil, or_false] at hm
    rcases hm with ⟨h0, h1⟩ | ⟨h0, h1⟩ | ⟨h0, h1⟩
    · have := hint (2 / 5) n (by rw [h1] at hn; linarith)
      exact absurd this (by decide +kernel)
    · have := hint (3 / 5) n (by rw [h1] at hn; linarith)
      exact absurd this (by decide +kernel)
    · have := hint (-1 / 5) n0 (by rw [h0] at hn0; linarith)
      exact absurd this (by decide +kernel)

/-- A case that is recognised: the same position, `x = 1/5`. -/
example : isGoodForMask ⟨![![-2, 0, 0], ![-1, 0, 0], ![0, 0, 1]], 0⟩ ![2 / 5, 1 / 5, 0] = true := by decide +kernel

/-- A case where the hypotheses of `recognised_iff_on` hold and the answer is no. -/
example : isGoodForMask ⟨matrixOf [1, 0, 0, 2, 0, 0, 0, 0, 1], 0⟩ ![2 / 5, 1 / 5, 0] = false := by decide +kernel

example : [1, 0, 0, 2, 0, 0, 0, 0, 1] ∈ linearParts ∧ [1, 0, 0, 2, 0, 0, 0, 0, 1] ∉ doubled := by decide +kernel

end Cryspy.Wyck
