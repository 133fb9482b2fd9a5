import Verif.Roots.Model
import Mathlib.Tactic.FieldSimp
import Mathlib.Tactic.Ring
import Mathlib.Tactic.NormNum
import Mathlib.Algebra.Order.Field.Basic
import Mathlib.Algebra.Order.AbsoluteValue.Basic
import Mathlib.Data.Nat.Cast.Order.Field

/-! # Lemmas on the loops of root finding -/

namespace Cryspy.Roots

variable {K : Type} [Field K] [LinearOrder K] [IsStrictOrderedRing K] [FloorRing K]

/-- The intervals that start at `x`, `m` of them. -/
def cellsFrom (b dx : K) : ℕ → K → List (K × K)
  | 0, _ => []
  | m + 1, x => (x, nextPoint b dx x) :: cellsFrom b dx m (nextPoint b dx x)

def keep (f : K → K) (c : K × K) : Option K :=
  if 0 < f c.1 * f c.2 then none else bisect f c.1 c.2 true defaultEps

omit [FloorRing K] [IsStrictOrderedRing K] in
theorem nextPoint_le (b dx x : K) : nextPoint b dx x ≤ b := by
  unfold nextPoint; split <;> [exact le_refl _; exact not_lt.1 ‹_›]

/-- `m` steps are left before the end: after exactly `m` steps the point is `b`. -/
def Left (b dx : K) : ℕ → K → Prop
  | 0, x => x = b
  | m + 1, x => x < b ∧ Left b dx m (nextPoint b dx x)

omit [FloorRing K] in
theorem search_eq (f : K → K) {b dx : K} {m : ℕ} (hb : f b ≠ 0 ∨ 0 < m) (hdx : 0 < dx) : ∀ (x : K), Left b dx m x → ∀ fuel, m < fuel →
    searchLoop f b dx fuel x (nextPoint b dx x) =
      some ((cellsFrom b dx m x).find? fun c => !decide (0 < f c.1 * f c.2)) := by
  induction m with
  | zero =>
    intro x hx fuel hf
    obtain ⟨n, rfl⟩ : ∃ n, fuel = n + 1 := ⟨fuel - 1, by omega⟩
    simp only [Left] at hx
    subst hx
    have hb := hb.resolve_right (by omega)
    have hn : nextPoint x dx x = x := by
      unfold nextPoint; rw [if_pos (by linarith)]
    have : 0 < f x * f x := mul_self_pos.2 hb
    simp [searchLoop, hn, this, cellsFrom]
  | succ m ih =>
    intro x hx fuel hf
    obtain ⟨n, rfl⟩ : ∃ n, fuel = n + 1 := ⟨fuel - 1, by omega⟩
    obtain ⟨h1, h2⟩ := hx
    simp only [searchLoop, cellsFrom, List.find?_cons]
    by_cases h : 0 < f x * f (nextPoint b dx x)
    · rw [if_pos h, if_neg (not_le.2 h1)]
      simp only [h, decide_true, Bool.not_true]
      refine ih ?_ _ h2 n (by omega)
      rcases hb with hb | _
      · exact Or.inl hb
      · by_contra hc
        push Not at hc
        obtain rfl : m = 0 := by omega
        simp only [Left] at h2
        rw [h2, hc.1, mul_zero] at h
        exact lt_irrefl _ h
    · rw [if_neg h]
      simp [h]

theorem roots_eq (f : K → K) {b dx : K} (hb : f b ≠ 0) (hdx : 0 < dx) (sf : ℕ) : ∀ (m : ℕ) (x : K), Left b dx m x → m < sf →
    ∀ fuel, m < fuel → ∀ res : List K,
    rootsLoop f b dx sf fuel ((cellsFrom b dx m x).find? fun c => !decide (0 < f c.1 * f c.2)) res =
      some (res ++ (cellsFrom b dx m x).filterMap (keep f)) := by
  intro m
  induction m with
  | zero =>
    intro x hx _ fuel hf res
    obtain ⟨n, rfl⟩ : ∃ n, fuel = n + 1 := ⟨fuel - 1, by omega⟩
    simp [cellsFrom, rootsLoop]
  | succ m ih =>
    intro x hx hs fuel hf res
    obtain ⟨h1, h2⟩ := hx
    simp only [cellsFrom, List.find?_cons]
    by_cases h : 0 < f x * f (nextPoint b dx x)
    · simp only [h, decide_true, Bool.not_true]
      rw [ih _ h2 (by omega) fuel (by omega) res, List.filterMap_cons]
      simp [keep, h]
    · obtain ⟨n, rfl⟩ : ∃ n, fuel = n + 1 := ⟨fuel - 1, by omega⟩
      simp only [h, decide_false, Bool.not_false, rootsLoop, rootsearch]
      rw [search_eq f (Or.inl hb) hdx _ h2 sf (by omega)]
      dsimp only
      rw [ih _ h2 (by omega) n (by omega), List.filterMap_cons]
      simp only [keep, h, if_false]
      split <;> simp_all

/-- The points at which the search looks. -/
def nodeL (a b dx : K) (k : ℕ) : K := min (a + k * dx) b

omit [FloorRing K] in
theorem next_node {a b dx : K} (k : ℕ) : nextPoint b dx (nodeL a b dx k) = nodeL a b dx (k + 1) ∨ dx < 0 := by
  by_cases hd : dx < 0
  · exact Or.inr hd
  left
  push Not at hd
  unfold nextPoint nodeL
  push_cast
  rcases le_total (a + k * dx) b with h | h
  · rw [min_eq_left h]
    split
    · rw [min_eq_right (by linarith)]
    · rw [min_eq_left (by linarith)]; ring
  · rw [min_eq_right h, min_eq_right (by linarith)]
    split
    · rfl
    · linarith

theorem node_last {a b dx : K} (hdx : 0 < dx) : nodeL a b dx ⌈(b - a) / dx⌉₊ = b := by
  unfold nodeL
  refine min_eq_right ?_
  have := (div_le_iff₀ hdx).1 (Nat.le_ceil ((b - a) / dx))
  linarith

theorem node_lt {a b dx : K} (hdx : 0 < dx) {k : ℕ} (hk : k < ⌈(b - a) / dx⌉₊) : nodeL a b dx k = a + k * dx ∧ a + k * dx < b := by
  have := (lt_div_iff₀ hdx).1 (Nat.lt_ceil.1 hk)
  exact ⟨min_eq_left (by linarith), by linarith⟩

theorem left_node {a b dx : K} (hdx : 0 < dx) : ∀ m k, k + m = ⌈(b - a) / dx⌉₊ → Left b dx m (nodeL a b dx k) := by
  intro m
  induction m with
  | zero => intro k hk; simp only [Left]; rw [show k = _ from hk]; exact node_last hdx
  | succ m ih =>
    intro k hk
    refine ⟨?_, ?_⟩
    · have := node_lt (a := a) (b := b) hdx (k := k) (by omega); rw [this.1]; exact this.2
    · rcases next_node (a := a) (b := b) (dx := dx) k with h | h
      · rw [h]; exact ih (k + 1) (by omega)
      · exact absurd hdx (not_lt.2 h.le)

theorem cells_node {a b dx : K} (hdx : 0 < dx) : ∀ m k, cellsFrom b dx m (nodeL a b dx k) =
    (List.range' k m).map fun j => (nodeL a b dx j, nodeL a b dx (j + 1)) := by
  intro m
  induction m with
  | zero => intro k; rfl
  | succ m ih =>
    intro k
    have hn : nextPoint b dx (nodeL a b dx k) = nodeL a b dx (k + 1) :=
      (next_node k).resolve_right (not_lt.2 hdx.le)
    rw [cellsFrom, hn, ih (k + 1), List.range'_succ, List.map_cons]

/-! ## The search never gives up when the right end is a root -/

omit [FloorRing K] [IsStrictOrderedRing K] in
theorem search_ne_none (f : K → K) {b dx : K} (hb : f b = 0) : ∀ fuel (x1 x2 : K), x1 ≤ b → x2 ≤ b →
    searchLoop f b dx fuel x1 x2 = none ∨ ∃ u v, searchLoop f b dx fuel x1 x2 = some (some (u, v)) ∧ v ≤ b := by
  intro fuel
  induction fuel with
  | zero => intros; left; rfl
  | succ n ih =>
    intro x1 x2 h1 h2
    simp only [searchLoop]
    split
    · rename_i hp
      have : ¬ b ≤ x1 := by
        intro hbx
        rw [le_antisymm h1 hbx, hb, zero_mul] at hp
        exact lt_irrefl _ hp
      rw [if_neg this]
      exact ih _ _ h2 (nextPoint_le b dx x2)
    · exact Or.inr ⟨x1, x2, rfl, h2⟩

theorem roots_forever (f : K → K) {b dx : K} (hb : f b = 0) (sf : ℕ) : ∀ fuel (u v : K) res, v ≤ b →
    rootsLoop f b dx sf fuel (some (u, v)) res = none := by
  intro fuel
  induction fuel with
  | zero => intros; rfl
  | succ n ih =>
    intro u v res hv
    simp only [rootsLoop, rootsearch]
    rcases search_ne_none f (dx := dx) hb sf v (nextPoint b dx v) hv (nextPoint_le b dx v) with h | ⟨u', v', h, hv'⟩
    · rw [h]
    · rw [h]; exact ih u' v' _ hv'

/-! ## Bisection -/

omit [IsStrictOrderedRing K] in
theorem halvings_spec [IsStrictOrderedRing K] {x1 x2 eps : K} (he : 0 < eps) : |x2 - x1| ≤ 2 ^ halvings x1 x2 eps * eps := by
  have h := Int.self_le_zpow_clog (b := 2) (by norm_num) (|x2 - x1| / eps)
  have h2 : ((2 : ℕ) : K) ^ Int.clog 2 (|x2 - x1| / eps) ≤ (2 : K) ^ halvings x1 x2 eps := by
    rw [← zpow_natCast]
    push_cast
    exact zpow_le_zpow_right₀ (by norm_num) (Int.self_le_toNat _)
  exact (div_le_iff₀ he).1 (h.trans h2)

omit [FloorRing K] in
theorem mul_neg_chain {x y z : K} (hxy : x * y < 0) (hz : z ≠ 0) (h : ¬ y * z < 0) : x * z < 0 := by
  have hy : y ≠ 0 := by rintro rfl; simp at hxy
  have h' : 0 < y * z := lt_of_le_of_ne (not_lt.1 h) (Ne.symm (mul_ne_zero hy hz))
  have hyy : 0 < y * y := mul_self_pos.2 hy
  by_contra hc
  have hc' : 0 ≤ x * z := not_lt.1 hc
  nlinarith [mul_neg_of_neg_of_pos hxy h', mul_nonneg hc' hyy.le]

omit [FloorRing K] in
theorem bisectLoop_spec (f : K → K) (sw : Bool) : ∀ (n : ℕ) (x1 x2 r : K), x1 < x2 → f x1 * f x2 < 0 →
    bisectLoop f sw n x1 x2 = some r →
    (f r = 0 ∧ x1 ≤ r ∧ r ≤ x2) ∨
      ∃ u v, x1 ≤ u ∧ u < v ∧ v ≤ x2 ∧ 2 ^ n * (v - u) = x2 - x1 ∧ r = (u + v) / 2 ∧ f u * f v < 0 := by
  intro n
  induction n with
  | zero =>
    intro x1 x2 r hx hf h
    simp only [bisectLoop, Option.some.injEq] at h
    exact Or.inr ⟨x1, x2, le_refl _, hx, le_refl _, by ring, h.symm, hf⟩
  | succ n ih =>
    intro x1 x2 r hx hf h
    simp only [bisectLoop] at h
    have hm1 : x1 < 1 / 2 * (x1 + x2) := by linarith
    have hm2 : 1 / 2 * (x1 + x2) < x2 := by linarith
    split at h
    · simp at h
    · split at h
      · rename_i h0
        simp only [Option.some.injEq] at h
        subst h
        exact Or.inl ⟨h0, hm1.le, hm2.le⟩
      · rename_i h0
        split at h
        · rename_i hs
          rcases ih _ _ _ hm2 (by linarith) h with ⟨a, b, c⟩ | ⟨u, v, a, b, c, d, e, g⟩
          · exact Or.inl ⟨a, by linarith, c⟩
          · exact Or.inr ⟨u, v, by linarith, b, c, by rw [pow_succ]; linarith, e, g⟩
        · rename_i hs
          rcases ih _ _ _ hm1 (mul_neg_chain hf h0 hs) h with ⟨a, b, c⟩ | ⟨u, v, a, b, c, d, e, g⟩
          · exact Or.inl ⟨a, b, by linarith⟩
          · exact Or.inr ⟨u, v, a, b, by linarith, by rw [pow_succ]; linarith, e, g⟩

omit [FloorRing K] [IsStrictOrderedRing K] in
theorem bisectLoop_noswitch (f : K → K) : ∀ (n : ℕ) (x1 x2 : K), ∃ r, bisectLoop f false n x1 x2 = some r := by
  intro n
  induction n with
  | zero => intros; exact ⟨_, rfl⟩
  | succ n ih =>
    intro x1 x2
    simp only [bisectLoop]
    rw [if_neg (by simp)]
    split
    · exact ⟨_, rfl⟩
    · split <;> exact ih _ _

omit [FloorRing K] in
theorem abs_between {x y z : K} (h1 : x ≤ z) (h2 : z ≤ y) : ¬ (|x| < |z| ∧ |y| < |z|) := by
  rintro ⟨ha, hb⟩
  rcases le_total 0 z with hz | hz
  · rw [abs_of_nonneg hz, abs_lt] at *
    linarith [hb.2]
  · rw [abs_of_nonpos hz] at ha
    have := (abs_lt.1 ha).1
    linarith

omit [FloorRing K] in
theorem bisectLoop_mono (f : K → K) (sw : Bool) : ∀ (n : ℕ) (x1 x2 : K), x1 ≤ x2 →
    ((∀ u v, x1 ≤ u → u ≤ v → v ≤ x2 → f u ≤ f v) ∨ (∀ u v, x1 ≤ u → u ≤ v → v ≤ x2 → f v ≤ f u)) →
    ∃ r, bisectLoop f sw n x1 x2 = some r := by
  intro n
  induction n with
  | zero => intros; exact ⟨_, rfl⟩
  | succ n ih =>
    intro x1 x2 hx hm
    have hm1 : x1 ≤ 1 / 2 * (x1 + x2) := by linarith
    have hm2 : 1 / 2 * (x1 + x2) ≤ x2 := by linarith
    simp only [bisectLoop]
    rw [if_neg]
    · split
      · exact ⟨_, rfl⟩
      · split
        · refine ih _ _ hm2 (hm.imp ?_ ?_) <;>
            exact fun h u v a b c => h u v (by linarith) b c
        · refine ih _ _ hm1 (hm.imp ?_ ?_) <;>
            exact fun h u v a b c => h u v a b (by linarith)
    · rintro ⟨_, h⟩
      rcases hm with hm | hm
      · exact abs_between (hm _ _ le_rfl hm1 hm2) (hm _ _ hm1 hm2 le_rfl) h
      · exact abs_between (hm _ _ hm1 hm2 le_rfl) (hm _ _ le_rfl hm1 hm2) ⟨h.2, h.1⟩

end Cryspy.Roots
