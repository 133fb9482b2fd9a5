import Verif.Elim.Model
import Mathlib.Tactic.Linarith
import Mathlib.Tactic.Ring
import Mathlib.Algebra.BigOperators.Field
import Mathlib.Analysis.Real.Sqrt
import Mathlib.Tactic.FieldSimp
import Mathlib.Tactic.Positivity

/-! # Elimination from the last row, for a matrix that is symmetric and not positive with respect to weights -/

namespace Cryspy.Elim

open Matrix

variable {N : ℕ}

theorem step_zero {M : Matrix (Fin N) (Fin N) ℝ} {i : Fin N} (h : M i i = 0) : step M i = M := if_pos h

theorem step_self {M : Matrix (Fin N) (Fin N) ℝ} {i : Fin N} (h : M i i ≠ 0) (j : Fin N) : step M i i j = M i j / M i i := by
  unfold step
  rw [if_neg h]
  simp

theorem step_above {M : Matrix (Fin N) (Fin N) ℝ} {i k : Fin N} (h : M i i ≠ 0) (hk : k < i) (j : Fin N) :
    step M i k j = M k j - M i j / M i i * M k i := by
  unfold step
  rw [if_neg h]
  simp [hk.ne, hk]

theorem step_below {M : Matrix (Fin N) (Fin N) ℝ} {i k : Fin N} (hk : i < k) (j : Fin N) : step M i k j = M k j := by
  by_cases h : M i i = 0
  · rw [step_zero h]
  · unfold step
    rw [if_neg h]
    simp [hk.ne', hk.asymm]

theorem mv_self {M : Matrix (Fin N) (Fin N) ℝ} {i : Fin N} (h : M i i ≠ 0) (x : Fin N → ℝ) : (step M i *ᵥ x) i = (M *ᵥ x) i / M i i := by
  simp only [mulVec, dotProduct, step_self h, Finset.sum_div]
  exact Finset.sum_congr rfl fun j _ => by ring

theorem mv_above {M : Matrix (Fin N) (Fin N) ℝ} {i k : Fin N} (h : M i i ≠ 0) (hk : k < i) (x : Fin N → ℝ) :
    (step M i *ᵥ x) k = (M *ᵥ x) k - (M *ᵥ x) i / M i i * M k i := by
  simp only [mulVec, dotProduct, step_above h hk, Finset.sum_div, Finset.sum_mul]
  rw [← Finset.sum_sub_distrib]
  exact Finset.sum_congr rfl fun j _ => by ring

theorem mv_below {M : Matrix (Fin N) (Fin N) ℝ} {i k : Fin N} (hk : i < k) (x : Fin N → ℝ) : (step M i *ᵥ x) k = (M *ᵥ x) k := by
  simp only [mulVec, dotProduct, step_below hk]

/-- The rows keep their solutions. -/
theorem step_ker (M : Matrix (Fin N) (Fin N) ℝ) (i : Fin N) (x : Fin N → ℝ) : step M i *ᵥ x = 0 ↔ M *ᵥ x = 0 := by
  by_cases h : M i i = 0
  · rw [step_zero h]
  constructor
  · intro hx
    have hi : (M *ᵥ x) i = 0 := by
      have := congrFun hx i
      rw [mv_self h] at this
      exact (div_eq_zero_iff.1 this).resolve_right h
    funext k
    have hk := congrFun hx k
    rcases lt_trichotomy k i with l | rfl | l
    · rw [mv_above h l, hi] at hk
      simpa using hk
    · exact hi
    · rwa [mv_below l] at hk
  · intro hx
    funext k
    have hi : (M *ᵥ x) i = 0 := congrFun hx i
    have hk : (M *ᵥ x) k = 0 := congrFun hx k
    rcases lt_trichotomy k i with l | rfl | l
    · rw [mv_above h l, hi, hk]
      simp
    · rw [mv_self h, hi]
      simp
    · rw [mv_below l, hk]
      rfl

/-- What holds when the rows from `m` on are done. -/
structure Inv (d : Fin N → ℝ) (M : Matrix (Fin N) (Fin N) ℝ) (m : ℕ) : Prop where
  sym : ∀ k j : Fin N, k.1 < m → j.1 < m → d k * M k j = d j * M j k
  neg : ∀ x : Fin N → ℝ, (∀ k : Fin N, m ≤ k.1 → x k = 0) → ∑ k, d k * x k * (M *ᵥ x) k ≤ 0
  upper : ∀ k j : Fin N, m ≤ j.1 → k < j → M k j = 0
  done : ∀ i : Fin N, m ≤ i.1 → M i i = 1 ∨ ∀ j, M i j = 0

theorem parabola {a b : ℝ} (h : ∀ t : ℝ, t ^ 2 * a + 2 * t * b ≤ 0) : b = 0 := by
  by_cases ha : a = 0
  · have := h b
    rw [ha] at this
    nlinarith [sq_nonneg b]
  · have ha' : a < 0 := by
      have h1 := h 1
      have h2 := h (-1)
      rcases lt_or_gt_of_ne ha with h' | h'
      · exact h'
      · linarith
    have := h (-(b / a))
    have e : (-(b / a)) ^ 2 * a + 2 * (-(b / a)) * b = -(b ^ 2 / a) := by
      field_simp
      ring
    rw [e] at this
    have h3 : 0 ≤ b ^ 2 / a := by linarith
    have h4 : b ^ 2 / a ≤ 0 := div_nonpos_of_nonneg_of_nonpos (sq_nonneg b) ha'.le
    have h5 : b ^ 2 / a = 0 := le_antisymm h4 h3
    rcases div_eq_zero_iff.1 h5 with h6 | h6
    · exact pow_eq_zero_iff (by norm_num) |>.1 h6
    · exact absurd h6 ha

/-- the quadratic form of two unit vectors -/
theorem form_two (d : Fin N → ℝ) (M : Matrix (Fin N) (Fin N) ℝ) {k i : Fin N} (t : ℝ) (x : Fin N → ℝ) (hx : x = t • Pi.single k 1 + Pi.single i 1)
    (hki : k ≠ i) : ∑ l, d l * x l * (M *ᵥ x) l = t ^ 2 * (d k * M k k) + t * (d k * M k i + d i * M i k) + d i * M i i := by
  have hv : ∀ l, (M *ᵥ x) l = t * M l k + M l i := by
    intro l
    rw [hx, mulVec_add, mulVec_smul]
    simp [mulVec_single_one]
  have : ∀ l, d l * x l * (M *ᵥ x) l =
      (if l = k then d k * t * (t * M k k + M k i) else 0) + (if l = i then d i * (t * M i k + M i i) else 0) := by
    intro l
    rw [hv, hx]
    by_cases h1 : l = k
    · subst h1
      simp [hki]
    · by_cases h2 : l = i
      · subst h2
        simp [h1]
      · simp [h1, h2]
  simp only [this, Finset.sum_add_distrib, Finset.sum_ite_eq', Finset.mem_univ, if_true]
  ring

theorem inv_step {d : Fin N → ℝ} (hd : ∀ k, 0 < d k) {M : Matrix (Fin N) (Fin N) ℝ} {i : Fin N} (h : Inv d M (i.1 + 1)) :
    Inv d (step M i) i.1 := by
  by_cases hc : M i i = 0
  · rw [step_zero hc]
    have col : ∀ k, k < i → M k i = 0 := by
      intro k hk
      have hs := h.sym k i (by have : k.1 < i.1 := hk; omega) (by omega)
      have : d k * M k i = 0 := by
        apply parabola (a := d k * M k k)
        intro t
        have := h.neg (t • Pi.single k 1 + Pi.single i 1) (by
          intro l hl
          have h1 : l ≠ i := by rintro rfl; omega
          have h2 : l ≠ k := by rintro rfl; have : l.1 < i.1 := hk; omega
          simp [h1, h2])
        rw [form_two d M t _ rfl hk.ne, hc, ← hs] at this
        linarith
      rcases mul_eq_zero.1 this with h' | h'
      · exact absurd h' (hd k).ne'
      · exact h'
    refine ⟨fun k j hk hj => h.sym k j (by omega) (by omega), fun x hx => h.neg x fun k hk => hx k (by omega), ?_, ?_⟩
    · intro k j hj hkj
      rcases Nat.lt_or_eq_of_le hj with h' | h'
      · exact h.upper k j h' hkj
      · have : i = j := Fin.ext h'
        subst this
        exact col k hkj
    · intro l hl
      rcases Nat.lt_or_eq_of_le hl with h' | h'
      · exact h.done l h'
      · have : i = l := Fin.ext h'
        subst this
        right
        intro j
        rcases lt_trichotomy j i with l' | rfl | l'
        · have hs := h.sym i j (by omega) (by have : j.1 < i.1 := l'; omega)
          rw [col j l', mul_zero] at hs
          rcases mul_eq_zero.1 hs with h'' | h''
          · exact absurd h'' (hd i).ne'
          · exact h''
        · exact hc
        · exact h.upper i j l' l'
  · have ab : ∀ k j : Fin N, k.1 < i.1 → step M i k j = M k j - M k i * ((M i i)⁻¹ * M i j) := by
      intro k j hk
      rw [step_above hc hk]
      ring
    refine ⟨?_, ?_, ?_, ?_⟩
    · intro k j hk hj
      rw [ab k j hk, ab j k hj]
      have h1 := h.sym k j (by omega) (by omega)
      have h2 := h.sym k i (by omega) (by omega)
      have h3 := h.sym j i (by omega) (by omega)
      rw [mul_sub, mul_sub, h1]
      congr 1
      calc d k * (M k i * ((M i i)⁻¹ * M i j)) = (d k * M k i) * (M i i)⁻¹ * M i j := by ring
        _ = (d i * M i j) * (M i i)⁻¹ * M i k := by rw [h2]; ring
        _ = d j * (M j i * ((M i i)⁻¹ * M i k)) := by rw [← h3]; ring
    · intro y hy
      set s := (M *ᵥ y) i with hsdef
      set t := -(s / M i i) with ht
      have hyi : y i = 0 := hy i (le_refl _)
      have hn := h.neg (y + t • Pi.single i 1) (by
        intro k hk
        have h1 : k ≠ i := by rintro rfl; omega
        simp [h1, hy k (by omega)])
      have hv : ∀ l, (M *ᵥ (y + t • Pi.single i 1)) l = (M *ᵥ y) l + t * M l i := by
        intro l
        rw [mulVec_add, mulVec_smul]
        simp [mulVec_single_one]
      have hv' : ∀ l : Fin N, l.1 < i.1 → (step M i *ᵥ y) l = (M *ᵥ y) l + t * M l i := by
        intro l hl
        rw [mv_above hc hl, ← hsdef, ht]
        ring
      have hz : (M *ᵥ y) i + t * M i i = 0 := by
        rw [← hsdef, ht]
        field_simp
        ring
      refine le_trans (le_of_eq ?_) hn
      refine Finset.sum_congr rfl fun k _ => ?_
      rw [hv]
      rcases lt_trichotomy k i with l | rfl | l
      · rw [hv' k l]
        simp [l.ne]
      · rw [hz, hyi]
        simp
      · simp [l.ne', hy k (Nat.le_of_lt l)]
    · intro k j hj hkj
      rcases lt_trichotomy k i with l | rfl | l
      · rw [ab k j l]
        rcases Nat.lt_or_eq_of_le hj with h' | h'
        · rw [h.upper k j h' hkj, h.upper i j h' h']
          ring
        · have : i = j := Fin.ext h'
          subst this
          field_simp
          ring
      · rw [step_self hc]
        rw [h.upper k j hkj hkj, zero_div]
      · rw [step_below l]
        exact h.upper k j (by have : k.1 < j.1 := hkj; have : i.1 < k.1 := l; omega) hkj
    · intro l hl
      rcases Nat.lt_or_eq_of_le hl with h' | h'
      · simp only [step_below (show i < l from h')]
        exact h.done l h'
      · have : i = l := Fin.ext h'
        subst this
        left
        rw [step_self hc, div_self hc]

/-! ### the whole loop -/

theorem rows_succ (n : ℕ) : rows n = (List.range n).map fun k => ⟨n - k, by omega⟩ := by
  unfold rows
  apply List.ext_getElem
  · simp
  · intro k h1 h2
    simp only [List.length_map, List.length_reverse, List.length_finRange] at h1
    apply Fin.ext
    simp
    omega

variable {n : ℕ}

theorem fold_inv {d : Fin (n + 1) → ℝ} (hd : ∀ k, 0 < d k) {M : Matrix (Fin (n + 1)) (Fin (n + 1)) ℝ} (h : Inv d M (n + 1)) :
    Inv d ((rows n).foldl step M) 1 := by
  have key : ∀ k, (hk : k ≤ n) → Inv d (((List.range k).map fun k => (⟨n - k, by omega⟩ : Fin (n + 1))).foldl step M) (n + 1 - k) := by
    intro k
    induction k with
    | zero => intro _; simpa using h
    | succ k ih =>
      intro hk
      rw [List.range_succ, List.map_append, List.foldl_append]
      have := ih (by omega)
      have e : n + 1 - k = (n - k) + 1 := by omega
      have e2 : n + 1 - (k + 1) = n - k := by omega
      rw [e] at this
      rw [e2]
      exact inv_step hd this
  have := key n (le_refl _)
  rw [rows_succ]
  simpa using this

theorem fold_ker (l : List (Fin N)) (M : Matrix (Fin N) (Fin N) ℝ) (x : Fin N → ℝ) : (l.foldl step M) *ᵥ x = 0 ↔ M *ᵥ x = 0 := by
  induction l generalizing M with
  | nil => rfl
  | cons i l ih => rw [List.foldl_cons, ih, step_ker]

end Cryspy.Elim
