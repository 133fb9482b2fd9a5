import Verif.Slater.Model
import Mathlib.Tactic.Linarith
import Mathlib.Tactic.FieldSimp
import Mathlib.Tactic.Ring

/-!
# The recurrence of `calc_transs` and its identities
-/

namespace Cryspy.Slater

/-- the values that the recurrence gives, up to powers of 2 pi: `U z d l k` -/
noncomputable def U (z d : ℝ) (l : ℕ) : ℕ → ℝ
  | 0 => 0
  | 1 => if l = 0 then 1 / d else 0
  | k + 2 =>
    if k + 2 ≤ l then 0
    else if k + 2 = l + 1 then 2 ^ l * l.factorial / d ^ (l + 1)
    else (2 * z * (k + 1 : ℕ) * U z d l (k + 1) - ((k + 1 : ℕ) + l : ℝ) * ((k + 1 : ℕ) - (l + 1 : ℕ) : ℝ) * U z d l k) / d

theorem U_low (z d : ℝ) {l k : ℕ} (h : k ≤ l) : U z d l k = 0 := by
  cases k with
  | zero => rw [U]
  | succ k =>
    cases k with
    | zero => rw [U, if_neg (by omega)]
    | succ k => rw [U, if_pos h]

theorem U_seed (z d : ℝ) (l : ℕ) : U z d l (l + 1) = 2 ^ l * l.factorial / d ^ (l + 1) := by
  cases l with
  | zero => rw [U]; simp
  | succ l => rw [U, if_neg (by omega), if_pos rfl]

theorem U_step (z d : ℝ) {l k : ℕ} (h : l + 1 ≤ k) :
    U z d l (k + 1) = (2 * z * k * U z d l k - ((k : ℝ) + l) * ((k : ℝ) - (l + 1)) * U z d l (k - 1)) / d := by
  obtain ⟨m, rfl⟩ : ∃ m, k = m + 1 := ⟨k - 1, by omega⟩
  rw [U, if_neg (by omega), if_neg (by omega)]
  push_cast
  rfl

theorem U_seed_succ (z : ℝ) {d : ℝ} (hd : d ≠ 0) (l : ℕ) : U z d (l + 1) (l + 2) = U z d l (l + 1) * 2 * (l + 1) / d := by
  rw [U_seed, U_seed, Nat.factorial_succ]
  push_cast
  field_simp
  ring

/-- the derivative identity of neighbouring orders -/
theorem U_down (z : ℝ) {d : ℝ} (hd : d ≠ 0) (l : ℕ) (j : ℕ) :
    U z d l (l + 2 + j) = z * U z d (l + 1) (l + 2 + j) - j * U z d (l + 1) (l + 1 + j) := by
  induction j using Nat.strong_induction_on with
  | _ j ih =>
    rcases j with _ | _ | j
    · have e1 := U_step z d (l := l) (k := l + 1) (le_refl _)
      have e2 := U_seed_succ z hd l
      have e3 : l + 1 - 1 = l := by omega
      rw [e3, U_low z d (le_refl l)] at e1
      rw [Nat.add_zero, e1, e2]
      push_cast
      field_simp
      ring
    · have h0 := ih 0 (by omega)
      have e1 := U_step z d (l := l) (k := l + 2) (by omega)
      have e2 := U_step z d (l := l + 1) (k := l + 2) (by omega)
      have e3 := U_seed_succ z hd l
      have e4 : l + 2 - 1 = l + 1 := by omega
      simp only [Nat.add_zero, Nat.zero_add, Nat.cast_zero, zero_mul, sub_zero, Nat.cast_one, one_mul] at h0 ⊢
      have e5 : l + 2 + 1 = l + 3 := rfl
      have e6 : l + 1 + 1 = l + 2 := rfl
      rw [e4] at e1 e2
      rw [e5] at e1 e2
      rw [e5, e6, e1, e2, h0, e3, U_low z d (l := l + 1) (k := l + 1) (le_refl _)]
      push_cast
      field_simp
      ring
    · have h0 := ih (j + 1) (by omega)
      have h1 := ih j (by omega)
      have e1 := U_step z d (l := l) (k := l + 3 + j) (by omega)
      have e2 := U_step z d (l := l + 1) (k := l + 3 + j) (by omega)
      have e3 := U_step z d (l := l + 1) (k := l + 2 + j) (by omega)
      rw [show l + 3 + j - 1 = l + 2 + j by omega] at e1 e2
      rw [show l + 2 + j - 1 = l + 1 + j by omega] at e3
      rw [show l + 2 + (j + 1) = l + 3 + j by omega, show l + 1 + (j + 1) = l + 2 + j by omega] at h0
      rw [show l + 2 + (j + 2) = l + 3 + j + 1 by omega, show l + 1 + (j + 2) = l + 2 + j + 1 by omega]
      rw [show l + 2 + j + 1 = l + 3 + j by omega] at e3 ⊢
      rw [e1, h0, h1, e2]
      have e3' : d * U z d (l + 1) (l + 3 + j) = 2 * z * ((l + 2 + j : ℕ) : ℝ) * U z d (l + 1) (l + 2 + j) -
          (((l + 2 + j : ℕ) : ℝ) + ((l + 1 : ℕ) : ℝ)) * (((l + 2 + j : ℕ) : ℝ) - (((l + 1 : ℕ) : ℝ) + 1)) * U z d (l + 1) (l + 1 + j) := by
        rw [e3]; field_simp
      generalize U z d (l + 1) (l + 3 + j) = A at *
      generalize U z d (l + 1) (l + 2 + j) = B at *
      generalize U z d (l + 1) (l + 1 + j) = C at *
      push_cast at e3' ⊢
      field_simp
      linear_combination (((j : ℝ) + 2)) * e3'

/-- the three term identity of neighbouring orders -/
theorem U_three (z q : ℝ) (hd : q ^ 2 + z ^ 2 ≠ 0) (l : ℕ) (j : ℕ) :
    q ^ 2 * U z (q ^ 2 + z ^ 2) (l + 2) (l + 3 + j) =
      (2 * l + 3) * U z (q ^ 2 + z ^ 2) (l + 1) (l + 2 + j) - U z (q ^ 2 + z ^ 2) l (l + 3 + j) := by
  set d := q ^ 2 + z ^ 2 with hdef
  induction j using Nat.strong_induction_on with
  | _ j ih =>
    rcases j with _ | _ | j
    · have s1 := U_seed_succ z hd l
      have s2 := U_seed_succ z hd (l + 1)
      have e1 := U_step z d (l := l) (k := l + 1) (le_refl _)
      have e2 := U_step z d (l := l) (k := l + 2) (by omega)
      rw [show l + 1 - 1 = l by omega, U_low z d (le_refl l)] at e1
      rw [show l + 2 - 1 = l + 1 by omega] at e2
      rw [show l + 1 + 1 = l + 2 from rfl] at e1 s2
      rw [show l + 1 + 2 = l + 3 from rfl] at s2
      rw [show l + 2 + 1 = l + 3 from rfl] at e2
      rw [Nat.add_zero, Nat.add_zero, s2, s1, e2, e1]
      generalize U z d l (l + 1) = s
      push_cast
      field_simp
      rw [hdef]
      ring
    · have h0 := ih 0 (by omega)
      simp only [Nat.add_zero] at h0
      have e1 := U_step z d (l := l + 2) (k := l + 3) (by omega)
      rw [show l + 3 - 1 = l + 2 by omega, U_low z d (le_refl (l + 2))] at e1
      have e2 := U_step z d (l := l + 1) (k := l + 2) (by omega)
      rw [show l + 2 - 1 = l + 1 by omega, U_low z d (le_refl (l + 1))] at e2
      have e3 := U_step z d (l := l) (k := l + 3) (by omega)
      rw [show l + 3 - 1 = l + 2 by omega] at e3
      have p := U_down z hd l 0
      simp only [Nat.add_zero, Nat.cast_zero, zero_mul, sub_zero] at p
      rw [show l + 3 + (0 + 1) = l + 3 + 1 from rfl, show l + 2 + (0 + 1) = l + 2 + 1 from rfl, e1, e2, e3, p]
      have : q ^ 2 * ((2 * z * ((l + 3 : ℕ) : ℝ) * U z d (l + 2) (l + 3) -
          (((l + 3 : ℕ) : ℝ) + ((l + 2 : ℕ) : ℝ)) * (((l + 3 : ℕ) : ℝ) - (((l + 2 : ℕ) : ℝ) + 1)) * 0) / d) =
          2 * z * ((l + 3 : ℕ) : ℝ) * (q ^ 2 * U z d (l + 2) (l + 3)) / d := by ring
      rw [this, h0]
      push_cast
      field_simp
      ring
    · have h0 := ih (j + 1) (by omega)
      have h1 := ih j (by omega)
      rw [show l + 3 + (j + 1) = l + 4 + j by omega, show l + 2 + (j + 1) = l + 3 + j by omega] at h0
      have e1 := U_step z d (l := l + 2) (k := l + 4 + j) (by omega)
      rw [show l + 4 + j - 1 = l + 3 + j by omega] at e1
      have e2 := U_step z d (l := l + 1) (k := l + 3 + j) (by omega)
      rw [show l + 3 + j - 1 = l + 2 + j by omega, show l + 3 + j + 1 = l + 4 + j by omega] at e2
      have e3 := U_step z d (l := l) (k := l + 4 + j) (by omega)
      rw [show l + 4 + j - 1 = l + 3 + j by omega] at e3
      have p := U_down z hd l (j + 1)
      rw [show l + 2 + (j + 1) = l + 3 + j by omega, show l + 1 + (j + 1) = l + 2 + j by omega] at p
      rw [show l + 3 + (j + 2) = l + 4 + j + 1 by omega, show l + 2 + (j + 2) = l + 4 + j by omega, e1, e2, e3]
      generalize U z d (l + 2) (l + 4 + j) = A at *
      generalize U z d (l + 2) (l + 3 + j) = B at *
      generalize U z d (l + 1) (l + 3 + j) = C at *
      generalize U z d (l + 1) (l + 2 + j) = D at *
      generalize U z d l (l + 4 + j) = E at *
      generalize U z d l (l + 3 + j) = F at *
      push_cast at h0 h1 p ⊢
      clear_value d
      field_simp
      linear_combination (2 * z * ((l : ℝ) + 4 + j)) * h0 - ((l : ℝ) + 4 + j + (l + 2)) * ((j : ℝ) + 1) * h1 - 2 * (2 * (l : ℝ) + 3) * p

/-! ### the loops compute it -/

theorem fold_values {z d : ℝ} {l : ℕ} {st : St} (c : ℝ) (h0 : st.a l = c * U z d l l) (h1 : st.a (l + 1) = c * U z d l (l + 1)) (j : ℕ) :
    (∀ k, l ≤ k → k ≤ l + 1 + j → ((List.range' (l + 1) j).foldl (inner (2 * z) d l) st).a k = c * U z d l k) ∧
    ((List.range' (l + 1) j).foldl (inner (2 * z) d l) st).i3 = (if j = 0 then st.i3 else some (l + 2 + j)) := by
  induction j with
  | zero =>
    refine ⟨fun k hk hk' => ?_, by simp⟩
    rw [List.range'_zero, List.foldl_nil]
    rcases Nat.eq_or_lt_of_le hk with rfl | hk
    · exact h0
    · obtain rfl : k = l + 1 := by omega
      exact h1
  | succ j ih =>
    rw [List.range'_1_concat, List.foldl_append, List.foldl_cons, List.foldl_nil]
    generalize (List.range' (l + 1) j).foldl (inner (2 * z) d l) st = s at ih
    refine ⟨fun k hk hk' => ?_, ?_⟩
    · unfold inner
      simp only
      by_cases hk2 : k = l + 1 + j + 1
      · subst hk2
        rw [Function.update_self, ih.1 (l + 1 + j) (by omega) (by omega), ih.1 (l + 1 + j - 1) (by omega) (by omega),
          U_step z d (l := l) (k := l + 1 + j) (by omega)]
        push_cast
        ring
      · rw [Function.update_of_ne hk2]
        exact ih.1 k hk (by omega)
    · unfold inner
      simp only
      rw [if_neg (by omega)]
      congr 1
      omega

/-- what the variables hold after the turn `l` of the outer loop, as long as `l ≤ n` -/
theorem after_values {n : ℕ} {z d : ℝ} (hn : 1 ≤ n) (hd : d ≠ 0) {l : ℕ} (hl : l ≤ n) :
    (∀ k, l ≤ k → k ≤ n + 1 → (after n (2 * z) d l).a k = (2 * Real.pi) ^ l * U z d l k) ∧ (after n (2 * z) d l).i3 = some (n + 2) := by
  induction l with
  | zero =>
    have := fold_values (z := z) (d := d) (l := 0) (st := start d) 1 (by simp [start, U]) (by simp [start, U]) (n + 1 - (0 + 1))
    unfold after stage
    simp only [ne_eq, not_true_eq_false, if_false, Nat.zero_add] at this ⊢
    refine ⟨fun k hk hk' => ?_, ?_⟩
    · rw [pow_zero]
      exact this.1 k hk (by omega)
    · rw [show start d = ⟨(start d).a, (start d).i3⟩ from rfl] at this
      rw [this.2, if_neg (by omega)]
      congr 1
      omega
  | succ l ih =>
    obtain ⟨i1, i2⟩ := ih (by omega)
    have hs : (after n (2 * z) d l).a (l + 1) * (4 * Real.pi) * ((l + 1 : ℕ) : ℝ) * 1 / d = (2 * Real.pi) ^ (l + 1) * U z d (l + 1) (l + 1 + 1) := by
      rw [i1 (l + 1) (by omega) (by omega), U_seed_succ z hd l]
      push_cast
      ring
    have := fold_values (z := z) (d := d) (l := l + 1)
      (st := ⟨Function.update (Function.update (after n (2 * z) d l).a (l + 1 + 1) ((after n (2 * z) d l).a (l + 1) * (4 * Real.pi) * ((l + 1 : ℕ) : ℝ) * 1 / d)) (l + 1) 0,
        (after n (2 * z) d l).i3⟩) ((2 * Real.pi) ^ (l + 1))
      (by simp only [Function.update_self]; rw [U_low z d (le_refl _), mul_zero])
      (by simp only; rw [Function.update_of_ne (by omega), Function.update_self, hs]) (n + 1 - (l + 1 + 1))
    rw [after]
    unfold stage
    simp only [ne_eq, show ¬ (l + 1 + 1 = 1) by omega, not_false_eq_true, if_true]
    refine ⟨fun k hk hk' => this.1 k hk (by omega), ?_⟩
    rw [this.2]
    split_ifs with h
    · exact i2
    · congr 1
      omega

/-- beyond that the entry that is read is zero -/
theorem after_zero {n : ℕ} {z d : ℝ} (hn : 1 ≤ n) (hd : d ≠ 0) {l : ℕ} (hl : n < l) :
    (after n (2 * z) d l).a (n + 1) = 0 ∧ (after n (2 * z) d l).i3 = some (n + 2) := by
  induction l with
  | zero => omega
  | succ l ih =>
    have h0 : n + 1 - (l + 1 + 1) = 0 := by omega
    rw [after]
    unfold stage
    simp only [ne_eq, show ¬ (l + 1 + 1 = 1) by omega, not_false_eq_true, if_true, h0, List.range'_zero, List.foldl_nil]
    by_cases h : n < l
    · rw [Function.update_of_ne (by omega), Function.update_of_ne (by omega)]
      exact ih h
    · obtain rfl : l = n := by omega
      exact ⟨Function.update_self _ _ _, (after_values hn hd (le_refl l)).2⟩

/-- the entries of the list that `calc_transs` returns -/
theorem transs_values {lmax nn : ℕ} {zeta s : ℝ} (hn : 2 ≤ nn) (hz : zeta ≠ 0) {l : ℕ} (hl : l ≤ lmax) :
    (transs lmax nn zeta s)[l]? = some (some (if l + 1 ≤ nn then (2 * Real.pi) ^ l * U zeta ((4 * Real.pi * s) ^ 2 + zeta ^ 2) l nn else 0)) := by
  have hd : (4 * Real.pi * s) ^ 2 + zeta ^ 2 ≠ 0 := by positivity
  unfold transs
  simp only [List.getElem?_map]
  rw [List.getElem?_range (by omega)]
  simp only [Option.map_some]
  have e : nn - 1 + 1 = nn := by omega
  split_ifs with h
  · obtain ⟨h1, h2⟩ := after_values (n := nn - 1) (z := zeta) (by omega) hd (l := l) (by omega)
    rw [h2]
    simp only [Option.map_some]
    rw [show nn - 1 + 2 - 1 = nn by omega, h1 nn (by omega) (by omega)]
  · obtain ⟨h1, h2⟩ := after_zero (n := nn - 1) (z := zeta) (by omega) hd (l := l) (by omega)
    rw [h2]
    simp only [Option.map_some]
    rw [show nn - 1 + 2 - 1 = nn - 1 + 1 by omega, h1]

end Cryspy.Slater
