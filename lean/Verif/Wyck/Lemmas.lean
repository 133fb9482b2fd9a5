import Verif.Wyck.Model
import Mathlib.Algebra.Order.Floor.Defs
import Mathlib.Data.Fintype.Basic
import Mathlib.Tactic.Ring
import Mathlib.Tactic.Linarith
import Mathlib.Tactic.FieldSimp
import Mathlib.Tactic.FinCases
import Mathlib.Tactic.LinearCombination

/-!
# Elimination modulo 1
-/

namespace Cryspy.Wyck

/-- Value of a linear form. -/
def dot (a x : V) : ℚ := a 0 * x 0 + a 1 * x 1 + a 2 * x 2

/-- The numbers differ by an integer. -/
def Cong (u v : ℚ) : Prop := ∃ n : ℤ, u = v + n

theorem mod1_cong (u : ℚ) : Cong (mod1 u) u := ⟨-⌊u⌋, by unfold mod1; push_cast; ring⟩

theorem Cong.symm {u v : ℚ} (h : Cong u v) : Cong v u := by
  obtain ⟨n, h⟩ := h
  exact ⟨-n, by rw [h]; push_cast; ring⟩

theorem Cong.trans {u v w : ℚ} (h : Cong u v) (h' : Cong v w) : Cong u w := by
  obtain ⟨n, h⟩ := h
  obtain ⟨m, h'⟩ := h'
  exact ⟨m + n, by rw [h, h']; push_cast; ring⟩

theorem mod1_of_cong_zero {u : ℚ} (h : Cong u 0) : mod1 u = 0 := by
  obtain ⟨n, h⟩ := h
  unfold mod1; rw [h]; simp

theorem mod1_eq_zero {u : ℚ} : mod1 u = 0 ↔ Cong u 0 :=
  ⟨fun h => by have := (mod1_cong u).symm; rwa [h] at this, mod1_of_cong_zero⟩

theorem pivot_some {a : V} {excl : List (Fin 3)} {i : Fin 3} (h : pivot a excl = some i) : i ∉ excl ∧ a i ≠ 0 := by
  unfold pivot at h
  have := List.find?_some h
  simpa using this

theorem pivot_none {a : V} {excl : List (Fin 3)} (h : pivot a excl = none) : ∀ i ∉ excl, a i = 0 := by
  unfold pivot at h
  rw [List.find?_eq_none] at h
  intro i hi
  have := h i (List.mem_finRange i)
  simpa [hi] using this

/-- Change one coordinate of `x` so that the form gets the value `c`. -/
theorem solve_one (a x : V) (i : Fin 3) (h : a i ≠ 0) (c : ℚ) :
    ∃ x' : V, dot a x' = c ∧ ∀ g : V, g i = 0 → dot g x' = dot g x := by
  refine ⟨Function.update x i (x i + (c - dot a x) / a i), ?_, ?_⟩
  · unfold dot
    fin_cases i <;> simp [Function.update] at h ⊢ <;> field_simp <;> ring
  · intro g hg
    unfold dot
    fin_cases i <;> simp_all [Function.update]

theorem dot_sub (a g x : V) (c : ℚ) : dot (fun j => a j - c * g j) x = dot a x - c * dot g x := by
  unfold dot; ring

theorem dot_div (a x : V) (c : ℚ) : dot (fun j => a j / c) x = dot a x / c := by
  unfold dot; ring

theorem dot_zero {a : V} (h : ∀ i, a i = 0) (x : V) : dot a x = 0 := by simp [dot, h]

/-- All coefficients of the excluded columns vanish. -/
def ZeroOn (a : V) (excl : List (Fin 3)) : Prop := ∀ i ∈ excl, a i = 0

theorem zero_of_pivot_none {a : V} {excl : List (Fin 3)} (hz : ZeroOn a excl) (h : pivot a excl = none) :
    ∀ i, a i = 0 := by
  intro i
  by_cases hi : i ∈ excl
  · exact hz i hi
  · exact pivot_none h i hi

theorem zeroOn_eliminate {a a0 : V} {excl : List (Fin 3)} {i : Fin 3} {b b0 : ℚ} (ha : ZeroOn a excl)
    (h0 : ZeroOn a0 excl) (hi : a0 i ≠ 0) :
    ZeroOn (eliminate a b i (fun j => a0 j / a0 i) b0).1 (excl ++ [i]) := by
  intro j hj
  simp only [eliminate]
  rcases List.mem_append.1 hj with hj | hj
  · rw [ha j hj, h0 j hj]; simp
  · rw [List.mem_singleton.1 hj, div_self hi]; ring

theorem step3_sound (a3 : V) (b3 : ℚ) (excl : List (Fin 3)) (h : step3 a3 b3 excl = true) : ∃ x, dot a3 x = b3 := by
  unfold step3 oneLine at h
  cases hp : pivot a3 excl with
  | some i =>
    obtain ⟨x, hx, -⟩ := solve_one a3 0 i (pivot_some hp).2 b3
    exact ⟨x, hx⟩
  | none =>
    rw [hp] at h
    exact ⟨0, by simp only [decide_eq_true_eq] at h; simp [dot, h]⟩

theorem step2_sound (a2 : V) (b2 : ℚ) (a3 : V) (b3 : ℚ) (excl : List (Fin 3)) (h2 : ZeroOn a2 excl)
    (h : step2 a2 b2 a3 b3 excl = true) : ∃ x, dot a2 x = b2 ∧ Cong (dot a3 x) b3 := by
  unfold step2 oneLine at h
  cases hp : pivot a2 excl with
  | some i =>
    simp only [hp] at h
    obtain ⟨-, hi⟩ := pivot_some hp
    obtain ⟨x, hx⟩ := step3_sound _ _ _ h
    obtain ⟨x', h1, h3⟩ := solve_one a2 x i hi b2
    refine ⟨x', h1, ?_⟩
    rw [← h3] at hx
    · simp only [eliminate] at hx
      rw [dot_sub, dot_div, h1] at hx
      obtain ⟨n, hn⟩ := mod1_cong (b3 - a3 i * (b2 / a2 i))
      exact ⟨n, by linarith⟩
    · simp only [eliminate]; rw [div_self hi]; ring
  | none =>
    simp only [hp] at h
    by_cases hb : b2 = 0
    · rw [if_pos hb] at h
      obtain ⟨x, hx⟩ := step3_sound _ _ _ h
      exact ⟨x, by rw [dot_zero (zero_of_pivot_none h2 hp), hb], ⟨0, by simp [hx]⟩⟩
    · simp [hb] at h

theorem step1_sound (a1 : V) (b1 : ℚ) (a2 : V) (b2 : ℚ) (a3 : V) (b3 : ℚ) (h : step1 a1 b1 a2 b2 a3 b3 = true) :
    ∃ x, dot a1 x = b1 ∧ Cong (dot a2 x) b2 ∧ Cong (dot a3 x) b3 := by
  unfold step1 oneLine at h
  have hz : ∀ a : V, ZeroOn a [] := fun a i hi => absurd hi List.not_mem_nil
  cases hp : pivot a1 [] with
  | some i =>
    simp only [hp] at h
    obtain ⟨-, hi⟩ := pivot_some hp
    have hz2 := zeroOn_eliminate (b := b2) (b0 := b1 / a1 i) (hz a2) (hz a1) hi
    obtain ⟨x, hx2, hx3⟩ := step2_sound _ _ _ _ _ hz2 h
    obtain ⟨x', h1, h3⟩ := solve_one a1 x i hi b1
    refine ⟨x', h1, ?_, ?_⟩
    · rw [← h3 _ (by simp only [eliminate]; rw [div_self hi]; ring)] at hx2
      simp only [eliminate] at hx2
      rw [dot_sub, dot_div, h1] at hx2
      obtain ⟨n, hn⟩ := mod1_cong (b2 - a2 i * (b1 / a1 i))
      exact ⟨n, by linarith⟩
    · rw [← h3 _ (by simp only [eliminate]; rw [div_self hi]; ring)] at hx3
      simp only [eliminate] at hx3
      rw [dot_sub, dot_div, h1] at hx3
      have := hx3.trans (mod1_cong (b3 - a3 i * (b1 / a1 i)))
      obtain ⟨n, hn⟩ := this
      exact ⟨n, by linarith⟩
  | none =>
    simp only [hp] at h
    by_cases hb : b1 = 0
    · rw [if_pos hb] at h
      obtain ⟨x, hx2, hx3⟩ := step2_sound _ _ _ _ _ (hz a2) h
      exact ⟨x, by rw [dot_zero (zero_of_pivot_none (hz a1) hp), hb], ⟨0, by simp [hx2]⟩, hx3⟩
    · simp [hb] at h

/-- The number is an integer. -/
def isInt (q : ℚ) : Bool := q.den == 1

theorem isInt_iff {q : ℚ} (h : isInt q = true) : ∃ n : ℤ, q = n :=
  ⟨q.num, by simp only [isInt, beq_iff_eq] at h; exact (Rat.den_eq_one_iff q).1 h |>.symm⟩

/-- The multiplier of the elimination in the second equation is an integer. -/
def ok2 (a2 a3 : V) (excl : List (Fin 3)) : Bool :=
  match pivot a2 excl with
  | some i => isInt (a3 i / a2 i)
  | none => true

/-- All multipliers of the elimination are integers. -/
def ok1 (a : Fin 3 → V) : Bool :=
  match pivot (a 0) [] with
  | some i => isInt (a 1 i / a 0 i) && isInt (a 2 i / a 0 i) &&
      ok2 (fun j => a 1 j - a 1 i * (a 0 j / a 0 i)) (fun j => a 2 j - a 2 i * (a 0 j / a 0 i)) [i]
  | none => ok2 (a 1) (a 2) []

theorem step3_complete (a3 : V) (b3 : ℚ) (excl : List (Fin 3)) (hz : ZeroOn a3 excl) (x : V)
    (hx : Cong (dot a3 x) b3) (hb : mod1 b3 = b3) : step3 a3 b3 excl = true := by
  unfold step3 oneLine
  cases hp : pivot a3 excl with
  | some i => rfl
  | none =>
    rw [dot_zero (zero_of_pivot_none hz hp)] at hx
    simp only [decide_eq_true_eq]
    rw [← hb]
    exact mod1_of_cong_zero hx.symm

theorem mod1_idem (u : ℚ) : mod1 (mod1 u) = mod1 u := by
  unfold mod1
  have : ⌊u - ⌊u⌋⌋ = 0 := by simp
  rw [this]; simp

/-- What one elimination does to a solution modulo 1. -/
theorem eliminate_complete {a a0 x : V} {b b0 : ℚ} {i : Fin 3} (hm : isInt (a i / a0 i) = true)
    (ha : Cong (dot a x) b) (h0 : Cong (dot a0 x) b0) :
    Cong (dot (eliminate a b i (fun j => a0 j / a0 i) (b0 / a0 i)).1 x)
      (eliminate a b i (fun j => a0 j / a0 i) (b0 / a0 i)).2 := by
  obtain ⟨m, hm⟩ := isInt_iff hm
  obtain ⟨n, ha⟩ := ha
  obtain ⟨n0, h0⟩ := h0
  refine Cong.trans ?_ (mod1_cong _).symm
  simp only [eliminate]
  rw [dot_sub, dot_div, ha, h0]
  refine ⟨n - m * n0, ?_⟩
  push_cast
  rw [← hm]; ring

theorem step2_complete (a2 : V) (b2 : ℚ) (a3 : V) (b3 : ℚ) (excl : List (Fin 3)) (h2 : ZeroOn a2 excl)
    (h3 : ZeroOn a3 excl) (hok : ok2 a2 a3 excl = true) (x : V) (hx2 : Cong (dot a2 x) b2)
    (hx3 : Cong (dot a3 x) b3) (hb2 : mod1 b2 = b2) (hb3 : mod1 b3 = b3) : step2 a2 b2 a3 b3 excl = true := by
  unfold step2 oneLine
  unfold ok2 at hok
  cases hp : pivot a2 excl with
  | some i =>
    simp only [hp] at hok ⊢
    obtain ⟨-, hi⟩ := pivot_some hp
    exact step3_complete _ _ _ (zeroOn_eliminate h3 h2 hi) x (eliminate_complete hok hx3 hx2) (mod1_idem _)
  | none =>
    simp only
    rw [dot_zero (zero_of_pivot_none h2 hp)] at hx2
    rw [if_pos (by rw [← hb2]; exact mod1_of_cong_zero hx2.symm)]
    exact step3_complete _ _ _ h3 x hx3 hb3

theorem step1_complete (a : Fin 3 → V) (b : V) (hok : ok1 a = true) (x : V) (h : ∀ k, Cong (dot (a k) x) (b k)) :
    step1 (a 0) (mod1 (b 0)) (a 1) (mod1 (b 1)) (a 2) (mod1 (b 2)) = true := by
  unfold step1 oneLine
  unfold ok1 at hok
  have hz : ∀ a : V, ZeroOn a [] := fun a i hi => absurd hi List.not_mem_nil
  have hm : ∀ k, Cong (dot (a k) x) (mod1 (b k)) := fun k => (h k).trans (mod1_cong _).symm
  cases hp : pivot (a 0) [] with
  | some i =>
    simp only [hp, Bool.and_eq_true] at hok ⊢
    obtain ⟨-, hi⟩ := pivot_some hp
    refine step2_complete _ _ _ _ _ (zeroOn_eliminate (hz _) (hz _) hi) (zeroOn_eliminate (hz _) (hz _) hi) hok.2 x
      (eliminate_complete hok.1.1 (hm 1) (hm 0)) (eliminate_complete hok.1.2 (hm 2) (hm 0)) (mod1_idem _) (mod1_idem _)
  | none =>
    simp only [hp] at hok ⊢
    have h0 := h 0
    rw [dot_zero (zero_of_pivot_none (hz _) hp)] at h0
    rw [if_pos (mod1_of_cong_zero h0.symm)]
    exact step2_complete _ _ _ _ _ (hz _) (hz _) hok x (hm 1) (hm 2) (mod1_idem _) (mod1_idem _)

end Cryspy.Wyck
