import Verif.Ext.Model
import Mathlib.Analysis.Calculus.Deriv.Inv
import Mathlib.Analysis.Calculus.Deriv.Add
import Mathlib.Analysis.Calculus.Deriv.Pow

/-! Lemmas for C26. -/

namespace Cryspy.Ext

open Real

/-- conditions under which the radicand grows from one -/
def Good (k A B : ℝ) : Prop := 0 ≤ B ∧ (0 ≤ A ∨ 0 < B ∧ -A ≤ k * B)

theorem radicand_mono {k A B x x' : ℝ} (hk : 0 ≤ k) (h : Good k A B) (hx : 0 ≤ x) (hxx : x ≤ x') :
    radicand k A B x ≤ radicand k A B x' := by
  obtain ⟨hB, hA⟩ := h
  have h1 : 0 < 1 + B * x := by positivity
  have hx' : 0 ≤ x' := hx.trans hxx
  have h2 : 0 < 1 + B * x' := by positivity
  have key : radicand k A B x' - radicand k A B x =
      (x' - x) * (k + A * (x + x' + B * x * x') / ((1 + B * x) * (1 + B * x'))) := by
    unfold radicand; field_simp; ring
  have hpos : 0 ≤ k + A * (x + x' + B * x * x') / ((1 + B * x) * (1 + B * x')) := by
    rcases hA with hA | ⟨hB', hA⟩
    · positivity
    · rw [← sub_nonneg, sub_zero]
      have : k + A * (x + x' + B * x * x') / ((1 + B * x) * (1 + B * x')) =
          (k * ((1 + B * x) * (1 + B * x')) + A * (x + x' + B * x * x')) / ((1 + B * x) * (1 + B * x')) := by
        field_simp
      rw [this]
      apply div_nonneg _ (by positivity)
      have hs : 0 ≤ x + x' + B * x * x' := by positivity
      nlinarith [mul_le_mul_of_nonneg_right hA hs]
  have := mul_nonneg (sub_nonneg.2 hxx) hpos
  linarith

theorem radicand_zero (k A B : ℝ) : radicand k A B 0 = 1 := by simp [radicand]

theorem one_le_radicand {k A B x : ℝ} (hk : 0 ≤ k) (h : Good k A B) (hx : 0 ≤ x) : 1 ≤ radicand k A B x := by
  rw [← radicand_zero k A B]; exact radicand_mono hk h le_rfl hx

theorem inv_sqrt_range {r : ℝ} (h : 1 ≤ r) : 0 < 1 / √r ∧ 1 / √r ≤ 1 := by
  have h1 : 1 ≤ √r := Real.one_le_sqrt.2 h
  exact ⟨by positivity, (div_le_one (by positivity)).2 h1⟩

theorem invSqrt_of_pos {k A B x : ℝ} (h1 : 1 + B * x ≠ 0) (h2 : 0 < radicand k A B x) :
    invSqrt k A B x = some (1 / √(radicand k A B x)) := if_pos ⟨h1, h2⟩

theorem invSqrt_good {k A B x : ℝ} (hk : 0 ≤ k) (h : Good k A B) (hx : 0 ≤ x) :
    ∃ y, invSqrt k A B x = some y ∧ 0 < y ∧ y ≤ 1 := by
  have h1 : 0 < 1 + B * x := by have := mul_nonneg h.1 hx; linarith
  have h2 := one_le_radicand hk h hx
  exact ⟨_, invSqrt_of_pos h1.ne' (by linarith), inv_sqrt_range h2⟩

theorem invSqrt_anti {k A B x x' y y' : ℝ} (hk : 0 ≤ k) (h : Good k A B) (hx : 0 ≤ x) (hxx : x ≤ x')
    (e : invSqrt k A B x = some y) (e' : invSqrt k A B x' = some y') : y' ≤ y := by
  have h1 : 0 < 1 + B * x := by have := mul_nonneg h.1 hx; linarith
  have h1' : 0 < 1 + B * x' := by have := mul_nonneg h.1 (hx.trans hxx); linarith
  have h2 := one_le_radicand hk h hx
  have h2' := one_le_radicand hk h (hx.trans hxx)
  rw [invSqrt_of_pos h1.ne' (by linarith)] at e
  rw [invSqrt_of_pos h1'.ne' (by linarith)] at e'
  obtain rfl := Option.some.inj e
  obtain rfl := Option.some.inj e'
  have := Real.sqrt_le_sqrt (radicand_mono hk h hx hxx)
  have : 0 < √(radicand k A B x) := Real.sqrt_pos.2 (by linarith)
  exact one_div_le_one_div_of_le this ‹_›

theorem invSqrt_zero (k A B : ℝ) : invSqrt k A B 0 = some 1 := by
  rw [invSqrt_of_pos (by simp) (by rw [radicand_zero]; norm_num), radicand_zero]; simp

/-- The derivative of `1/√(1 + kx + Ax²/(1+Bx))`. -/
theorem hasDerivAt_form {k A B x : ℝ → ℝ} {k' A' B' x' t : ℝ} (hk : HasDerivAt k k' t) (hA : HasDerivAt A A' t)
    (hB : HasDerivAt B B' t) (hx : HasDerivAt x x' t) (h1 : 1 + B t * x t ≠ 0) (h2 : 0 < radicand (k t) (A t) (B t) (x t)) :
    HasDerivAt (fun s => 1 / √(1 + k s * x s + A s * x s ^ 2 / (1 + B s * x s)))
      (-(1 / 2) * (1 / √(1 + k t * x t + A t * x t ^ 2 / (1 + B t * x t))) ^ 3 *
        (k' * x t + k t * x' + (A' * x t ^ 2 + A t * (2 * x t * x')) / (1 + B t * x t) -
          A t * x t ^ 2 * (B' * x t + B t * x') / (1 + B t * x t) ^ 2)) t := by
  have hden := HasDerivAt.fun_add (hasDerivAt_const t (1 : ℝ)) (HasDerivAt.fun_mul hB hx)
  have hnum := HasDerivAt.fun_mul hA (HasDerivAt.fun_pow hx 2)
  have hr := HasDerivAt.fun_add (HasDerivAt.fun_add (hasDerivAt_const t (1 : ℝ)) (HasDerivAt.fun_mul hk hx))
    (HasDerivAt.fun_div hnum hden h1)
  have hs := hr.sqrt (by exact h2.ne')
  have hs0 : √(1 + k t * x t + A t * x t ^ 2 / (1 + B t * x t)) ≠ 0 := (Real.sqrt_pos.2 h2).ne'
  refine (HasDerivAt.fun_div (hasDerivAt_const t (1 : ℝ)) hs hs0).congr_deriv ?_
  obtain ⟨s, hs⟩ : ∃ s, √(1 + k t * x t + A t * x t ^ 2 / (1 + B t * x t)) = s := ⟨_, rfl⟩
  rw [hs] at hs0 ⊢
  obtain ⟨D, hD⟩ : ∃ D, 1 + B t * x t = D := ⟨_, rfl⟩
  rw [hD] at h1 ⊢
  simp only [Nat.cast_ofNat, Nat.add_one_sub_one, pow_one, zero_add, zero_mul, zero_sub, one_mul]
  field_simp
  ring

end Cryspy.Ext
