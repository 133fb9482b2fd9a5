import Verif.Mat.Spec
import Mathlib.Analysis.Calculus.Deriv.Add
import Mathlib.Analysis.Calculus.Deriv.Mul
import Mathlib.Analysis.Calculus.Deriv.Pow
import Mathlib.Tactic.FinCases
import Mathlib.Tactic.Ring
import Mathlib.Tactic.FieldSimp
import Mathlib.Tactic.LinearCombination

/-! Tools used by the proofs about flat matrices and derivatives. -/

namespace Cryspy.Mat

theorem fin3 {P : Fin 3 → Prop} (h0 : P 0) (h1 : P 1) (h2 : P 2) : ∀ k, P k := by
  intro k; fin_cases k <;> assumption

theorem fin6 {P : Fin 6 → Prop} (h0 : P 0) (h1 : P 1) (h2 : P 2) (h3 : P 3) (h4 : P 4) (h5 : P 5) : ∀ k, P k := by
  intro k; fin_cases k <;> assumption

theorem fin9 {P : Fin 9 → Prop} (h0 : P 0) (h1 : P 1) (h2 : P 2) (h3 : P 3) (h4 : P 4) (h5 : P 5)
    (h6 : P 6) (h7 : P 7) (h8 : P 8) : ∀ k, P k := by
  intro k; fin_cases k <;> assumption

theorem m_ext {K : Type} {A B : Matrix (Fin 3) (Fin 3) K} (h00 : A 0 0 = B 0 0) (h01 : A 0 1 = B 0 1)
    (h02 : A 0 2 = B 0 2) (h10 : A 1 0 = B 1 0) (h11 : A 1 1 = B 1 1) (h12 : A 1 2 = B 1 2)
    (h20 : A 2 0 = B 2 0) (h21 : A 2 1 = B 2 1) (h22 : A 2 2 = B 2 2) : A = B :=
  Matrix.ext (fin3 (fin3 h00 h01 h02) (fin3 h10 h11 h12) (fin3 h20 h21 h22))

theorem v_ext {K : Type} {a b : Fin 3 → K} (h0 : a 0 = b 0) (h1 : a 1 = b 1) (h2 : a 2 = b 2) : a = b :=
  funext (fin3 h0 h1 h2)

theorem eq_mul_inv {K : Type} [Field K] {X A B : Matrix (Fin 3) (Fin 3) K} (h : A.det ≠ 0) (e : X * A = B) :
    X = B * A⁻¹ := by
  rw [← e, Matrix.mul_nonsing_inv_cancel_right _ _ (Ne.isUnit h)]

/-- a function that is quadratic around `x` has the linear coefficient as derivative -/
theorem hasDerivAt_of_quad {g : ℝ → ℝ} {x d : ℝ}
    (h : ∀ s, g (x + s) = g x + d * s + ((g (x + 1) + g (x - 1)) / 2 - g x) * s ^ 2) : HasDerivAt g d x := by
  set c := (g (x + 1) + g (x - 1)) / 2 - g x with hc
  have e : g = fun t => g x + d * (t - x) + c * (t - x) ^ 2 := by
    funext t
    have := h (t - x)
    rw [add_sub_cancel] at this
    exact this
  have h1 : HasDerivAt (fun t : ℝ => t - x) 1 x := (hasDerivAt_id' x).sub_const x
  have h2 : HasDerivAt (fun t : ℝ => g x + d * (t - x) + c * (t - x) ^ 2) (d * 1 + c * ((2 : ℕ) * (x - x) ^ (2 - 1) * 1)) x :=
    ((h1.const_mul d).const_add _).add ((h1.pow 2).const_mul c)
  rw [e]
  simpa using h2

theorem isJacobian_of_quad {n : ℕ} {ι : Type} {f : (Fin n → ℝ) → ι → ℝ} {d : ι → Fin n → ℝ} {x : Fin n → ℝ}
    (h : ∀ i j s, f (Function.update x j (x j + s)) i = f x i + d i j * s
      + ((f (Function.update x j (x j + 1)) i + f (Function.update x j (x j - 1)) i) / 2 - f x i) * s ^ 2) :
    IsJacobian f d x := by
  intro i j
  apply hasDerivAt_of_quad
  intro s
  rw [Function.update_eq_self]
  exact h i j s

/-- a reported derivative that differs from the true one is not the derivative -/
theorem not_isJacobian {n : ℕ} {ι : Type} {f : (Fin n → ℝ) → ι → ℝ} {d : ι → Fin n → ℝ} {x : Fin n → ℝ} (i : ι)
    (j : Fin n) (d' : ℝ) (h : HasDerivAt (fun t => f (Function.update x j t) i) d' (x j)) (hne : d i j ≠ d') :
    ¬ IsJacobian f d x := fun H => hne ((H i j).unique h)

end Cryspy.Mat
