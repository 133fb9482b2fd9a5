import Verif.Gen.FlipRatio
import Verif.Flip.Spec
import Verif.Cell.DLemmas
import Mathlib.Analysis.Calculus.Deriv.Comp

/-! Lemmas for C24 and C25. -/

namespace Cryspy.Flip

open Cryspy.Mat

/-- real and imaginary parts -/
abbrev re3 (M : Fin 3 → ℂ) : Fin 3 → ℝ := fun k => (M k).re
abbrev im3 (M : Fin 3 → ℂ) : Fin 3 → ℝ := fun k => (M k).im

theorem dot_sq_le {z : Fin 3 → ℝ} (hz : z 0 ^ 2 + z 1 ^ 2 + z 2 ^ 2 ≤ 1) (a b c : ℝ) :
    (a * z 0 + b * z 1 + c * z 2) ^ 2 ≤ a ^ 2 + b ^ 2 + c ^ 2 := by
  have h : (a * z 0 + b * z 1 + c * z 2) ^ 2 ≤ (a ^ 2 + b ^ 2 + c ^ 2) * (z 0 ^ 2 + z 1 ^ 2 + z 2 ^ 2) := by
    nlinarith [sq_nonneg (a * z 1 - b * z 0), sq_nonneg (a * z 2 - c * z 0), sq_nonneg (b * z 2 - c * z 1)]
  nlinarith [sq_nonneg a, sq_nonneg b, sq_nonneg c]

theorem xy_nonneg {z : Fin 3 → ℝ} (hz : z 0 ^ 2 + z 1 ^ 2 + z 2 ^ 2 ≤ 1) (u v : Fin 3 → ℝ) :
    0 ≤ u 0 ^ 2 + u 1 ^ 2 + u 2 ^ 2 + (v 0 ^ 2 + v 1 ^ 2 + v 2 ^ 2) -
      ((u 0 * z 0 + u 1 * z 1 + u 2 * z 2) ^ 2 + (v 0 * z 0 + v 1 * z 1 + v 2 * z 2) ^ 2) := by
  have h1 := dot_sq_le hz (u 0) (u 1) (u 2)
  have h2 := dot_sq_le hz (v 0) (v 1) (v 2)
  linarith

theorem chiral_le {z : Fin 3 → ℝ} (hz : z 0 ^ 2 + z 1 ^ 2 + z 2 ^ 2 = 1) (u v : Fin 3 → ℝ) (s : ℝ) (hs : s ^ 2 = 1) :
    0 ≤ u 0 ^ 2 + u 1 ^ 2 + u 2 ^ 2 + (v 0 ^ 2 + v 1 ^ 2 + v 2 ^ 2) -
      ((u 0 * z 0 + u 1 * z 1 + u 2 * z 2) ^ 2 + (v 0 * z 0 + v 1 * z 1 + v 2 * z 2) ^ 2) +
      s * (2 * (z 0 * (v 1 * u 2 - u 1 * v 2) + z 1 * (v 2 * u 0 - u 2 * v 0) + z 2 * (v 0 * u 1 - u 0 * v 1))) := by
  obtain ⟨d, hd⟩ : ∃ d, u 0 * z 0 + u 1 * z 1 + u 2 * z 2 = d := ⟨_, rfl⟩
  have h : u 0 ^ 2 + u 1 ^ 2 + u 2 ^ 2 + (v 0 ^ 2 + v 1 ^ 2 + v 2 ^ 2) -
      ((u 0 * z 0 + u 1 * z 1 + u 2 * z 2) ^ 2 + (v 0 * z 0 + v 1 * z 1 + v 2 * z 2) ^ 2) +
      s * (2 * (z 0 * (v 1 * u 2 - u 1 * v 2) + z 1 * (v 2 * u 0 - u 2 * v 0) + z 2 * (v 0 * u 1 - u 0 * v 1))) =
      (u 0 - d * z 0 + s * (z 1 * v 2 - z 2 * v 1)) ^ 2 + (u 1 - d * z 1 + s * (z 2 * v 0 - z 0 * v 2)) ^ 2 +
      (u 2 - d * z 2 + s * (z 0 * v 1 - z 1 * v 0)) ^ 2 := by
    rw [← hd]
    linear_combination (-(u 0 * z 0 + u 1 * z 1 + u 2 * z 2) ^ 2 - (v 0 ^ 2 + v 1 ^ 2 + v 2 ^ 2)) * hz -
      ((z 1 * v 2 - z 2 * v 1) ^ 2 + (z 2 * v 0 - z 0 * v 2) ^ 2 + (z 0 * v 1 - z 1 * v 0) ^ 2) * hs
  rw [h]
  positivity

theorem hasDerivAt_comp' {y f : ℝ → ℝ} {y' f' x : ℝ} (hy : HasDerivAt y y' (f x)) (hf : HasDerivAt f f' x) :
    HasDerivAt (fun t => y (f t)) (y' * f') x := hy.comp x hf

end Cryspy.Flip
