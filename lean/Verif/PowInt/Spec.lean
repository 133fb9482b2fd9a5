import Verif.Flip.Spec
import Mathlib.MeasureTheory.Integral.IntervalIntegral.Basic
import Mathlib.Analysis.SpecialFunctions.Trigonometric.Basic

/-!
# Scattering by a powder, independent of the code

The scattering vector is along `z`.  In a powder there are crystallites with every azimuth `ψ` around it, so the field `H`, at
the angle `α` to the scattering vector, has every azimuth in the frame of the crystal.  The intensity of the powder is the mean
over `ψ` of the intensity of a crystallite (`crossSection`).  The field induces the moment `H σ e` on the paramagnetic atoms; its
part perpendicular to the scattering vector scatters.  The moment of magnetically ordered atoms stays as it is.
-/

namespace Cryspy.PowInt

open Real Cryspy.Flip

/-- direction of the field -/
noncomputable def fieldDir (α ψ : ℝ) : Fin 3 → ℝ := ![sin α * cos ψ, sin α * sin ψ, cos α]

/-- the moment that the field `H e` induces, `σ` given by rows, perpendicular to `z` -/
def inducedPerp (σ : Fin 9 → ℂ) (H : ℝ) (e : Fin 3 → ℝ) : Fin 3 → ℂ :=
  ![H * (σ 0 * e 0 + σ 1 * e 1 + σ 2 * e 2), H * (σ 3 * e 0 + σ 4 * e 1 + σ 5 * e 2), 0]

/-- mean over the azimuth -/
noncomputable def powderMean (f : ℝ → ℝ) : ℝ := (2 * π)⁻¹ * ∫ ψ in (0 : ℝ)..(2 * π), f ψ

/-- intensity of a powder, incoming polarisation `P`: paramagnetic tensor `σ`, ordered interaction vector `M` -/
noncomputable def powderIntensity (P : ℝ) (N : ℂ) (σ : Fin 9 → ℂ) (M : Fin 3 → ℂ) (H α : ℝ) : ℝ :=
  powderMean fun ψ => crossSection P (fieldDir α ψ) N fun k => inducedPerp σ H (fieldDir α ψ) k + M k

/-- a symmetric tensor (only the part that scatters) -/
def Symmetric (σ : Fin 9 → ℂ) : Prop := σ 1 = σ 3

/-- `d` is the list of partial derivatives of `f` at `x` -/
def IsGrad {n : ℕ} (f : (Fin n → ℝ) → ℝ) (d x : Fin n → ℝ) : Prop :=
  ∀ k, HasDerivAt (fun t => f (Function.update x k t)) (d k) (x k)

end Cryspy.PowInt
