import Mathlib.LinearAlgebra.Matrix.Trace
import Mathlib.LinearAlgebra.Matrix.ConjTranspose
import Mathlib.LinearAlgebra.Matrix.Notation
import Mathlib.Analysis.Complex.Basic
import Mathlib.Analysis.Calculus.Deriv.Basic

/-!
# Scattering of polarised neutrons, independent of the code

A neutron spin is a two-component vector.  A crystal with nuclear structure factor `N` and magnetic interaction vector `M`
acts on it by `A = N + M·σ`; a beam polarised to the degree `P` along `z` has the density matrix `ρ = (1 + P z·σ)/2`; the
intensity, whatever the final spin, is the trace of `A ρ A†`.
-/

namespace Cryspy.Flip

open Matrix

/-- `v·σ` with the Pauli matrices -/
def pauli (v : Fin 3 → ℂ) : Matrix (Fin 2) (Fin 2) ℂ :=
  !![v 2, v 0 - Complex.I * v 1; v 0 + Complex.I * v 1, -v 2]

/-- the operator of the crystal on the neutron spin -/
def amplitude (N : ℂ) (M : Fin 3 → ℂ) : Matrix (Fin 2) (Fin 2) ℂ := N • (1 : Matrix (Fin 2) (Fin 2) ℂ) + pauli M

/-- density matrix of a beam with polarisation `P` along `z` -/
noncomputable def beam (P : ℝ) (z : Fin 3 → ℝ) : Matrix (Fin 2) (Fin 2) ℂ :=
  (1 / 2 : ℂ) • ((1 : Matrix (Fin 2) (Fin 2) ℂ) + (P : ℂ) • pauli fun k => (z k : ℂ))

/-- intensity of a beam with polarisation `P` along `z` -/
noncomputable def crossSection (P : ℝ) (z : Fin 3 → ℝ) (N : ℂ) (M : Fin 3 → ℂ) : ℝ :=
  (amplitude N M * beam P z * (amplitude N M)ᴴ).trace.re

/-- a unit vector -/
def IsUnit3 (z : Fin 3 → ℝ) : Prop := z 0 ^ 2 + z 1 ^ 2 + z 2 ^ 2 = 1

/-- The real and the imaginary part of a vector are parallel, so its cross product with the conjugate vanishes
(no chiral scattering). -/
def Achiral (M : Fin 3 → ℂ) : Prop := ∀ i j, (M i).im * (M j).re = (M i).re * (M j).im

/-- `d` is the list of partial derivatives of `f` at `x` -/
def IsGradient (f : (Fin 3 → ℝ) → ℝ) (d x : Fin 3 → ℝ) : Prop :=
  ∀ j, HasDerivAt (fun t => f (Function.update x j t)) (d j) (x j)

end Cryspy.Flip
