import Verif.Mat.Spec
import Mathlib.Analysis.SpecialFunctions.Complex.Arg

/-!
# Rotations

A rotation is a real 3x3 matrix with `RᵀR = 1` and determinant one.  `Rx t`, `Ry t`, `Rz t` turn vectors by the angle `t` about the axes
(anticlockwise when looking against the axis: `Rz t` takes the first axis towards the second, `Rx` the second towards the third, `Ry` the
third towards the first).
-/

namespace Cryspy.Rot

open Real Matrix

/-- real matrices -/
abbrev M3 := Matrix (Fin 3) (Fin 3) ℝ

/-- turns vectors without changing lengths, angles and handedness -/
def IsRotation (R : M3) : Prop := Rᵀ * R = 1 ∧ R.det = 1

/-- turn about the first axis -/
noncomputable def Rx (t : ℝ) : M3 := !![1, 0, 0; 0, cos t, -sin t; 0, sin t, cos t]

/-- turn about the second axis -/
noncomputable def Ry (t : ℝ) : M3 := !![cos t, 0, sin t; 0, 1, 0; -sin t, 0, cos t]

/-- turn about the third axis -/
noncomputable def Rz (t : ℝ) : M3 := !![cos t, -sin t, 0; sin t, cos t, 0; 0, 0, 1]

/-- length of a vector -/
noncomputable def len (v : Fin 3 → ℝ) : ℝ := √(v ⬝ᵥ v)

end Cryspy.Rot
