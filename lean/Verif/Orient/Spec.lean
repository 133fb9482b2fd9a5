import Verif.Rot.Spec
import Verif.Regrid.Spec
import Verif.Cell.Spec

/-!
# Scattering on a diffractometer with a vertical axis

The first axis of the laboratory is along the incoming beam, the third is vertical.  The crystal is turned about the vertical axis by `φ`
(anticlockwise seen from above); a reflection whose scattering vector at `φ = 0` is `q` scatters when the outgoing wave vector, the sum of
the incoming one and of the turned `q`, is as long as the incoming one.  Directions by the two angles of the detector: `Regrid.dirDet`.
-/

namespace Cryspy.Orient

open Real Matrix Cryspy.Rot

/-- wave vector of the incoming beam -/
noncomputable def beam (lam : ℝ) : Fin 3 → ℝ := ![1 / lam, 0, 0]

/-- outgoing wave vector when the crystal is turned by `phi` degrees -/
noncomputable def outgoing (q : Fin 3 → ℝ) (lam phi : ℝ) : Fin 3 → ℝ := beam lam + Rz (phi * π / 180) *ᵥ q

/-- lengths and angles in degrees to lengths and angles in radians -/
noncomputable def toRad (p : Fin 6 → ℝ) : Fin 6 → ℝ := ![p 0, p 1, p 2, p 3 * (π / 180), p 4 * (π / 180), p 5 * (π / 180)]

end Cryspy.Orient
