import Verif.Gen.UnitCell
import Mathlib.Analysis.SpecialFunctions.Trigonometric.Inverse

/-!
# Model of `calc_matrix_t`, A_functions_base/unit_cell.py:1018-1070

One reflection at a time (the code works element by element on arrays).  `quit()` is `none`.  Real arithmetic: the test
`sb != 0.` is exact here, while in the code rounding may leave a tiny non-zero `sb`.
-/

namespace Cryspy.Cell

open Real

/-- `sa1[sa1 > 1] = 1.; sa1[sa1 < -1] = -1.`, unit_cell.py:1042-1045 -/
noncomputable def clip1 (x : ℝ) : ℝ :=
  let x1 := if x > 1 then 1 else x
  if x1 < -1 then -1 else x1

/-- the angle `al` from the two clipped ratios, unit_cell.py:1046-1051; the later assignments override the earlier ones -/
noncomputable def alOfRatios (sa1 ca2 : ℝ) : ℝ :=
  let al1 := arcsin sa1
  let al2 := arccos ca2
  if |al2 - al1| < 0.00001 then al1
  else if sa1 ≤ 0 then 2 * π - al2
  else al2

/-- the angles `al`, `be` of a direction, unit_cell.py:1035-1052 -/
noncomputable def alBe (k : Fin 3 → ℝ) : ℝ × ℝ :=
  let be := arccos (k 2)
  let sb := sin be
  let al := if sb ≠ 0 then alOfRatios (clip1 (k 0 * 1 / sb)) (clip1 (-1 * k 1 * 1 / sb)) else 0
  (al, be)

/-- the matrix of two angles (`ga = 0`), unit_cell.py:1053-1060, 1066 -/
noncomputable def tOfAngles (al be : ℝ) : Fin 9 → ℝ :=
  let ga : ℝ := 0
  let ca := cos al
  let cb := cos be
  let cg := cos ga
  let sa := sin al
  let sb := sin be
  let sg := sin ga
  ![ca * cg - sa * cb * sg, sa * cg + ca * cb * sg, sb * sg,
    -ca * sg - sa * cb * cg, -sa * sg + ca * cb * cg, sb * cg,
    sa * sb, -ca * sb, cb]

/-- the matrix for a direction, or `quit()`, unit_cell.py:1033-1066 -/
noncomputable def tOfDirection (k : Fin 3 → ℝ) : Option (Fin 9 → ℝ) :=
  let p := alBe k
  let ca := cos p.1
  let cb := cos p.2
  let sa := sin p.1
  let sb := sin p.2
  if (sa * sb - k 0) ^ 2 + (-ca * sb - k 1) ^ 2 + (cb - k 2) ^ 2 > 0.0001 then none
  else some (tOfAngles p.1 p.2)

/-- `calc_matrix_t`, unit_cell.py:1018-1070 -/
noncomputable def calc_matrix_t (hkl : Fin 3 → ℝ) (uc : Fin 6 → ℝ) : Option (Fin 9 → ℝ) :=
  tOfDirection (calc_eq_ccs hkl uc)

end Cryspy.Cell
