import Mathlib.Analysis.SpecialFunctions.Sqrt
import Mathlib.Analysis.SpecialFunctions.Trigonometric.Basic

/-!
# Model of A_functions_base/extinction.py

Generated from the source by tools/gen_extinction.py (see tools/py2lean.py): the formulas.  `…_off` are the branches for
`not(radius*mosaicity_rad>0)`.  Two points are treated by hand in Verif/Ext/Model.lean: numpy's square root of a negative
number is NaN, and the statement `y_s[numpy.isnan(y_s)]=1.` of the Gauss model replaces it by one.
Numbers are reals; axes over reflections are dropped.
-/

namespace Cryspy.Ext

/-- `calc_extinction_sphere_primary`, output `0`, A_functions_base/extinction.py:4-47. -/
noncomputable def primary (f_sq : ℝ) (radius : ℝ) (volume_unit_cell : ℝ) (cos_2theta : ℝ) (wavelength : ℝ) : ℝ :=
  let x : ℝ := (3 / 2) * f_sq * (wavelength * radius / volume_unit_cell) ^ 2
  let A : ℝ := (1 / 5) + (9 / 20) * cos_2theta
  let B : ℝ := (11 / 50) - (3 / 25) * ((1 / 2) - cos_2theta) ^ 2
  let x_sq : ℝ := x ^ 2
  let y_p : ℝ := 1 / Real.sqrt (1 + 2 * x + A * x_sq / (1 + B * x))
  y_p

/-- `calc_extinction_sphere_primary`, output `var:x`, A_functions_base/extinction.py:4-47. -/
noncomputable def primary_x (f_sq : ℝ) (radius : ℝ) (volume_unit_cell : ℝ) (cos_2theta : ℝ) (wavelength : ℝ) : ℝ :=
  let x : ℝ := (3 / 2) * f_sq * (wavelength * radius / volume_unit_cell) ^ 2
  x

/-- `calc_extinction_sphere_primary`, output `var:A`, A_functions_base/extinction.py:4-47. -/
noncomputable def primary_A (f_sq : ℝ) (radius : ℝ) (volume_unit_cell : ℝ) (cos_2theta : ℝ) (wavelength : ℝ) : ℝ :=
  let A : ℝ := (1 / 5) + (9 / 20) * cos_2theta
  A

/-- `calc_extinction_sphere_primary`, output `var:B`, A_functions_base/extinction.py:4-47. -/
noncomputable def primary_B (f_sq : ℝ) (radius : ℝ) (volume_unit_cell : ℝ) (cos_2theta : ℝ) (wavelength : ℝ) : ℝ :=
  let B : ℝ := (11 / 50) - (3 / 25) * ((1 / 2) - cos_2theta) ^ 2
  B

/-- `calc_extinction_sphere_primary`, output `f_sq`, A_functions_base/extinction.py:4-47. -/
noncomputable def d_primary_f_sq (f_sq : ℝ) (radius : ℝ) (volume_unit_cell : ℝ) (cos_2theta : ℝ) (wavelength : ℝ) : ℝ :=
  let x : ℝ := (3 / 2) * f_sq * (wavelength * radius / volume_unit_cell) ^ 2
  let A : ℝ := (1 / 5) + (9 / 20) * cos_2theta
  let B : ℝ := (11 / 50) - (3 / 25) * ((1 / 2) - cos_2theta) ^ 2
  let x_sq : ℝ := x ^ 2
  let y_p : ℝ := 1 / Real.sqrt (1 + 2 * x + A * x_sq / (1 + B * x))
  let der_yp_x : ℝ := -(1 / 2) * y_p ^ 3 * (2 + 2 * A * x / (1 + B * x) - A * B * x_sq / (1 + B * x) ^ 2)
  der_yp_x * (3 / 2) * (wavelength * radius / volume_unit_cell) ^ 2 * 1

/-- `calc_extinction_sphere_primary`, output `radius`, A_functions_base/extinction.py:4-47. -/
noncomputable def d_primary_radius (f_sq : ℝ) (radius : ℝ) (volume_unit_cell : ℝ) (cos_2theta : ℝ) (wavelength : ℝ) : ℝ :=
  let x : ℝ := (3 / 2) * f_sq * (wavelength * radius / volume_unit_cell) ^ 2
  let A : ℝ := (1 / 5) + (9 / 20) * cos_2theta
  let B : ℝ := (11 / 50) - (3 / 25) * ((1 / 2) - cos_2theta) ^ 2
  let x_sq : ℝ := x ^ 2
  let y_p : ℝ := 1 / Real.sqrt (1 + 2 * x + A * x_sq / (1 + B * x))
  let der_yp_x : ℝ := -(1 / 2) * y_p ^ 3 * (2 + 2 * A * x / (1 + B * x) - A * B * x_sq / (1 + B * x) ^ 2)
  der_yp_x * 3 * f_sq * radius * (wavelength / volume_unit_cell) ^ 2

/-- `calc_extinction_sphere_primary`, output `volume_unit_cell`, A_functions_base/extinction.py:4-47. -/
noncomputable def d_primary_volume_unit_cell (f_sq : ℝ) (radius : ℝ) (volume_unit_cell : ℝ) (cos_2theta : ℝ) (wavelength : ℝ) : ℝ :=
  let x : ℝ := (3 / 2) * f_sq * (wavelength * radius / volume_unit_cell) ^ 2
  let A : ℝ := (1 / 5) + (9 / 20) * cos_2theta
  let B : ℝ := (11 / 50) - (3 / 25) * ((1 / 2) - cos_2theta) ^ 2
  let x_sq : ℝ := x ^ 2
  let y_p : ℝ := 1 / Real.sqrt (1 + 2 * x + A * x_sq / (1 + B * x))
  let der_yp_x : ℝ := -(1 / 2) * y_p ^ 3 * (2 + 2 * A * x / (1 + B * x) - A * B * x_sq / (1 + B * x) ^ 2)
  (-3 * der_yp_x * f_sq * (wavelength * radius / volume_unit_cell) ^ 2 * 1 / volume_unit_cell)

/-- `calc_extinction_sphere_primary`, output `cos_2theta`, A_functions_base/extinction.py:4-47. -/
noncomputable def d_primary_cos_2theta (f_sq : ℝ) (radius : ℝ) (volume_unit_cell : ℝ) (cos_2theta : ℝ) (wavelength : ℝ) : ℝ :=
  let x : ℝ := (3 / 2) * f_sq * (wavelength * radius / volume_unit_cell) ^ 2
  let A : ℝ := (1 / 5) + (9 / 20) * cos_2theta
  let B : ℝ := (11 / 50) - (3 / 25) * ((1 / 2) - cos_2theta) ^ 2
  let x_sq : ℝ := x ^ 2
  let y_p : ℝ := 1 / Real.sqrt (1 + 2 * x + A * x_sq / (1 + B * x))
  let der_A_cos_2theta : ℝ := (9 / 20)
  let der_B_cos_2theta : ℝ := (6 / 25) * ((1 / 2) - cos_2theta)
  let der_yp_A : ℝ := -(1 / 2) * y_p ^ 3 * x_sq / (1 + B * x)
  let der_yp_B : ℝ := (1 / 2) * y_p ^ 3 * A * x_sq * x / (1 + B * x) ^ 2
  (der_yp_A * der_A_cos_2theta + der_yp_B * der_B_cos_2theta) * 1

/-- `calc_extinction_sphere_primary`, output `wavelength`, A_functions_base/extinction.py:4-47. -/
noncomputable def d_primary_wavelength (f_sq : ℝ) (radius : ℝ) (volume_unit_cell : ℝ) (cos_2theta : ℝ) (wavelength : ℝ) : ℝ :=
  let x : ℝ := (3 / 2) * f_sq * (wavelength * radius / volume_unit_cell) ^ 2
  let A : ℝ := (1 / 5) + (9 / 20) * cos_2theta
  let B : ℝ := (11 / 50) - (3 / 25) * ((1 / 2) - cos_2theta) ^ 2
  let x_sq : ℝ := x ^ 2
  let y_p : ℝ := 1 / Real.sqrt (1 + 2 * x + A * x_sq / (1 + B * x))
  let der_yp_x : ℝ := -(1 / 2) * y_p ^ 3 * (2 + 2 * A * x / (1 + B * x) - A * B * x_sq / (1 + B * x) ^ 2)
  der_yp_x * 3 * f_sq * wavelength * (radius / volume_unit_cell) ^ 2 * 1

/-- `calc_extinction_sphere_secondary_gauss`, output `0`, A_functions_base/extinction.py:50-108. -/
noncomputable def gauss (f_sq : ℝ) (radius : ℝ) (mosaicity : ℝ) (volume_unit_cell : ℝ) (cos_2theta : ℝ) (wavelength : ℝ) : ℝ :=
  let mosaicity_rad : ℝ := mosaicity * Real.pi / (180 * 60)
  let term_1 : ℝ := mosaicity_rad / Real.sqrt ((mosaicity_rad * wavelength) ^ 2 + 9 / 8 * radius ^ 2 * (1 - cos_2theta ^ 2))
  let x : ℝ := (3 / 2) * f_sq * wavelength * (wavelength * radius / volume_unit_cell) ^ 2 * term_1
  let A : ℝ := (29 / 50) + (12 / 25) * cos_2theta + (6 / 25) * cos_2theta ^ 2
  let B : ℝ := (1 / 50) - (1 / 40) * cos_2theta
  let x_sq : ℝ := x ^ 2
  let y_s : ℝ := 1 / Real.sqrt (1 + (53 / 25) * x + A * x_sq / (1 + B * x))
  y_s

/-- `calc_extinction_sphere_secondary_gauss`, output `var:x`, A_functions_base/extinction.py:50-108. -/
noncomputable def gauss_x (f_sq : ℝ) (radius : ℝ) (mosaicity : ℝ) (volume_unit_cell : ℝ) (cos_2theta : ℝ) (wavelength : ℝ) : ℝ :=
  let mosaicity_rad : ℝ := mosaicity * Real.pi / (180 * 60)
  let term_1 : ℝ := mosaicity_rad / Real.sqrt ((mosaicity_rad * wavelength) ^ 2 + 9 / 8 * radius ^ 2 * (1 - cos_2theta ^ 2))
  let x : ℝ := (3 / 2) * f_sq * wavelength * (wavelength * radius / volume_unit_cell) ^ 2 * term_1
  x

/-- `calc_extinction_sphere_secondary_gauss`, output `var:A`, A_functions_base/extinction.py:50-108. -/
noncomputable def gauss_A (f_sq : ℝ) (radius : ℝ) (mosaicity : ℝ) (volume_unit_cell : ℝ) (cos_2theta : ℝ) (wavelength : ℝ) : ℝ :=
  let A : ℝ := (29 / 50) + (12 / 25) * cos_2theta + (6 / 25) * cos_2theta ^ 2
  A

/-- `calc_extinction_sphere_secondary_gauss`, output `var:B`, A_functions_base/extinction.py:50-108. -/
noncomputable def gauss_B (f_sq : ℝ) (radius : ℝ) (mosaicity : ℝ) (volume_unit_cell : ℝ) (cos_2theta : ℝ) (wavelength : ℝ) : ℝ :=
  let B : ℝ := (1 / 50) - (1 / 40) * cos_2theta
  B

/-- `calc_extinction_sphere_secondary_gauss`, output `f_sq`, A_functions_base/extinction.py:50-108. -/
noncomputable def d_gauss_f_sq (f_sq : ℝ) (radius : ℝ) (mosaicity : ℝ) (volume_unit_cell : ℝ) (cos_2theta : ℝ) (wavelength : ℝ) : ℝ :=
  let mosaicity_rad : ℝ := mosaicity * Real.pi / (180 * 60)
  let term_1 : ℝ := mosaicity_rad / Real.sqrt ((mosaicity_rad * wavelength) ^ 2 + 9 / 8 * radius ^ 2 * (1 - cos_2theta ^ 2))
  let x : ℝ := (3 / 2) * f_sq * wavelength * (wavelength * radius / volume_unit_cell) ^ 2 * term_1
  let A : ℝ := (29 / 50) + (12 / 25) * cos_2theta + (6 / 25) * cos_2theta ^ 2
  let B : ℝ := (1 / 50) - (1 / 40) * cos_2theta
  let x_sq : ℝ := x ^ 2
  let y_s : ℝ := 1 / Real.sqrt (1 + (53 / 25) * x + A * x_sq / (1 + B * x))
  let der_ys_x : ℝ := -(1 / 2) * y_s ^ 3 * ((53 / 25) + 2 * A * x / (1 + B * x) - A * B * x_sq / (1 + B * x) ^ 2)
  der_ys_x * (3 / 2) * wavelength * (wavelength * radius / volume_unit_cell) ^ 2 * term_1 * 1

/-- `calc_extinction_sphere_secondary_gauss`, output `radius`, A_functions_base/extinction.py:50-108. -/
noncomputable def d_gauss_radius (f_sq : ℝ) (radius : ℝ) (mosaicity : ℝ) (volume_unit_cell : ℝ) (cos_2theta : ℝ) (wavelength : ℝ) : ℝ :=
  let mosaicity_rad : ℝ := mosaicity * Real.pi / (180 * 60)
  let term_1 : ℝ := mosaicity_rad / Real.sqrt ((mosaicity_rad * wavelength) ^ 2 + 9 / 8 * radius ^ 2 * (1 - cos_2theta ^ 2))
  let x : ℝ := (3 / 2) * f_sq * wavelength * (wavelength * radius / volume_unit_cell) ^ 2 * term_1
  let A : ℝ := (29 / 50) + (12 / 25) * cos_2theta + (6 / 25) * cos_2theta ^ 2
  let B : ℝ := (1 / 50) - (1 / 40) * cos_2theta
  let x_sq : ℝ := x ^ 2
  let y_s : ℝ := 1 / Real.sqrt (1 + (53 / 25) * x + A * x_sq / (1 + B * x))
  let der_ys_x : ℝ := -(1 / 2) * y_s ^ 3 * ((53 / 25) + 2 * A * x / (1 + B * x) - A * B * x_sq / (1 + B * x) ^ 2)
  der_ys_x * (2 * radius * (3 / 2) * f_sq * wavelength * (wavelength / volume_unit_cell) ^ 2 * term_1 + (3 / 2) * f_sq * wavelength * (wavelength * radius / volume_unit_cell) ^ 2 * mosaicity_rad / Real.sqrt ((mosaicity_rad * wavelength) ^ 2 + 9 / 8 * radius ^ 2 * (1 - cos_2theta ^ 2)) ^ 3 * 9 / 8 * 2 * radius * (1 - cos_2theta ^ 2))

/-- `calc_extinction_sphere_secondary_gauss`, output `mosaicity`, A_functions_base/extinction.py:50-108. -/
noncomputable def d_gauss_mosaicity (f_sq : ℝ) (radius : ℝ) (mosaicity : ℝ) (volume_unit_cell : ℝ) (cos_2theta : ℝ) (wavelength : ℝ) : ℝ :=
  let mosaicity_rad : ℝ := mosaicity * Real.pi / (180 * 60)
  let term_1 : ℝ := mosaicity_rad / Real.sqrt ((mosaicity_rad * wavelength) ^ 2 + 9 / 8 * radius ^ 2 * (1 - cos_2theta ^ 2))
  let x : ℝ := (3 / 2) * f_sq * wavelength * (wavelength * radius / volume_unit_cell) ^ 2 * term_1
  let A : ℝ := (29 / 50) + (12 / 25) * cos_2theta + (6 / 25) * cos_2theta ^ 2
  let B : ℝ := (1 / 50) - (1 / 40) * cos_2theta
  let x_sq : ℝ := x ^ 2
  let y_s : ℝ := 1 / Real.sqrt (1 + (53 / 25) * x + A * x_sq / (1 + B * x))
  let der_ys_x : ℝ := -(1 / 2) * y_s ^ 3 * ((53 / 25) + 2 * A * x / (1 + B * x) - A * B * x_sq / (1 + B * x) ^ 2)
  Real.pi / (180 * 60) * der_ys_x * (3 / 2) * f_sq * wavelength * (wavelength * radius / volume_unit_cell) ^ 2 * (1 / Real.sqrt ((mosaicity_rad * wavelength) ^ 2 + 9 / 8 * radius ^ 2 * (1 - cos_2theta ^ 2)) + mosaicity_rad / Real.sqrt ((mosaicity_rad * wavelength) ^ 2 + 9 / 8 * radius ^ 2 * (1 - cos_2theta ^ 2)) ^ 3 * 2 * wavelength ^ 2 * mosaicity_rad)

/-- `calc_extinction_sphere_secondary_gauss`, output `volume_unit_cell`, A_functions_base/extinction.py:50-108. -/
noncomputable def d_gauss_volume_unit_cell (f_sq : ℝ) (radius : ℝ) (mosaicity : ℝ) (volume_unit_cell : ℝ) (cos_2theta : ℝ) (wavelength : ℝ) : ℝ :=
  0 * 1

/-- `calc_extinction_sphere_secondary_gauss`, output `cos_2theta`, A_functions_base/extinction.py:50-108. -/
noncomputable def d_gauss_cos_2theta (f_sq : ℝ) (radius : ℝ) (mosaicity : ℝ) (volume_unit_cell : ℝ) (cos_2theta : ℝ) (wavelength : ℝ) : ℝ :=
  0 * 1

/-- `calc_extinction_sphere_secondary_gauss`, output `wavelength`, A_functions_base/extinction.py:50-108. -/
noncomputable def d_gauss_wavelength (f_sq : ℝ) (radius : ℝ) (mosaicity : ℝ) (volume_unit_cell : ℝ) (cos_2theta : ℝ) (wavelength : ℝ) : ℝ :=
  0 * 1

/-- `calc_extinction_sphere_secondary_lorentz`, output `0`, A_functions_base/extinction.py:111-157. -/
noncomputable def lorentz (f_sq : ℝ) (radius : ℝ) (mosaicity : ℝ) (volume_unit_cell : ℝ) (cos_2theta : ℝ) (wavelength : ℝ) : ℝ :=
  let mosaicity_rad : ℝ := mosaicity * Real.pi / (180 * 60)
  let term_1 : ℝ := mosaicity_rad / (mosaicity_rad * wavelength + radius * Real.sqrt (1 - cos_2theta ^ 2))
  let x : ℝ := (3 / 2) * f_sq * wavelength * (wavelength * radius / volume_unit_cell) ^ 2 * term_1
  let A : ℝ := (1 / 40) + (57 / 200) * cos_2theta
  let B_1 : ℝ := -(9 / 20) * cos_2theta
  let B_2 : ℝ := (3 / 20) - (1 / 5) * ((3 / 4) - cos_2theta) ^ 2
  let B : ℝ := if cos_2theta > 0 then B_2 else B_1
  let x_sq : ℝ := x ^ 2
  let y_s : ℝ := 1 / Real.sqrt (1 + 2 * x + A * x_sq / (1 + B * x))
  y_s

/-- `calc_extinction_sphere_secondary_lorentz`, output `var:x`, A_functions_base/extinction.py:111-157. -/
noncomputable def lorentz_x (f_sq : ℝ) (radius : ℝ) (mosaicity : ℝ) (volume_unit_cell : ℝ) (cos_2theta : ℝ) (wavelength : ℝ) : ℝ :=
  let mosaicity_rad : ℝ := mosaicity * Real.pi / (180 * 60)
  let term_1 : ℝ := mosaicity_rad / (mosaicity_rad * wavelength + radius * Real.sqrt (1 - cos_2theta ^ 2))
  let x : ℝ := (3 / 2) * f_sq * wavelength * (wavelength * radius / volume_unit_cell) ^ 2 * term_1
  x

/-- `calc_extinction_sphere_secondary_lorentz`, output `var:A`, A_functions_base/extinction.py:111-157. -/
noncomputable def lorentz_A (f_sq : ℝ) (radius : ℝ) (mosaicity : ℝ) (volume_unit_cell : ℝ) (cos_2theta : ℝ) (wavelength : ℝ) : ℝ :=
  let A : ℝ := (1 / 40) + (57 / 200) * cos_2theta
  A

/-- `calc_extinction_sphere_secondary_lorentz`, output `var:B`, A_functions_base/extinction.py:111-157. -/
noncomputable def lorentz_B (f_sq : ℝ) (radius : ℝ) (mosaicity : ℝ) (volume_unit_cell : ℝ) (cos_2theta : ℝ) (wavelength : ℝ) : ℝ :=
  let B_1 : ℝ := -(9 / 20) * cos_2theta
  let B_2 : ℝ := (3 / 20) - (1 / 5) * ((3 / 4) - cos_2theta) ^ 2
  let B : ℝ := if cos_2theta > 0 then B_2 else B_1
  B

/-- `calc_extinction_sphere_secondary_lorentz`, output `f_sq`, A_functions_base/extinction.py:111-157. -/
noncomputable def d_lorentz_f_sq (f_sq : ℝ) (radius : ℝ) (mosaicity : ℝ) (volume_unit_cell : ℝ) (cos_2theta : ℝ) (wavelength : ℝ) : ℝ :=
  let mosaicity_rad : ℝ := mosaicity * Real.pi / (180 * 60)
  let term_1 : ℝ := mosaicity_rad / (mosaicity_rad * wavelength + radius * Real.sqrt (1 - cos_2theta ^ 2))
  let x : ℝ := (3 / 2) * f_sq * wavelength * (wavelength * radius / volume_unit_cell) ^ 2 * term_1
  let A : ℝ := (1 / 40) + (57 / 200) * cos_2theta
  let B_1 : ℝ := -(9 / 20) * cos_2theta
  let B_2 : ℝ := (3 / 20) - (1 / 5) * ((3 / 4) - cos_2theta) ^ 2
  let B : ℝ := if cos_2theta > 0 then B_2 else B_1
  let x_sq : ℝ := x ^ 2
  let y_s : ℝ := 1 / Real.sqrt (1 + 2 * x + A * x_sq / (1 + B * x))
  let der_ys_x : ℝ := -(1 / 2) * y_s ^ 3 * (2 + 2 * A * x / (1 + B * x) - A * B * x_sq / (1 + B * x) ^ 2)
  der_ys_x * (3 / 2) * wavelength * (wavelength * radius / volume_unit_cell) ^ 2 * term_1 * 1

/-- `calc_extinction_sphere_secondary_lorentz`, output `radius`, A_functions_base/extinction.py:111-157. -/
noncomputable def d_lorentz_radius (f_sq : ℝ) (radius : ℝ) (mosaicity : ℝ) (volume_unit_cell : ℝ) (cos_2theta : ℝ) (wavelength : ℝ) : ℝ :=
  0 * 1

/-- `calc_extinction_sphere_secondary_lorentz`, output `mosaicity`, A_functions_base/extinction.py:111-157. -/
noncomputable def d_lorentz_mosaicity (f_sq : ℝ) (radius : ℝ) (mosaicity : ℝ) (volume_unit_cell : ℝ) (cos_2theta : ℝ) (wavelength : ℝ) : ℝ :=
  0 * 1

/-- `calc_extinction_sphere_secondary_lorentz`, output `volume_unit_cell`, A_functions_base/extinction.py:111-157. -/
noncomputable def d_lorentz_volume_unit_cell (f_sq : ℝ) (radius : ℝ) (mosaicity : ℝ) (volume_unit_cell : ℝ) (cos_2theta : ℝ) (wavelength : ℝ) : ℝ :=
  0 * 1

/-- `calc_extinction_sphere_secondary_lorentz`, output `cos_2theta`, A_functions_base/extinction.py:111-157. -/
noncomputable def d_lorentz_cos_2theta (f_sq : ℝ) (radius : ℝ) (mosaicity : ℝ) (volume_unit_cell : ℝ) (cos_2theta : ℝ) (wavelength : ℝ) : ℝ :=
  0 * 1

/-- `calc_extinction_sphere_secondary_lorentz`, output `wavelength`, A_functions_base/extinction.py:111-157. -/
noncomputable def d_lorentz_wavelength (f_sq : ℝ) (radius : ℝ) (mosaicity : ℝ) (volume_unit_cell : ℝ) (cos_2theta : ℝ) (wavelength : ℝ) : ℝ :=
  0 * 1

/-- `calc_extinction_sphere_secondary_gauss`, output `0`, A_functions_base/extinction.py:50-108. -/
noncomputable def gauss_off (f_sq : ℝ) (radius : ℝ) (mosaicity : ℝ) (volume_unit_cell : ℝ) (cos_2theta : ℝ) (wavelength : ℝ) : ℝ :=
  let A : ℝ := (29 / 50) + (12 / 25) * cos_2theta + (6 / 25) * cos_2theta ^ 2
  let B : ℝ := (1 / 50) - (1 / 40) * cos_2theta
  let x_sq : ℝ := 0 ^ 2
  let y_s : ℝ := 1 / Real.sqrt (1 + (53 / 25) * 0 + A * x_sq / (1 + B * 0))
  y_s

/-- `calc_extinction_sphere_secondary_gauss`, output `f_sq`, A_functions_base/extinction.py:50-108. -/
noncomputable def d_gauss_off_f_sq (f_sq : ℝ) (radius : ℝ) (mosaicity : ℝ) (volume_unit_cell : ℝ) (cos_2theta : ℝ) (wavelength : ℝ) : ℝ :=
  let A : ℝ := (29 / 50) + (12 / 25) * cos_2theta + (6 / 25) * cos_2theta ^ 2
  let B : ℝ := (1 / 50) - (1 / 40) * cos_2theta
  let x_sq : ℝ := 0 ^ 2
  let y_s : ℝ := 1 / Real.sqrt (1 + (53 / 25) * 0 + A * x_sq / (1 + B * 0))
  let der_ys_x : ℝ := -(1 / 2) * y_s ^ 3 * ((53 / 25) + 2 * A * 0 / (1 + B * 0) - A * B * x_sq / (1 + B * 0) ^ 2)
  der_ys_x * (3 / 2) * wavelength * (wavelength * radius / volume_unit_cell) ^ 2 * 0 * 1

/-- `calc_extinction_sphere_secondary_lorentz`, output `0`, A_functions_base/extinction.py:111-157. -/
noncomputable def lorentz_off (f_sq : ℝ) (radius : ℝ) (mosaicity : ℝ) (volume_unit_cell : ℝ) (cos_2theta : ℝ) (wavelength : ℝ) : ℝ :=
  let A : ℝ := (1 / 40) + (57 / 200) * cos_2theta
  let B_1 : ℝ := -(9 / 20) * cos_2theta
  let B_2 : ℝ := (3 / 20) - (1 / 5) * ((3 / 4) - cos_2theta) ^ 2
  let B : ℝ := if cos_2theta > 0 then B_2 else B_1
  let x_sq : ℝ := 0 ^ 2
  let y_s : ℝ := 1 / Real.sqrt (1 + 2 * 0 + A * x_sq / (1 + B * 0))
  y_s

/-- `calc_extinction_sphere_secondary_lorentz`, output `f_sq`, A_functions_base/extinction.py:111-157. -/
noncomputable def d_lorentz_off_f_sq (f_sq : ℝ) (radius : ℝ) (mosaicity : ℝ) (volume_unit_cell : ℝ) (cos_2theta : ℝ) (wavelength : ℝ) : ℝ :=
  let A : ℝ := (1 / 40) + (57 / 200) * cos_2theta
  let B_1 : ℝ := -(9 / 20) * cos_2theta
  let B_2 : ℝ := (3 / 20) - (1 / 5) * ((3 / 4) - cos_2theta) ^ 2
  let B : ℝ := if cos_2theta > 0 then B_2 else B_1
  let x_sq : ℝ := 0 ^ 2
  let y_s : ℝ := 1 / Real.sqrt (1 + 2 * 0 + A * x_sq / (1 + B * 0))
  let der_ys_x : ℝ := -(1 / 2) * y_s ^ 3 * (2 + 2 * A * 0 / (1 + B * 0) - A * B * x_sq / (1 + B * 0) ^ 2)
  der_ys_x * (3 / 2) * wavelength * (wavelength * radius / volume_unit_cell) ^ 2 * 0 * 1

end Cryspy.Ext
