import Verif.Gen.Extinction

/-!
# Model of the extinction functions with numpy's NaN, A_functions_base/extinction.py

`none` stands for a result that is not a positive finite number (NaN from the square root of a negative number, or a zero
denominator).
-/

namespace Cryspy.Ext

/-- What stands under the square root, extinction.py:16, 72, 134. -/
noncomputable def radicand (k A B x : ℝ) : ℝ := 1 + k * x + A * x ^ 2 / (1 + B * x)

/-- `1./numpy.sqrt(1 + k*x + A*x_sq/(1.+ B*x))`, extinction.py:16, 72, 134. -/
noncomputable def invSqrt (k A B x : ℝ) : Option ℝ :=
  if 1 + B * x ≠ 0 ∧ 0 < radicand k A B x then some (1 / Real.sqrt (radicand k A B x)) else none

/-- `calc_extinction_sphere_primary`, extinction.py:4-47. -/
noncomputable def primaryY (f_sq radius volume cos_2theta wavelength : ℝ) : Option ℝ :=
  invSqrt 2 (primary_A f_sq radius volume cos_2theta wavelength) (primary_B f_sq radius volume cos_2theta wavelength)
    (primary_x f_sq radius volume cos_2theta wavelength)

/-- `calc_extinction_sphere_secondary_gauss`, extinction.py:50-108; line 73 replaces NaN by one. -/
noncomputable def gaussY (f_sq radius mosaicity volume cos_2theta wavelength : ℝ) : Option ℝ :=
  if radius * (mosaicity * Real.pi / (180 * 60)) > 0 then
    if 1 + gauss_B f_sq radius mosaicity volume cos_2theta wavelength * gauss_x f_sq radius mosaicity volume cos_2theta wavelength ≠ 0 ∧
        radicand (53 / 25) (gauss_A f_sq radius mosaicity volume cos_2theta wavelength)
          (gauss_B f_sq radius mosaicity volume cos_2theta wavelength) (gauss_x f_sq radius mosaicity volume cos_2theta wavelength) < 0 then
      some 1
    else
      invSqrt (53 / 25) (gauss_A f_sq radius mosaicity volume cos_2theta wavelength)
        (gauss_B f_sq radius mosaicity volume cos_2theta wavelength) (gauss_x f_sq radius mosaicity volume cos_2theta wavelength)
  else some (gauss_off f_sq radius mosaicity volume cos_2theta wavelength)

/-- `calc_extinction_sphere_secondary_lorentz`, extinction.py:111-157. -/
noncomputable def lorentzY (f_sq radius mosaicity volume cos_2theta wavelength : ℝ) : Option ℝ :=
  if radius * (mosaicity * Real.pi / (180 * 60)) > 0 then
    invSqrt 2 (lorentz_A f_sq radius mosaicity volume cos_2theta wavelength)
      (lorentz_B f_sq radius mosaicity volume cos_2theta wavelength) (lorentz_x f_sq radius mosaicity volume cos_2theta wavelength)
  else some (lorentz_off f_sq radius mosaicity volume cos_2theta wavelength)

/-- The choice of the secondary model by its name, extinction.py:177-199. -/
noncomputable def secondaryY (model : String) (f_sq radius mosaicity volume cos_2theta wavelength : ℝ) : Option ℝ :=
  if "gauss".toList.isPrefixOf model.toLower.toList then gaussY f_sq radius mosaicity volume cos_2theta wavelength
  else if "lorentz".toList.isPrefixOf model.toLower.toList then lorentzY f_sq radius mosaicity volume cos_2theta wavelength
  else some 1

/-- `calc_extinction_sphere`, the value, extinction.py:160-200. -/
noncomputable def extinctionY (model : String) (f_sq radius mosaicity volume cos_2theta wavelength : ℝ) : Option ℝ :=
  match primaryY f_sq radius volume cos_2theta wavelength, secondaryY model f_sq radius mosaicity volume cos_2theta wavelength with
  | some y_p, some y_s => some (y_p * y_s)
  | _, _ => none

end Cryspy.Ext
