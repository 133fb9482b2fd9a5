import Verif.Gen.Tof

/-!
# Model of A_functions_base/powder_diffraction_tof.py, the parts with branches

`none` is a result that is not a number (square root of a negative number, division by zero).
-/

namespace Cryspy.Tof

open Real

/-- `calc_d_by_time_for_thermal_neutrons`, A_functions_base/powder_diffraction_tof.py:51-59, and `TOFParameters.calc_d_by_time`
for thermal neutrons, C_item_loop_classes/cl_1_tof_parameters.py:164-196. -/
noncomputable def dByTime (time zero dtt1 dtt2 : ℝ) : Option ℝ :=
  if dtt1 ^ 2 - 4 * (zero - time) * dtt2 < 0 then none
  else if dtt2 < 0 then some (d_by_time_neg time zero dtt1 dtt2)
  else if dtt2 > 0 then some (d_by_time_pos time zero dtt1 dtt2)
  else if dtt1 = 0 then none
  else some (d_by_time_zero time zero dtt1 dtt2)

/-- `numpy.min` of the list `t :: ts` -/
noncomputable def npMin (t : ℝ) (ts : List ℝ) : ℝ := ts.foldl min t

/-- `numpy.max` of the list `t :: ts` -/
noncomputable def npMax (t : ℝ) (ts : List ℝ) : ℝ := ts.foldl max t

/-- one of the two roots in lines 65-68 of `calc_d_min_max_by_time_thermal_neutrons` -/
noncomputable def dRoot (time zero dtt1 dtt2 : ℝ) : Option ℝ :=
  if dtt1 ^ 2 - 4 * dtt2 * (zero - time) < 0 ∨ dtt2 = 0 then none
  else some ((-dtt1 + √(dtt1 ^ 2 - 4 * dtt2 * (zero - time))) / (2 * dtt2))

/-- `calc_d_min_max_by_time_thermal_neutrons`, A_functions_base/powder_diffraction_tof.py:62-69, and `TOFParameters.calc_d_min_max` for
thermal neutrons, C_item_loop_classes/cl_1_tof_parameters.py:131-162, on the times `t :: ts`. -/
noncomputable def dMinMax (t : ℝ) (ts : List ℝ) (zero dtt1 dtt2 : ℝ) : Option ℝ × Option ℝ :=
  (dRoot (npMin t ts) zero dtt1 dtt2, dRoot (npMax t ts) zero dtt1 dtt2)

end Cryspy.Tof
