import Verif.SG.Settings

/-!
# The check of all settings of the space groups 195 to 220

In several theorems, so that the kernel drops what it has cached in between (and the modules of the checks in a chain, to bound the memory of a build).
-/

set_option Elab.async false
set_option maxRecDepth 100000

namespace Cryspy.SG

theorem check_195_207 : rangeCheck 195 207 = true := by decide +kernel

theorem check_207_213 : rangeCheck 207 213 = true := by decide +kernel

theorem check_213_217 : rangeCheck 213 217 = true := by decide +kernel

theorem check_217_219 : rangeCheck 217 219 = true := by decide +kernel

theorem check_219_221 : rangeCheck 219 221 = true := by decide +kernel

end Cryspy.SG
