import Verif.SG.Check1

/-!
# The check of all settings of the space groups 75 to 194

In several theorems, so that the kernel drops what it has cached in between (and the modules of the checks in a chain, to bound the memory of a build).
-/

set_option Elab.async false
set_option maxRecDepth 100000

namespace Cryspy.SG

theorem check_75_100 : rangeCheck 75 100 = true := by decide +kernel

theorem check_100_123 : rangeCheck 100 123 = true := by decide +kernel

theorem check_123_133 : rangeCheck 123 133 = true := by decide +kernel

theorem check_133_143 : rangeCheck 133 143 = true := by decide +kernel

theorem check_143_166 : rangeCheck 143 166 = true := by decide +kernel

theorem check_166_177 : rangeCheck 166 177 = true := by decide +kernel

theorem check_177_186 : rangeCheck 177 186 = true := by decide +kernel

theorem check_186_190 : rangeCheck 186 190 = true := by decide +kernel

theorem check_190_195 : rangeCheck 190 195 = true := by decide +kernel

end Cryspy.SG
