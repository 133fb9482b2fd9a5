import Verif.SG.Settings

/-!
# The check of all settings of the space groups 1 to 74

In several theorems, so that the kernel drops what it has cached in between (and the modules of the checks in a chain, to bound the memory of a build).
-/

set_option Elab.async false
set_option maxRecDepth 100000

namespace Cryspy.SG

theorem check_1_16 : rangeCheck 1 16 = true := by decide +kernel

theorem check_16_24 : rangeCheck 16 24 = true := by decide +kernel

theorem check_24_36 : rangeCheck 24 36 = true := by decide +kernel

theorem check_36_48 : rangeCheck 36 48 = true := by decide +kernel

theorem check_48_52 : rangeCheck 48 52 = true := by decide +kernel

theorem check_52_60 : rangeCheck 52 60 = true := by decide +kernel

theorem check_60_68 : rangeCheck 60 68 = true := by decide +kernel

theorem check_68_75 : rangeCheck 68 75 = true := by decide +kernel

end Cryspy.SG
