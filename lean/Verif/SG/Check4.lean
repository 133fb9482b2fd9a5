import Verif.SG.Check3

/-!
# The check of all settings of the space groups 221 to 230

In several theorems, so that the kernel drops what it has cached in between (and the modules of the checks in a chain, to bound the memory of a build).
-/

set_option Elab.async false
set_option maxRecDepth 100000

namespace Cryspy.SG

theorem check_221_222 : rangeCheck 221 222 = true := by decide +kernel

theorem check_222_223 : rangeCheck 222 223 = true := by decide +kernel

theorem check_223_224 : rangeCheck 223 224 = true := by decide +kernel

theorem check_224_225 : rangeCheck 224 225 = true := by decide +kernel

theorem check_225_226 : rangeCheck 225 226 = true := by decide +kernel

theorem check_226_227 : rangeCheck 226 227 = true := by decide +kernel

theorem check_227_229 : rangeCheck 227 229 = true := by decide +kernel

theorem check_229_230 : rangeCheck 229 230 = true := by decide +kernel

theorem check_230_231 : rangeCheck 230 231 = true := by decide +kernel

end Cryspy.SG
