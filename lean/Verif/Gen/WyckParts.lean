/-!
Generated by tools/gen_wyck.py from cryspy/A_functions_base/wyckoff.dat (all 19106 coordinates
of all positions of all settings): the distinct linear parts, nine coefficients each.
-/

namespace Cryspy.Wyck

/-- cryspy/A_functions_base/wyckoff.dat:1-12477 -/
def linearParts : List (List Int) := [
  [1, 0, 0, 0, 1, 0, 0, 0, 1],
  [-1, 0, 0, 0, -1, 0, 0, 0, -1],
  [0, 0, 0, 0, 0, 0, 0, 0, 0],
  [-1, 0, 0, 0, 1, 0, 0, 0, -1],
  [0, 0, 0, 0, 1, 0, 0, 0, 0],
  [-1, 0, 0, 0, -1, 0, 0, 0, 1],
  [0, 0, 0, 0, 0, 0, 0, 0, 1],
  [1, 0, 0, 0, -1, 0, 0, 0, -1],
  [1, 0, 0, 0, 0, 0, 0, 0, 0],
  [1, 0, 0, 0, -1, 0, 0, 0, 1],
  [1, 0, 0, 0, 0, 0, 0, 0, 1],
  [1, 0, 0, 0, 1, 0, 0, 0, -1],
  [1, 0, 0, 0, 1, 0, 0, 0, 0],
  [-1, 0, 0, 0, 1, 0, 0, 0, 1],
  [0, 0, 0, 0, 1, 0, 0, 0, 1],
  [-1, 0, 0, 0, 0, 0, 0, 0, -1],
  [0, 0, 0, 0, -1, 0, 0, 0, 0],
  [-1, 0, 0, 0, -1, 0, 0, 0, 0],
  [0, 0, 0, 0, 0, 0, 0, 0, -1],
  [0, 0, 0, 0, -1, 0, 0, 0, -1],
  [-1, 0, 0, 0, 0, 0, 0, 0, 0],
  [0, 0, 0, 0, -1, 0, 0, 0, 1],
  [-1, 0, 0, 0, 0, 0, 0, 0, 1],
  [1, 0, 0, 0, 0, 0, 0, 0, -1],
  [1, 0, 0, 0, -1, 0, 0, 0, 0],
  [-1, 0, 0, 0, 1, 0, 0, 0, 0],
  [0, 0, 0, 0, 1, 0, 0, 0, -1],
  [0, -1, 0, 1, 0, 0, 0, 0, 1],
  [0, 1, 0, -1, 0, 0, 0, 0, 1],
  [0, 1, 0, -1, 0, 0, 0, 0, -1],
  [0, -1, 0, 1, 0, 0, 0, 0, -1],
  [0, -1, 0, 1, 0, 0, 0, 0, 0],
  [0, 1, 0, -1, 0, 0, 0, 0, 0],
  [0, 1, 0, 1, 0, 0, 0, 0, -1],
  [0, -1, 0, -1, 0, 0, 0, 0, -1],
  [0, 0, 0, 1, 0, 0, 0, 0, 0],
  [0, 0, 0, -1, 0, 0, 0, 0, 0],
  [1, 0, 0, 1, 0, 0, 0, 0, 0],
  [-1, 0, 0, -1, 0, 0, 0, 0, 0],
  [-1, 0, 0, 1, 0, 0, 0, 0, 0],
  [1, 0, 0, -1, 0, 0, 0, 0, 0],
  [0, -1, 0, 0, 0, 0, 0, 0, 0],
  [0, 1, 0, 0, 0, 0, 0, 0, 0],
  [0, -1, 0, -1, 0, 0, 0, 0, 1],
  [0, 1, 0, 1, 0, 0, 0, 0, 1],
  [0, 0, 0, 1, 0, 0, 0, 0, 1],
  [0, 0, 0, -1, 0, 0, 0, 0, 1],
  [1, 0, 0, 1, 0, 0, 0, 0, 1],
  [-1, 0, 0, -1, 0, 0, 0, 0, 1],
  [-1, 0, 0, 1, 0, 0, 0, 0, 1],
  [1, 0, 0, -1, 0, 0, 0, 0, 1],
  [0, -1, 0, 0, 0, 0, 0, 0, 1],
  [0, 1, 0, 0, 0, 0, 0, 0, 1],
  [1, 0, 0, -1, 0, 0, 0, 0, -1],
  [-1, 0, 0, 1, 0, 0, 0, 0, -1],
  [0, 0, 0, -1, 0, 0, 0, 0, -1],
  [0, 0, 0, 1, 0, 0, 0, 0, -1],
  [1, 0, 0, 1, 0, 0, 0, 0, -1],
  [-1, 0, 0, -1, 0, 0, 0, 0, -1],
  [0, 1, 0, 1, 0, 0, 0, 0, 0],
  [0, -1, 0, -1, 0, 0, 0, 0, 0],
  [0, 1, 0, 0, 0, 0, 0, 0, -1],
  [0, -1, 0, 0, 0, 0, 0, 0, -1],
  [0, -1, 0, 1, -1, 0, 0, 0, 1],
  [-1, 1, 0, -1, 0, 0, 0, 0, 1],
  [0, 0, 1, 1, 0, 0, 0, 1, 0],
  [0, 1, 0, 0, 0, 1, 1, 0, 0],
  [1, 0, 0, 1, 0, 0, 1, 0, 0],
  [0, 1, 0, -1, 1, 0, 0, 0, -1],
  [1, -1, 0, 1, 0, 0, 0, 0, -1],
  [0, 0, -1, -1, 0, 0, 0, -1, 0],
  [0, -1, 0, 0, 0, -1, -1, 0, 0],
  [-1, 0, 0, -1, 0, 0, -1, 0, 0],
  [-1, 1, 0, 0, 1, 0, 0, 0, -1],
  [1, 0, 0, 1, -1, 0, 0, 0, -1],
  [1, 0, 0, 2, 0, 0, 0, 0, 0],
  [-2, 0, 0, -1, 0, 0, 0, 0, 0],
  [1, -1, 0, 0, -1, 0, 0, 0, -1],
  [-1, 0, 0, -1, 1, 0, 0, 0, -1],
  [0, 0, -1, 0, -1, 0, -1, 0, 0],
  [-1, 0, 0, 0, 0, -1, 0, -1, 0],
  [0, 0, 0, 0, 1, 0, 0, -1, 0],
  [0, -1, 0, 0, 0, 0, 0, 1, 0],
  [0, 1, 0, 0, -1, 0, 0, 0, 0],
  [-1, 1, 0, 0, 1, 0, 0, 0, 1],
  [1, 0, 0, 1, -1, 0, 0, 0, 1],
  [1, 0, 0, 2, 0, 0, 0, 0, 1],
  [-2, 0, 0, -1, 0, 0, 0, 0, 1],
  [1, -1, 0, 0, -1, 0, 0, 0, 1],
  [-1, 0, 0, -1, 1, 0, 0, 0, 1],
  [0, 0, 1, 0, 1, 0, 1, 0, 0],
  [1, 0, 0, 0, 0, 1, 0, 1, 0],
  [0, 0, 1, 1, 0, 0, 1, 0, 0],
  [1, 0, 0, 0, 0, 1, 1, 0, 0],
  [-1, 0, 0, -2, 0, 0, 0, 0, 0],
  [2, 0, 0, 1, 0, 0, 0, 0, 0],
  [2, 0, 0, 1, 0, 0, 0, 0, -1],
  [-1, 0, 0, -2, 0, 0, 0, 0, -1],
  [0, 0, -1, -1, 0, 0, -1, 0, 0],
  [-1, 0, 0, 0, 0, -1, -1, 0, 0],
  [0, 0, 0, 1, 0, 0, -1, 0, 0],
  [-1, 0, 0, 0, 0, 0, 1, 0, 0],
  [0, 0, 0, -1, 0, 0, 1, 0, 0],
  [1, 0, 0, 0, 0, 0, -1, 0, 0],
  [0, 1, 0, -1, 1, 0, 0, 0, 1],
  [1, -1, 0, 1, 0, 0, 0, 0, 1],
  [0, -1, 0, 1, -1, 0, 0, 0, -1],
  [-1, 1, 0, -1, 0, 0, 0, 0, -1],
  [0, -1, 0, 1, -1, 0, 0, 0, 0],
  [-1, 1, 0, -1, 0, 0, 0, 0, 0],
  [0, 1, 0, -1, 1, 0, 0, 0, 0],
  [1, -1, 0, 1, 0, 0, 0, 0, 0],
  [-1, 0, 0, -2, 0, 0, 0, 0, 1],
  [2, 0, 0, 1, 0, 0, 0, 0, 1],
  [1, 0, 0, 2, 0, 0, 0, 0, -1],
  [-2, 0, 0, -1, 0, 0, 0, 0, -1],
  [-1, 1, 0, 0, 1, 0, 0, 0, 0],
  [1, 0, 0, 1, -1, 0, 0, 0, 0],
  [1, -1, 0, 0, -1, 0, 0, 0, 0],
  [-1, 0, 0, -1, 1, 0, 0, 0, 0],
  [0, 0, 1, -1, 0, 0, 0, -1, 0],
  [0, 0, -1, -1, 0, 0, 0, 1, 0],
  [0, 0, -1, 1, 0, 0, 0, -1, 0],
  [0, -1, 0, 0, 0, 1, -1, 0, 0],
  [0, 1, 0, 0, 0, -1, -1, 0, 0],
  [0, -1, 0, 0, 0, -1, 1, 0, 0],
  [0, 0, 0, 0, 0, 0, 1, 0, 0],
  [0, 0, 0, 0, 0, 0, -1, 0, 0],
  [-1, 0, 0, -1, 0, 0, 1, 0, 0],
  [-1, 0, 0, 1, 0, 0, -1, 0, 0],
  [1, 0, 0, -1, 0, 0, -1, 0, 0],
  [0, 0, -1, 1, 0, 0, 0, 1, 0],
  [0, 0, 1, 1, 0, 0, 0, -1, 0],
  [0, 0, 1, -1, 0, 0, 0, 1, 0],
  [0, 1, 0, 0, 0, -1, 1, 0, 0],
  [0, -1, 0, 0, 0, 1, 1, 0, 0],
  [0, 1, 0, 0, 0, 1, -1, 0, 0],
  [0, 0, 1, 0, 0, 0, 0, 1, 0],
  [0, 0, 1, 0, 0, 0, 0, -1, 0],
  [0, 0, -1, 0, 0, 0, 0, 1, 0],
  [0, 0, -1, 0, 0, 0, 0, -1, 0],
  [0, 1, 0, 0, 0, 1, 0, 0, 0],
  [0, -1, 0, 0, 0, 1, 0, 0, 0],
  [0, 1, 0, 0, 0, -1, 0, 0, 0],
  [0, -1, 0, 0, 0, -1, 0, 0, 0],
  [1, 0, 0, 1, 0, 0, -1, 0, 0],
  [1, 0, 0, -1, 0, 0, 1, 0, 0],
  [-1, 0, 0, 1, 0, 0, 1, 0, 0],
  [1, 0, 0, 0, 0, 1, 0, -1, 0],
  [-1, 0, 0, 0, 0, 1, 0, 1, 0],
  [1, 0, 0, 0, 0, -1, 0, 1, 0],
  [0, 0, 1, 0, 1, 0, -1, 0, 0],
  [0, 0, 1, 0, -1, 0, 1, 0, 0],
  [0, 0, -1, 0, 1, 0, 1, 0, 0],
  [0, 0, 0, 0, 1, 0, 0, 1, 0],
  [0, 0, 0, 0, -1, 0, 0, 1, 0],
  [0, 0, 0, 0, -1, 0, 0, -1, 0],
  [0, 1, 0, 0, 0, 0, 0, 1, 0],
  [0, 1, 0, 0, 0, 0, 0, -1, 0],
  [0, -1, 0, 0, 0, 0, 0, -1, 0],
  [0, 1, 0, 0, 1, 0, 0, 0, 0],
  [0, -1, 0, 0, 1, 0, 0, 0, 0],
  [0, -1, 0, 0, -1, 0, 0, 0, 0],
  [-1, 0, 0, 0, 0, 1, 0, -1, 0],
  [-1, 0, 0, 0, 0, -1, 0, 1, 0],
  [1, 0, 0, 0, 0, -1, 0, -1, 0],
  [0, 0, 1, 0, -1, 0, -1, 0, 0],
  [0, 0, -1, 0, 1, 0, -1, 0, 0],
  [0, 0, -1, 0, -1, 0, 1, 0, 0],
  [0, 0, 1, -1, 0, 0, -1, 0, 0],
  [0, 0, -1, -1, 0, 0, 1, 0, 0],
  [0, 0, -1, 1, 0, 0, -1, 0, 0],
  [-1, 0, 0, 0, 0, 1, -1, 0, 0],
  [1, 0, 0, 0, 0, -1, -1, 0, 0],
  [-1, 0, 0, 0, 0, -1, 1, 0, 0],
  [1, 0, 0, 0, 0, 1, -1, 0, 0],
  [-1, 0, 0, 0, 0, 1, 1, 0, 0],
  [1, 0, 0, 0, 0, -1, 1, 0, 0],
  [0, 0, 1, 1, 0, 0, -1, 0, 0],
  [0, 0, 1, -1, 0, 0, 1, 0, 0],
  [0, 0, -1, 1, 0, 0, 1, 0, 0],
  [0, 0, 0, 0, 0, 1, 0, -1, 0],
  [0, 0, 0, 0, 0, 1, 0, 1, 0],
  [0, 0, 0, 0, 0, -1, 0, -1, 0],
  [0, 0, 0, 0, 0, -1, 0, 1, 0],
  [0, 0, 1, 0, 1, 0, 0, 0, 0],
  [0, 0, 1, 0, -1, 0, 0, 0, 0],
  [0, 0, -1, 0, 1, 0, 0, 0, 0],
  [0, 0, -1, 0, -1, 0, 0, 0, 0]]

end Cryspy.Wyck
